import Verif.Model.SerdeImpl
import Verif.Spec.Int

/-!
# Specification of deserialization
-/

namespace Verif.Spec.Serde

open Verif.Serde Verif.Spec.IntV

variable {F G α ε : Type}

/-- What a deserializer hands over: a character is a text of one character; how a text or bytes are stored does not matter. -/
inductive Data (F G : Type) where
  | bool (b : Bool)
  | int (ty : IntTy) (x : Int)
  | f32 (f : G)
  | f64 (f : F)
  | text (s : List Char)
  | bytes (b : List UInt8)
  | nothing

/-- The data of an event. -/
def dataOf : Event F G → Data F G
  | .bool b => .bool b
  | .int ty x => .int ty x
  | .f32 f => .f32 f
  | .f64 f => .f64 f
  | .char c => .text [c]
  | .str s | .borrowedStr s | .string s => .text s
  | .bytes b | .borrowedBytes b | .byteBuf b => .bytes b
  | .other => .nothing

/-- The signed integer types. -/
def IsSigned : IntTy → Bool
  | .i8 | .i16 | .i32 | .i64 | .i128 => true
  | _ => false

/-- The number of bits of an integer type. -/
def bitsOf : IntTy → Nat
  | .i8 | .u8 => 8
  | .i16 | .u16 => 16
  | .i32 | .u32 => 32
  | .i64 | .u64 => 64
  | .i128 | .u128 => 128

/-- An integer handed over as a value of some type is a value of that type. -/
def WellTyped (d : Deserializer F G) : Prop := ∀ hint ty x, d.feed hint = some (.int ty x) → Fits (IsSigned ty) (bitsOf ty) x

/-- Deserialization returns, and this is the outcome. -/
def Outcome (body : Body F G α) (d : Deserializer F G) (o : Out Unit α) : Prop := ∃ n, run body n d = some o

/-- Deserialization returns. -/
def Finishes (body : Body F G α) (d : Deserializer F G) : Prop := ∃ o, Outcome body d o

/-- The outcome of a deserialization that asks for `hint` and applies to the data the parse function that `parse` has for it:
an error if the deserializer fails, if there is no such function, or if it refuses the data. -/
def reply (parse : Data F G → Option (Out ε α)) (hint : Hint) (d : Deserializer F G) : Out Unit α :=
  match (d.feed hint).bind fun e => parse (dataOf e) with
  | some (.ok v) => .ok v
  | some .panic => .panic
  | _ => .err ()

/-- The same for `validators::Result`: a refusal by the parse function is a value. -/
def replyResult (parse : Data F G → Option (Out ε α)) (hint : Hint) (d : Deserializer F G) : Out Unit (Except ε α) :=
  match (d.feed hint).bind fun e => parse (dataOf e) with
  | some (.ok v) => .ok (.ok v)
  | some (.err e) => .ok (.error e)
  | some .panic => .panic
  | none => .err ()

/-- The outcome of a deserialization that first reads a value of another type and then gives it to `parse`. -/
def replyRead {ι : Type} (read : Deserializer F G → Option ι) (parse : ι → Out ε α) (d : Deserializer F G) : Out Unit α :=
  match (read d).map parse with
  | some (.ok v) => .ok v
  | some .panic => .panic
  | _ => .err ()

/-- The same for `validators::Result`; `unread` is the outcome if nothing can be read. -/
def replyReadResult {ι : Type} (read : Deserializer F G → Option ι) (parse : ι → Out ε α) (unread : Out Unit (Except ε α))
    (d : Deserializer F G) : Out Unit (Except ε α) :=
  match (read d).map parse with
  | some (.ok v) => .ok (.ok v)
  | some (.err e) => .ok (.error e)
  | some .panic => .panic
  | none => unread

/-- Texts are parsed by `parse`; nothing else is accepted. -/
def texts (parse : List Char → Out ε α) : Data F G → Option (Out ε α)
  | .text s => some (parse s)
  | _ => none

/-- Texts and bytes. -/
def textsOrBytes (parse : List Char → Out ε α) (parseBytes : List UInt8 → Out ε α) : Data F G → Option (Out ε α)
  | .text s => some (parse s)
  | .bytes b => some (parseBytes b)
  | _ => none

/-- Texts and integers of the signed (unsigned) types. -/
def textsOrInts (signed : Bool) (parse : List Char → Out ε α) (parseInt : Int → Out ε α) : Data F G → Option (Out ε α)
  | .text s => some (parse s)
  | .int ty x => if IsSigned ty = signed then some (parseInt x) else none
  | _ => none

/-- Texts and floats. -/
def textsOrFloats (parse : List Char → Out ε α) (parse64 : F → Out ε α) (parse32 : G → Out ε α) : Data F G → Option (Out ε α)
  | .text s => some (parse s)
  | .f64 f => some (parse64 f)
  | .f32 f => some (parse32 f)
  | _ => none

/-- Texts, booleans and all integers. -/
def textsBoolsOrInts (parse : List Char → Out ε Bool) (parseInt : Int → Out ε Bool) : Data F G → Option (Out ε Bool)
  | .text s => some (parse s)
  | .bool b => some (.ok b)
  | .int _ x => some (parseInt x)
  | _ => none

/-! ## Formats -/

/-- Texts come back as the same text, however they are asked for. -/
def KeepsText (fmt : Format F G) : Prop :=
  ∀ s hint, hint ≠ .u128 → ∃ e, fmt.feed (.str s) hint = some e ∧ dataOf e = .text s

/-- Booleans come back. -/
def KeepsBools (fmt : Format F G) : Prop := ∀ b, ∃ e, fmt.feed (.bool b) .any = some e ∧ dataOf e = .bool b

/-- An integer written as a value of some type is a value of that type. -/
def Written (t : Token F G) : Prop := ∀ ty x, t = .int ty x → Fits (IsSigned ty) (bitsOf ty) x

/-- Integers come back, with their type. -/
def KeepsInts (fmt : Format F G) : Prop :=
  ∀ ty x, Fits (IsSigned ty) (bitsOf ty) x → ∃ e, fmt.feed (.int ty x) .any = some e ∧ dataOf e = .int ty x

/-- What has been written with the right types is handed over with the right types. -/
def KeepsTypes (fmt : Format F G) : Prop := ∀ t, Written t → WellTyped (fmt.reader t)

/-- Floats come back, with their type. -/
def KeepsFloats (fmt : Format F G) : Prop :=
  (∀ f, ∃ e, fmt.feed (.f64 f) .any = some e ∧ dataOf e = .f64 f) ∧ ∀ f, ∃ e, fmt.feed (.f32 f) .any = some e ∧ dataOf e = .f32 f

/-- Bytes come back. -/
def KeepsBytes (fmt : Format F G) : Prop := ∀ b, ∃ e, fmt.feed (.bytes b) .any = some e ∧ dataOf e = .bytes b

/-- Deserializing what was written gives `v`. -/
def ReadsBack (body : Body F G α) (fmt : Format F G) (t : Token F G) (v : α) : Prop := Outcome body (fmt.reader t) (.ok v)

/-- An outcome whose error, if it has one, is this range error among the errors of the integer validators. -/
def withRangeError : Out Range.RangeError α → Out IntV.IntError α
  | .ok a => .ok a
  | .err .tooLarge => .err (.range .tooLarge)
  | .err .tooSmall => .err (.range .tooSmall)
  | .err .forbidden => .err (.range .forbidden)
  | .panic => .panic

end Verif.Spec.Serde
