import Verif.Model.Traits

/-!
# The generic functions, with the caller's own conversions

`parse_str<S: AsRef<str>>(s: S)` and its siblings call `as_ref` or `into` of a type of the caller, and `parse_collection` calls
`CollectionLength::len`. These are foreign code: each call may return something else. Here the bodies of the generated functions are
programs in which such a call is a step. Paths are relative to `validators-derive/src/validator_handlers`.

A `&str` that `as_ref` has returned does not change while it is in use: this is Rust's guarantee for shared references (trusted base).
-/

namespace Verif.Input

open Verif.Attr Verif.Derive Verif.Generated
open Verif.Range (Name Stmt RangeError evalCond)
open Verif.BaseN (strBytes)

/-- `as_ref`, `into` or `len` of the caller, called once: it may read and change a state, and it may panic (`none`). -/
abbrev Source (σ α : Type) := σ → Option α × σ

/-- A piece of generated code, started in a state of the caller's code. -/
def Prog (σ E A : Type) := σ → Out E A × σ

section
variable {σ E A B : Type}

/-- Code that calls no foreign code. -/
def plain (r : Out E A) : Prog σ E A := fun st => (r, st)

/-- A call of foreign code; a panic in it goes through. -/
def ask (src : Source σ A) : Prog σ E A := fun st =>
  match src st with
  | (some a, st') => (.ok a, st')
  | (none, st') => (.panic, st')

/-- Statements one after the other; `?` leaves the function. -/
def Prog.bind (x : Prog σ E A) (f : A → Prog σ E B) : Prog σ E B := fun st =>
  match x st with
  | (.ok a, st') => f a st'
  | (.err e, st') => (.err e, st')
  | (.panic, st') => (.panic, st')

instance : Monad (Prog σ E) where
  pure a := plain (.ok a)
  bind := Prog.bind

end

/-! ## `ValidateString` -/

/-- The three functions of `ValidateString`: `validators/src/traits/validate_string.rs` L4-12. -/
structure Entries (σ E A : Type) where
  parseString : Source σ (List Char) → Prog σ E A
  parseStr : Source σ (List Char) → Prog σ E A
  validateStr : Source σ (List Char) → Prog σ E Unit

section
variable {σ E A : Type}

/-- The validators that keep the text: `base32/mod.rs`, `base64/mod.rs` L146-168, `base64_url/mod.rs` L147-169, `line/mod.rs`,
`text/mod.rs` L737-759, `regex/mod.rs` L52-74. `check` is `v_parse_str`, which returns nothing; `wrap` makes the structure. -/
def keeps (check : List Char → Out E Unit) (wrap : List Char → A) : Entries σ E A where
  parseString src := do
    let s ← ask src
    plain (check s)
    return wrap s
  parseStr src := do
    let s ← ask src
    plain (check s)
    return wrap s
  validateStr src := do
    let s ← ask src
    plain (check s)
    return ()

/-- The validators that compute a value: `bit/mod.rs` L116-130, `boolean/mod.rs` L221-235, `byte/mod.rs` L120-134, `domain/mod.rs`
L874-892, `email/mod.rs` L1504-1522, `host/mod.rs` L627-645, `http_ftp_url/mod.rs` L119-143, `http_url/mod.rs` L118-142, `ip/mod.rs`
L368-386, `ipv4/mod.rs` L267-285, `ipv6/mod.rs` L299-317, `json/mod.rs` L95-109, `number/mod.rs` L238-252, `phone/mod.rs` L129-143,
`semver/mod.rs`, `semver_req/mod.rs`, `url/mod.rs` L47-61, `signed_integer/mod.rs`, `unsigned_integer/mod.rs` L217-231. `parse` is
`v_parse_str`, together with the making of the structure. -/
def parses (parse : List Char → Out E A) : Entries σ E A where
  parseString src := do
    let s ← ask src
    plain (parse s)
  parseStr src := do
    let s ← ask src
    plain (parse s)
  validateStr src := do
    let s ← ask src
    let _ ← plain (parse s)
    return ()

/-- The validators that compute a value and have a check of their own: `base32_decoded/mod.rs`, `base64_decoded/mod.rs`,
`base64_url_decoded/mod.rs` L184-198, `mac_address/mod.rs` L266-280, `uuid/mod.rs` L254-268. `check` is `v_validate_str`. -/
def checks (parse : List Char → Out E A) (check : List Char → Out E Unit) : Entries σ E A where
  parseString src := do
    let s ← ask src
    plain (parse s)
  parseStr src := do
    let s ← ask src
    plain (parse s)
  validateStr src := do
    let s ← ask src
    plain (check s)
    return ()

end

section
variable {φ κ N U V ε : Type} [Ord φ] [DecidableEq κ]

/-- Which of the three forms a handler writes. The functions `v_parse_str` and `v_validate_str` are those of `Generated.generate`. -/
def entries (σ : Type) (L : Libs φ κ N U V ε) (p : Plan φ κ) : Option (Entries σ (Error ε) (Value φ κ N U V)) :=
  (generate L p).map fun I =>
    match p with
    | .base v _ =>
      match v with
      | .base32 => keeps I.validateStr .text
      | .base64 => keeps I.validateStr .text
      | .base64_url => keeps I.validateStr .text
      | _ => checks I.parseStr I.validateStr
    | .utf8 _ _ => keeps I.validateStr .text
    | .regex _ => keeps I.validateStr fun s => .matched (strBytes s)
    | .hex _ _ => checks I.parseStr I.validateStr
    | _ => parses I.parseStr

end

/-! ## `ValidateBytes` -/

/-- The three functions of `ValidateBytes`: `validators/src/traits/validate_bytes.rs` L4-12. -/
structure ByteEntries (σ E A : Type) where
  parseVecU8 : Source σ (List UInt8) → Prog σ E A
  parseU8Slice : Source σ (List UInt8) → Prog σ E A
  validateU8Slice : Source σ (List UInt8) → Prog σ E Unit

/-- `base32/mod.rs`, `base64/mod.rs` L175-197, `base64_url/mod.rs` L176-198. The result is the bytes that are given to
`String::from_utf8_unchecked`. -/
def keepsBytes {σ : Type} (B : BaseN.Variant) (pad : TriAllow) : ByteEntries σ BaseN.BaseError (List UInt8) where
  parseVecU8 src := do
    let v ← ask src
    plain (BaseN.check B pad v)
    return v
  parseU8Slice src := do
    let v ← ask src
    plain (BaseN.check B pad v)
    return v
  validateU8Slice src := do
    let v ← ask src
    plain (BaseN.check B pad v)
    return ()

/-- `base32_decoded/mod.rs`, `base64_decoded/mod.rs`, `base64_url_decoded/mod.rs` L205-219. -/
def decodesBytes {σ : Type} (B : BaseN.Variant) (C : BaseN.Encoding) (pad : TriAllow) : ByteEntries σ BaseN.BaseError (List UInt8) where
  parseVecU8 src := do
    let v ← ask src
    plain (BaseN.decodedParse C pad v)
  parseU8Slice src := do
    let v ← ask src
    plain (BaseN.decodedParse C pad v)
  validateU8Slice src := do
    let v ← ask src
    plain (BaseN.decodedValidate B pad v)
    return ()

/-! ## `ValidateLength` -/

section
variable {σ : Type}

/-- Run the statements of `Range.lengthCode`; `CollectionLength::len(v)` is a call of foreign code. See `Range.run`. -/
def runLength (len : Source σ Nat) : (Name → Option Nat) → List (Stmt Nat) → Prog σ RangeError Unit
  | _, [] => return ()
  | env, .bindLen :: rest => do
    let n ← ask len
    runLength len (fun x => if x = .length then some n else env x) rest
  | env, .failIf c e :: rest =>
    match env c.name with
    | none => plain .panic
    | some x => if evalCond (fun a b => some (compare a b)) x c then plain (.err e) else runLength len env rest
  | env, .matchCmp x c _ :: rest =>
    match env x with
    | none => plain .panic
    | some a =>
      match compare a c with
      | .eq => runLength len env rest
      | .lt => plain (.err .tooSmall)
      | .gt => plain (.err .tooLarge)

/-- `parse_collection`: `length/mod.rs` L126-148. The collection itself is kept. -/
def parseCollection {K : Type} (code : List (Stmt Nat)) (len : Source σ Nat) (v : K) : Prog σ RangeError K := do
  runLength len (fun _ => none) code
  return v

/-- `validate_collection`: `length/mod.rs` L150-156. -/
def validateCollection (code : List (Stmt Nat)) (len : Source σ Nat) : Prog σ RangeError Unit := do
  runLength len (fun _ => none) code
  return ()

/-- `CollectionLength::is_empty`: `validators/src/traits/collection_length.rs` L16-19. -/
def isEmpty {E : Type} (len : Source σ Nat) : Prog σ E Bool := do
  let n ← ask len
  return n == 0

end

end Verif.Input
