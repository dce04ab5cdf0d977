import Verif.Model.Basic
import Verif.Model.BaseN

/-!
# Deserialization: the part of serde the handlers meet

A deserializer is asked for some kind of data (`deserialize_any`, `deserialize_str`, ...) and answers by calling one method
of the visitor, or fails. Strings are lists of characters. `F` is `f64`, `G` is `f32`.
-/

namespace Verif.Serde

open Verif.BaseN (strBytes)

/-- The integer types of the serde data model. -/
inductive IntTy where
  | i8 | i16 | i32 | i64 | i128 | u8 | u16 | u32 | u64 | u128
  deriving DecidableEq, Repr

/-- The call of a visitor method that a deserializer makes. `other` stands for `visit_none`, `visit_some`, `visit_unit`,
`visit_newtype_struct`, `visit_seq`, `visit_map` and `visit_enum`, which no visitor of this crate overrides. -/
inductive Event (F G : Type) where
  | bool (b : Bool)
  | int (ty : IntTy) (x : Int)
  | f32 (f : G)
  | f64 (f : F)
  | char (c : Char)
  | str (s : List Char)
  | borrowedStr (s : List Char)
  | string (s : List Char)
  | bytes (b : List UInt8)
  | borrowedBytes (b : List UInt8)
  | byteBuf (b : List UInt8)
  | other

/-- The request made to a deserializer. -/
inductive Hint where
  | any
  | str
  | string
  | u128
  deriving DecidableEq, Repr

/-- A deserializer: `is_human_readable`, and its reaction to each request, `none` being an error of its own. -/
structure Deserializer (F G : Type) where
  human : Bool
  feed : Hint → Option (Event F G)

/-- A visitor: the methods it overrides. The error of the method, whatever it is, becomes an error of the deserializer
(`de::Error::custom`), so it is not kept. -/
structure Visitor (F G α : Type) where
  bool : Option (Bool → Out Unit α) := none
  i8 : Option (Int → Out Unit α) := none
  i16 : Option (Int → Out Unit α) := none
  i32 : Option (Int → Out Unit α) := none
  i64 : Option (Int → Out Unit α) := none
  i128 : Option (Int → Out Unit α) := none
  u8 : Option (Int → Out Unit α) := none
  u16 : Option (Int → Out Unit α) := none
  u32 : Option (Int → Out Unit α) := none
  u64 : Option (Int → Out Unit α) := none
  u128 : Option (Int → Out Unit α) := none
  f32 : Option (G → Out Unit α) := none
  f64 : Option (F → Out Unit α) := none
  char : Option (Char → Out Unit α) := none
  str : Option (List Char → Out Unit α) := none
  string : Option (List Char → Out Unit α) := none
  bytes : Option (List UInt8 → Out Unit α) := none
  byteBuf : Option (List UInt8 → Out Unit α) := none

variable {F G α : Type}

/-- A method that is not overridden and forwards to nothing: `Err(Error::invalid_type(..))`. -/
def orError {β : Type} (f : Option (β → Out Unit α)) (x : β) : Out Unit α :=
  match f with
  | some f => f x
  | none => .err ()

/-- The own method if overridden, else the method serde's default forwards to. -/
def orElse {β γ : Type} (f : Option (β → Out Unit α)) (conv : β → γ) (g : Option (γ → Out Unit α)) (x : β) : Out Unit α :=
  match f with
  | some f => f x
  | none => orError g (conv x)

/-- Call the visitor, with the defaults of `serde::de::Visitor`: `visit_i8`, `visit_i16`, `visit_i32` forward to `visit_i64`;
`visit_u8`, `visit_u16`, `visit_u32` to `visit_u64`; `visit_f32` to `visit_f64`; `visit_char`, `visit_borrowed_str` and
`visit_string` to `visit_str`; `visit_borrowed_bytes` and `visit_byte_buf` to `visit_bytes`; every other method is an error.
`widen` is `f as f64`; widening an integer does not change it. -/
def visit (widen : G → F) (v : Visitor F G α) : Event F G → Out Unit α
  | .bool b => orError v.bool b
  | .int .i8 x => orElse v.i8 id v.i64 x
  | .int .i16 x => orElse v.i16 id v.i64 x
  | .int .i32 x => orElse v.i32 id v.i64 x
  | .int .i64 x => orError v.i64 x
  | .int .i128 x => orError v.i128 x
  | .int .u8 x => orElse v.u8 id v.u64 x
  | .int .u16 x => orElse v.u16 id v.u64 x
  | .int .u32 x => orElse v.u32 id v.u64 x
  | .int .u64 x => orError v.u64 x
  | .int .u128 x => orError v.u128 x
  | .f32 f => orElse v.f32 widen v.f64 f
  | .f64 f => orError v.f64 f
  | .char c => orElse v.char (fun c => [c]) v.str c
  | .str s => orError v.str s
  | .borrowedStr s => orError v.str s
  | .string s => orElse v.string id v.str s
  | .bytes b => orError v.bytes b
  | .borrowedBytes b => orError v.bytes b
  | .byteBuf b => orElse v.byteBuf id v.bytes b
  | .other => .err ()

/-- `deserializer.deserialize_xxx(visitor)`. -/
def drive (widen : G → F) (v : Visitor F G α) (hint : Hint) (d : Deserializer F G) : Out Unit α :=
  match d.feed hint with
  | none => .err ()
  | some e => visit widen v e

/-- `.map_err(de::Error::custom)`. -/
def custom {ε : Type} : Out ε α → Out Unit α
  | .ok a => .ok a
  | .err _ => .err ()
  | .panic => .panic

/-- `Ok(Result::new(..))` in `validators/src/result/serde_traits.rs`: the outcome of the parse function becomes the value. -/
def wrap {ε : Type} : Out ε α → Out Unit (Except ε α)
  | .ok a => .ok (.ok a)
  | .err e => .ok (.error e)
  | .panic => .panic

/-- A generated `deserialize`: what it does, given what a call of itself does (`none` is a call that does not return). -/
abbrev Body (F G α : Type) := (Deserializer F G → Option (Out Unit α)) → Deserializer F G → Option (Out Unit α)

/-- Run with at most `n` nested calls: `none` if they are not enough. -/
def run (body : Body F G α) : Nat → Deserializer F G → Option (Out Unit α)
  | 0 => fun _ => none
  | n + 1 => body (run body n)

/-- A `deserialize` that does not call itself. -/
def plain (f : Deserializer F G → Out Unit α) : Body F G α := fun _ d => some (f d)

/-! ## The shapes of the generated `Deserialize` impls

The parse functions of the validator are arguments. -/

variable {ε V : Type} (widen : G → F)

/-- `base32/mod.rs` L217-273, `base64/mod.rs` L217-273, `base64_url/mod.rs` L218-274, `base32_decoded/mod.rs` L245-300,
`base64_decoded/mod.rs` L245-300, `base64_url_decoded/mod.rs` L245-300: `visit_str`, `visit_string`, `visit_bytes`,
`visit_byte_buf`. -/
def bytesVisitor (parseStr parseString : List Char → Out ε V) (parseSlice parseVec : List UInt8 → Out ε V) : Visitor F G V where
  str := some fun s => custom (parseStr s)
  string := some fun s => custom (parseString s)
  bytes := some fun b => custom (parseSlice b)
  byteBuf := some fun b => custom (parseVec b)

/-- As above: `deserialize_any`. -/
def bytesDe (parseStr parseString : List Char → Out ε V) (parseSlice parseVec : List UInt8 → Out ε V) : Body F G V :=
  plain (drive widen (bytesVisitor parseStr parseString parseSlice parseVec) .any)

/-- `visit_str` only. -/
def strVisitor (parseStr : List Char → Out ε V) : Visitor F G V where
  str := some fun s => custom (parseStr s)

/-- `ipv4/mod.rs` L347-421, `ipv6/mod.rs` L379-453, `ip/mod.rs` L459-533, `host/mod.rs` L746-832, `email/mod.rs` L1694-1760,
`mac_address/mod.rs` L349-412, `uuid/mod.rs` L369-432, `phone/mod.rs` L162-206, `http_url/mod.rs` L161-205,
`http_ftp_url/mod.rs` L162-206: `deserialize_str`. -/
def strDe (parseStr : List Char → Out ε V) : Body F G V := plain (drive widen (strVisitor parseStr) .str)

/-- `visit_str` and `visit_string`. -/
def stringVisitor (parseStr parseString : List Char → Out ε V) : Visitor F G V where
  str := some fun s => custom (parseStr s)
  string := some fun s => custom (parseString s)

/-- `line/mod.rs` L778-839, `text/mod.rs` L778-839, `regex/mod.rs` L93-130: `deserialize_string`. -/
def stringDe (parseStr parseString : List Char → Out ε V) : Body F G V :=
  plain (drive widen (stringVisitor parseStr parseString) .string)

/-- `domain/mod.rs` L997-1104: the same visitor with `deserialize_any`. -/
def domainDe (parseStr parseString : List Char → Out ε V) : Body F G V :=
  plain (drive widen (stringVisitor parseStr parseString) .any)

/-- `boolean/mod.rs` L318-399. `visit_bool` keeps the boolean. -/
def booleanVisitor (parseStr parseString : List Char → Out ε Bool) (parseChar : Char → Out ε Bool)
    (parseI64 parseU64 parseI128 parseU128 : Int → Out ε Bool) : Visitor F G Bool where
  str := some fun s => custom (parseStr s)
  string := some fun s => custom (parseString s)
  bool := some fun b => .ok b
  char := some fun c => custom (parseChar c)
  i64 := some fun x => custom (parseI64 x)
  u64 := some fun x => custom (parseU64 x)
  i128 := some fun x => custom (parseI128 x)
  u128 := some fun x => custom (parseU128 x)

/-- `boolean/mod.rs` L396: `deserialize_any`. -/
def booleanDe (parseStr parseString : List Char → Out ε Bool) (parseChar : Char → Out ε Bool)
    (parseI64 parseU64 parseI128 parseU128 : Int → Out ε Bool) : Body F G Bool :=
  plain (drive widen (booleanVisitor parseStr parseString parseChar parseI64 parseU64 parseI128 parseU128) .any)

/-- `number/mod.rs` L326-441. -/
def numberVisitor (parseStr parseString : List Char → Out ε V) (parseF64 : F → Out ε V) (parseF32 : G → Out ε V) : Visitor F G V where
  str := some fun s => custom (parseStr s)
  string := some fun s => custom (parseString s)
  f64 := some fun f => custom (parseF64 f)
  f32 := some fun f => custom (parseF32 f)

/-- `number/mod.rs` L438: `deserialize_any`. -/
def numberDe (parseStr parseString : List Char → Out ε V) (parseF64 : F → Out ε V) (parseF32 : G → Out ε V) : Body F G V :=
  plain (drive widen (numberVisitor parseStr parseString parseF64 parseF32) .any)

/-- `signed_integer/mod.rs` L524-649. The error types of the text and the integer functions are the same type; here they may
differ. -/
def signedVisitor {ε' : Type} (parseStr parseString : List Char → Out ε V) (i8 i16 i32 i64 i128 : Int → Out ε' V) :
    Visitor F G V where
  str := some fun s => custom (parseStr s)
  string := some fun s => custom (parseString s)
  i8 := some fun x => custom (i8 x)
  i16 := some fun x => custom (i16 x)
  i32 := some fun x => custom (i32 x)
  i64 := some fun x => custom (i64 x)
  i128 := some fun x => custom (i128 x)

/-- `signed_integer/mod.rs` L646: `deserialize_any`. -/
def signedDe {ε' : Type} (parseStr parseString : List Char → Out ε V) (i8 i16 i32 i64 i128 : Int → Out ε' V) : Body F G V :=
  plain (drive widen (signedVisitor parseStr parseString i8 i16 i32 i64 i128) .any)

/-- `unsigned_integer/mod.rs` L507-632. -/
def unsignedVisitor {ε' : Type} (parseStr parseString : List Char → Out ε V) (u8 u16 u32 u64 u128 : Int → Out ε' V) :
    Visitor F G V where
  str := some fun s => custom (parseStr s)
  string := some fun s => custom (parseString s)
  u8 := some fun x => custom (u8 x)
  u16 := some fun x => custom (u16 x)
  u32 := some fun x => custom (u32 x)
  u64 := some fun x => custom (u64 x)
  u128 := some fun x => custom (u128 x)

/-- `unsigned_integer/mod.rs` L629: `deserialize_any`. -/
def unsignedDe {ε' : Type} (parseStr parseString : List Char → Out ε V) (u8 u16 u32 u64 u128 : Int → Out ε' V) : Body F G V :=
  plain (drive widen (unsignedVisitor parseStr parseString u8 u16 u32 u64 u128) .any)

/-- `byte/mod.rs` L195-236. -/
def byteVisitor (parseStr : List Char → Out ε V) (parseU128 : Int → Out ε V) : Visitor F G V where
  str := some fun s => custom (parseStr s)
  u128 := some fun x => custom (parseU128 x)

/-- `byte/mod.rs` L229-233. -/
def byteDe (parseStr : List Char → Out ε V) (parseU128 : Int → Out ε V) : Body F G V :=
  plain fun d => drive widen (byteVisitor parseStr parseU128) (if d.human then .str else .u128) d

/-- `bit/mod.rs` L191-205, `length/mod.rs` L174-189: deserialize the inner type (a parameter), then check. -/
def innerDe {ι : Type} (inner : Deserializer F G → Option ι) (check : ι → Out ε Unit) : Body F G ι := plain fun d =>
  match inner d with
  | none => .err ()
  | some v => (custom (check v)).bind fun _ => .ok v

/-- `json/mod.rs` L244-257: deserialize a `serde_json::Value` (a parameter), then `from_value`. -/
def jsonDe {J : Type} (value : Deserializer F G → Option J) (fromValue : J → Except ε V) : Body F G V := plain fun d =>
  match value d with
  | none => .err ()
  | some j =>
    match fromValue j with
    | .ok v => .ok v
    | .error _ => .err ()

/-- `url/mod.rs` L80-91, `semver/mod.rs` L80-91, `semver_req/mod.rs` L80-91: the body is
`Deserialize::deserialize(deserializer)`; the type to deserialize is inferred from the return type, so it is the function
itself. -/
def selfDe : Body F G V := fun self d => self d

/-! ## `validators::Result` -/

/-- `String::deserialize` of serde: `deserialize_string`; strings, and bytes that are UTF-8. -/
def readString (fromUtf8 : List UInt8 → Option (List Char)) : Visitor F G (List Char) :=
  let utf8 b := match fromUtf8 b with | some s => Out.ok s | none => .err ()
  { str := some .ok, string := some .ok, bytes := some utf8, byteBuf := some utf8 }

/-- `u128::deserialize` of serde: `deserialize_u128`; every unsigned integer and the non-negative signed ones. -/
def readU128 : Visitor F G Int :=
  let nonneg x := if x < 0 then Out.err () else .ok x
  { i8 := some nonneg, i16 := some nonneg, i32 := some nonneg, i64 := some nonneg, i128 := some nonneg,
    u8 := some .ok, u16 := some .ok, u32 := some .ok, u64 := some .ok, u128 := some .ok }

/-- `validators/src/result/serde_traits.rs` L17-342, the six base-N impls. -/
def bytesResultDe (parseStr parseString : List Char → Out ε V) (parseSlice parseVec : List UInt8 → Out ε V) :
    Body F G (Except ε V) :=
  plain (drive widen
    { str := some fun s => wrap (parseStr s), string := some fun s => wrap (parseString s),
      bytes := some fun b => wrap (parseSlice b), byteBuf := some fun b => wrap (parseVec b) } .any)

/-- `serde_traits.rs`: email L513-539, host L541-567, http_url L569-597, http_ftp_url L599-627, ip L629-655, ipv4 L657-683,
ipv6 L685-711, mac_address L782-810, phone L865-891, semver L928-956, url L1152-1178, uuid L1180-1206. -/
def strResultDe (parseStr : List Char → Out ε V) : Body F G (Except ε V) :=
  plain (drive widen { str := some fun s => wrap (parseStr s) } .str)

/-- `serde_traits.rs`: line L747-780, regex L893-926, text L1037-1070. -/
def stringResultDe (parseStr parseString : List Char → Out ε V) : Body F G (Except ε V) :=
  plain (drive widen { str := some fun s => wrap (parseStr s), string := some fun s => wrap (parseString s) } .string)

/-- `serde_traits.rs`: domain L476-511. -/
def domainResultDe (parseStr parseString : List Char → Out ε V) : Body F G (Except ε V) :=
  plain (drive widen { str := some fun s => wrap (parseStr s), string := some fun s => wrap (parseString s) } .any)

/-- `serde_traits.rs`: boolean L364-454. -/
def booleanResultDe (parseStr parseString : List Char → Out ε Bool) (parseChar : Char → Out ε Bool) (parseBool : Bool → Out ε Bool)
    (parseI64 parseU64 parseI128 parseU128 : Int → Out ε Bool) : Body F G (Except ε Bool) :=
  plain (drive widen
    { bool := some fun b => wrap (parseBool b), i64 := some fun x => wrap (parseI64 x), i128 := some fun x => wrap (parseI128 x),
      u64 := some fun x => wrap (parseU64 x), u128 := some fun x => wrap (parseU128 x), char := some fun c => wrap (parseChar c),
      str := some fun s => wrap (parseStr s), string := some fun s => wrap (parseString s) } .any)

/-- `serde_traits.rs`: number L812-863. -/
def numberResultDe (parseStr parseString : List Char → Out ε V) (parseF64 : F → Out ε V) (parseF32 : G → Out ε V) :
    Body F G (Except ε V) :=
  plain (drive widen
    { str := some fun s => wrap (parseStr s), string := some fun s => wrap (parseString s),
      f32 := some fun f => wrap (parseF32 f), f64 := some fun f => wrap (parseF64 f) } .any)

/-- `serde_traits.rs`: signed_integer L958-1035. -/
def signedResultDe (parseStr parseString : List Char → Out ε V) (i8 i16 i32 i64 i128 : Int → Out ε V) : Body F G (Except ε V) :=
  plain (drive widen
    { str := some fun s => wrap (parseStr s), string := some fun s => wrap (parseString s), i8 := some fun x => wrap (i8 x),
      i16 := some fun x => wrap (i16 x), i32 := some fun x => wrap (i32 x), i64 := some fun x => wrap (i64 x),
      i128 := some fun x => wrap (i128 x) } .any)

/-- `serde_traits.rs`: unsigned_integer L1072-1150. -/
def unsignedResultDe (parseStr parseString : List Char → Out ε V) (u8 u16 u32 u64 u128 : Int → Out ε V) : Body F G (Except ε V) :=
  plain (drive widen
    { str := some fun s => wrap (parseStr s), string := some fun s => wrap (parseString s), u8 := some fun x => wrap (u8 x),
      u16 := some fun x => wrap (u16 x), u32 := some fun x => wrap (u32 x), u64 := some fun x => wrap (u64 x),
      u128 := some fun x => wrap (u128 x) } .any)

/-- `serde_traits.rs`: bit L344-362, byte L456-474: read a `String` or a `u128`, then parse. -/
def sizeResultDe (fromUtf8 : List UInt8 → Option (List Char)) (parseString : List Char → Out ε V) (parseU128 : Int → Out ε V) :
    Body F G (Except ε V) :=
  plain fun d =>
    if d.human then (drive widen (readString fromUtf8) .string d).bind fun s => wrap (parseString s)
    else (drive widen readU128 .u128 d).bind fun x => wrap (parseU128 x)

/-- `serde_traits.rs`: json L713-733. `invalid` is `JsonError::InvalidJsonValueError`. -/
def jsonResultDe {J : Type} (value : Deserializer F G → Option J) (parseValue : J → Out ε V) (invalid : ε) : Body F G (Except ε V) :=
  plain fun d =>
    match value d with
    | some j => wrap (parseValue j)
    | none => .ok (.error invalid)

/-- `serde_traits.rs`: length L735-745. -/
def lengthResultDe {ι : Type} (inner : Deserializer F G → Option ι) (parse : ι → Out ε V) : Body F G (Except ε V) :=
  plain fun d =>
    match inner d with
    | some v => wrap (parse v)
    | none => .err ()

end Verif.Serde
