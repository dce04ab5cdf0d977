import Verif.Model.Int

/-!
# The `regex`, `url`, `semver`, `semver_req` and `json` handlers

The libraries that decide are parameters.
-/

namespace Verif.Regex

/-- `v_parse_str`: `regex/mod.rs` L35-45. `isMatch` is `Regex::is_match` of the configured expression. -/
def vParse (isMatch : List UInt8 → Bool) (s : List UInt8) : Out Unit Unit := if !isMatch s then .err () else .ok ()

/-- `parse_string`: `regex/mod.rs` L52-58. -/
def parseString (isMatch : List UInt8 → Bool) (s : List UInt8) : Out Unit (List UInt8) := (vParse isMatch s).bind fun _ => .ok s

/-- `parse_str`: `regex/mod.rs` L61-67. -/
def parseStr (isMatch : List UInt8 → Bool) (s : List UInt8) : Out Unit (List UInt8) := (vParse isMatch s).bind fun _ => .ok s

/-- `validate_str`: `regex/mod.rs` L70-74. -/
def validateStr (isMatch : List UInt8 → Bool) (s : List UInt8) : Out Unit Unit := (vParse isMatch s).bind fun _ => .ok ()

end Verif.Regex

namespace Verif.Wrapper

variable {ε V : Type}

/-- `v_parse_str`: `url/mod.rs` L34-40, `semver/mod.rs` L34-40, `semver_req/mod.rs` L34-40, `json/mod.rs` L37-39. `lib` is
`Url::parse`, `Version::parse`, `VersionReq::parse`, `serde_json::from_str`. The error of the library is kept
(`#[error(transparent)]` newtypes). -/
def vParse (lib : List UInt8 → Except ε V) (s : List UInt8) : Out ε V :=
  match lib s with
  | .ok v => .ok v
  | .error e => .err e

/-- `parse_string`: L46-49 of each, `json/mod.rs` L95-97. -/
def parseString (lib : List UInt8 → Except ε V) (s : List UInt8) : Out ε V := (vParse lib s).bind .ok

/-- `parse_str`: L51-54 of each, `json/mod.rs` L100-102. -/
def parseStr (lib : List UInt8 → Except ε V) (s : List UInt8) : Out ε V := (vParse lib s).bind .ok

/-- `validate_str`: L56-61 of each, `json/mod.rs` L105-109. -/
def validateStr (lib : List UInt8 → Except ε V) (s : List UInt8) : Out ε Unit := (vParse lib s).bind fun _ => .ok ()

end Verif.Wrapper

namespace Verif.Json

open Verif.IntV (Ptr Width bits castTo)

/-- `serde_json::Number` without `arbitrary_precision`: a `u64`, a negative `i64`, or a finite float. -/
inductive Number (F : Type) where
  | pos (n : Nat)
  | neg (i : Int)
  | float (f : F)

/-- `serde_json::Value`: strings, arrays and objects play no part here and are kept abstract in `other`. -/
inductive Value (F R : Type) where
  | null
  | bool (b : Bool)
  | number (n : Number F)
  | other (r : R)

/-- `JsonError` is the error of `serde_json`: from `to_value` or from `from_value`. -/
inductive JsonError (ε : Type) where
  | toValue
  | fromValue (e : ε)

variable {F R ε V : Type}

/-- `serde_json::to_value` of an `i64` (`u64`): `Number::from(i64)` keeps negative and non-negative numbers apart. -/
def toValue64 (i : Int) : Option (Value F R) := some (.number (if i < 0 then .neg i else .pos i.toNat))

/-- `serde_json::to_value` of an `i128` (`u128`): numbers outside `u64` and `i64` are refused. -/
def toValue128 (i : Int) : Option (Value F R) :=
  if 0 ≤ i ∧ i < 2 ^ 64 then some (.number (.pos i.toNat))
  else if -2 ^ 63 ≤ i ∧ i < 2 ^ 63 then some (.number (.neg i))
  else none

/-- `serde_json::to_value` of an `f64`: a float that is not finite becomes `null`. -/
def toValueF (finite : F → Bool) (f : F) : Option (Value F R) := some (if finite f then .number (.float f) else .null)

/-- The two lines of each `v_parse_*`: `json/mod.rs` L41-88. -/
def fromTo (fromValue : Value F R → Except ε V) (v : Option (Value F R)) : Out (JsonError ε) V :=
  match v with
  | none => .err .toValue
  | some v =>
    match fromValue v with
    | .ok d => .ok d
    | .error e => .err (.fromValue e)

/-- `parse_json_value`: `json/mod.rs` L83-86, L204-206. -/
def parseValue (fromValue : Value F R → Except ε V) (v : Value F R) : Out (JsonError ε) V :=
  match fromValue v with
  | .ok d => .ok d
  | .error e => .err (.fromValue e)

/-- `parse_i128` / `parse_u128`: `json/mod.rs` L41-46, L55-60, L116-118, L144-146. -/
def parse128 (fromValue : Value F R → Except ε V) (x : Int) : Out (JsonError ε) V := fromTo fromValue (toValue128 x)

/-- `parse_i64` / `parse_u64`: `json/mod.rs` L48-53, L62-67, L121-123, L149-151. -/
def parse64 (fromValue : Value F R → Except ε V) (x : Int) : Out (JsonError ε) V := fromTo fromValue (toValue64 x)

/-- `parse_i32` / `parse_u32`: the default `parse_i64(i as i64)`, `validators/src/traits/validate_signed_integer.rs`
L32-35, `validate_unsigned_integer.rs` L32-35. -/
def parse32 (fromValue : Value F R → Except ε V) (signed : Bool) (x : Int) : Out (JsonError ε) V :=
  parse64 fromValue (castTo signed 64 x)

/-- `parse_i16` / `parse_u16`: the default, L37-40. -/
def parse16 (fromValue : Value F R → Except ε V) (signed : Bool) (x : Int) : Out (JsonError ε) V :=
  parse32 fromValue signed (castTo signed 32 x)

/-- `parse_i8` / `parse_u8`: the default, L42-45. -/
def parse8 (fromValue : Value F R → Except ε V) (signed : Bool) (x : Int) : Out (JsonError ε) V :=
  parse16 fromValue signed (castTo signed 16 x)

/-- The integer entry points; `parse_isize` / `parse_usize` is the default for the pointer width, L9-25. -/
def parseW (fromValue : Value F R → Except ε V) (ptr : Ptr) (signed : Bool) (w : Width) (x : Int) : Out (JsonError ε) V :=
  match w with
  | .w128 => parse128 fromValue x
  | .w64 => parse64 fromValue x
  | .w32 => parse32 fromValue signed x
  | .w16 => parse16 fromValue signed x
  | .w8 => parse8 fromValue signed x
  | .size =>
    match ptr with
    | .p64 => parse64 fromValue (castTo signed 64 x)
    | .p32 => parse32 fromValue signed (castTo signed 32 x)
    | .p16 => parse16 fromValue signed (castTo signed 16 x)

/-- `validate_i128`, `validate_i64`, ... run the same functions and forget the value: `json/mod.rs` L126-137, L154-165. -/
def validateW (fromValue : Value F R → Except ε V) (ptr : Ptr) (signed : Bool) (w : Width) (x : Int) : Out (JsonError ε) Unit :=
  (parseW fromValue ptr signed w x).bind fun _ => .ok ()

/-- `parse_f64`: `json/mod.rs` L69-74, L172-174. `parse_f32` is the default `parse_f64(f as f64)`. -/
def parseF64 (finite : F → Bool) (fromValue : Value F R → Except ε V) (f : F) : Out (JsonError ε) V :=
  fromTo fromValue (toValueF finite f)

/-- `parse_bool`: `json/mod.rs` L76-81, L188-190. -/
def parseBool (fromValue : Value F R → Except ε V) (b : Bool) : Out (JsonError ε) V := fromTo fromValue (some (.bool b))

end Verif.Json
