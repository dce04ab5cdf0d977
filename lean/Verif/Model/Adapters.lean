import Verif.Model.Serde

/-!
# `validators::Result` and the Rocket traits
-/

namespace Verif.Adapters

open Verif.Serde (wrap custom)

variable {ε V : Type}

/-- `impl_from_form_field`: `validators-derive/src/common/rocket.rs` L5-14, for every handler except `length`. The error becomes
`form::Error::custom`. -/
def fromFormField (parseStr : List UInt8 → Out ε V) (value : List UInt8) : Out Unit V := custom (parseStr value)

/-- `impl_from_param`: `common/rocket.rs` L17-32. -/
def fromParam (parseStr : List UInt8 → Out ε V) (v : List UInt8) : Out ε V := parseStr v

/-- `FromFormField for Result`: `validators/src/result/rocket_traits.rs` L16-18. -/
def resultFromFormField (parseStr : List UInt8 → Out ε V) (value : List UInt8) : Out Unit (Except ε V) := wrap (fromParam parseStr value)

/-- `Result::new`: `validators/src/result/mod.rs` L20-23; `From<core::result::Result>`: `built_in_traits.rs` L18-23. -/
def new (r : Except ε V) : Except ε V := r

/-- `into_std_result`, `as_std_result`: `result/mod.rs` L25-35; `From`, `Deref`, `DerefMut`: `built_in_traits.rs` L25-46. -/
def intoStdResult (r : Except ε V) : Except ε V := r

/-- `FromStr for Result`: `built_in_traits.rs` L50-57. -/
def resultFromStr (parseStr : List UInt8 → Out ε V) (s : List UInt8) : Out ε (Except ε V) :=
  match parseStr s with
  | .ok v => .ok (new (.ok v))
  | .err e => .ok (new (.error e))
  | .panic => .panic

/-- `From<X> for Result`, `X` being `String`, `&str`, `bool`, `Vec<u8>`, `&[u8]`, `char`, `Value`, `f32`, `f64` or an integer
type: `built_in_traits.rs` L59-205. `parse` is the parse function of that input type. -/
def resultFrom {X : Type} (parse : X → Out ε V) (x : X) : Out ε (Except ε V) :=
  match parse x with
  | .ok v => .ok (new (.ok v))
  | .err e => .ok (new (.error e))
  | .panic => .panic

end Verif.Adapters
