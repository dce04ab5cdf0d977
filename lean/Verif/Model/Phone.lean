import Verif.Model.Basic

/-!
# The `phone` handler

The phone number library (`phonenumber` crate) is a parameter.
-/

namespace Verif.Phone

/-- What the handler uses of the `phonenumber` crate: `parse` (`none` is any error), `PhoneNumber::country().id()` and
`PhoneNumber::is_valid`. `C` is `country::Id`, `N` is `PhoneNumber`. -/
structure Lib (C N : Type) where
  parse : Option C → List UInt8 → Option N
  country : N → Option C
  isValid : N → Bool

/-- `PhoneError`: `validators/src/errors/phone.rs`. -/
inductive PhoneError where
  | failure
  | invalid
  deriving DecidableEq, Repr

variable {C N : Type}

/-- `v_parse_str` without countries: `phone/mod.rs` L51-66. -/
def parseAny (lib : Lib C N) (s : List UInt8) : Out PhoneError N :=
  match lib.parse none s with
  | none => .err .failure
  | some n => if lib.isValid n then .ok n else .err .invalid

variable [DecidableEq C]

/-- `v_parse_str` with one country: `phone/mod.rs` L67-90. -/
def parseOne (lib : Lib C N) (c : C) (s : List UInt8) : Out PhoneError N :=
  match lib.parse (some c) s with
  | none => .err .failure
  | some n =>
    match lib.country n with
    | some id => if id = c ∧ lib.isValid n = true then .ok n else .err .invalid
    | none => .err .invalid

/-- A `HashMap`, as the list of its entries. -/
abbrev Map (C N : Type) := List (C × N)

/-- `HashMap::insert`: an older entry of the key is replaced. -/
def Map.insert (m : Map C N) (c : C) (n : N) : Map C N := (c, n) :: m.filter fun e => e.1 ≠ c

/-- The statements generated for each country, in turn: `phone/mod.rs` L103-111. -/
def steps (lib : Lib C N) (s : List UInt8) : List C → Map C N → Out PhoneError (Map C N)
  | [], m => .ok m
  | c :: cs, m =>
    match lib.parse (some c) s with
    | none => .err .failure
    | some n =>
      match lib.country n with
      | some id => if id = c ∧ lib.isValid n = true then steps lib s cs (Map.insert m c n) else steps lib s cs m
      | none => steps lib s cs m

/-- `v_parse_str` with several countries: `phone/mod.rs` L91-122. -/
def parseMany (lib : Lib C N) (cs : List C) (s : List UInt8) : Out PhoneError (Map C N) :=
  (steps lib s cs []).bind fun m => if m.isEmpty then .err .invalid else .ok m

/-- The value: a number, or a map when there are several countries. -/
inductive Value (C N : Type) where
  | number (n : N)
  | numbers (m : Map C N)
  deriving DecidableEq

/-- The function that is generated depends on the number of countries: `phone/mod.rs` L51-122. The countries come from a
`HashSet`: `cs` is its content in the order of iteration. -/
def parseStr (lib : Lib C N) (cs : List C) (s : List UInt8) : Out PhoneError (Value C N) :=
  match cs with
  | [] => (parseAny lib s).map .number
  | [c] => (parseOne lib c s).map .number
  | cs => (parseMany lib cs s).map .numbers

/-- `validate_str`: `phone/mod.rs` L139-143. -/
def validateStr (lib : Lib C N) (cs : List C) (s : List UInt8) : Out PhoneError Unit :=
  (parseStr lib cs s).bind fun _ => .ok ()

end Verif.Phone
