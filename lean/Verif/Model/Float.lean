import Verif.Model.Number

/-!
# The floats of the `number` validator, bit by bit

`Model/Number.lean` takes the floats as an ordered type with NaN and their `FromStr` as a parameter. Here they are the bit
patterns of IEEE 754, `FromStr` reads decimal texts, and the casts between `f32` and `f64` round.
-/

namespace Verif.Float

open Verif.Range

/-- The float types that a `number` validator can have: `enum NumberType` in `number/mod.rs` L21-24. -/
inductive Fmt where
  | f32
  | f64
  deriving DecidableEq, Repr

/-- Bits of the fraction (IEEE 754 binary32 and binary64). -/
def Fmt.man : Fmt → Nat
  | .f32 => 23
  | .f64 => 52

/-- Bits of the exponent. -/
def Fmt.exp : Fmt → Nat
  | .f32 => 8
  | .f64 => 11

/-- The smallest positive number is `2 ^ -scale`: 149 and 1074. -/
def Fmt.scale (F : Fmt) : Nat := 2 ^ (F.exp - 1) - 2 + F.man

/-- Infinity: all bits of the exponent, none of the fraction. -/
def Fmt.inf (F : Fmt) : Nat := (2 ^ F.exp - 1) * 2 ^ F.man

/-- A float: the sign bit, and the bits of exponent and fraction as one number. -/
structure Float (F : Fmt) where
  neg : Bool
  mag : Nat
  lt : mag < 2 ^ (F.exp + F.man)
  deriving DecidableEq, Repr

variable {F : Fmt}

/-- `is_nan`. -/
def Float.isNan (x : Float F) : Bool := decide (F.inf < x.mag)

/-- Where a float that is not NaN stands in the order: the bits of exponent and fraction grow with the size of the number, and
both zeros are at zero. -/
def Float.key (x : Float F) : Int := if x.neg then -(x.mag : Int) else x.mag

/-- `PartialOrd::partial_cmp` of `f32` and `f64` (IEEE 754 comparison). -/
def pcmp (x y : Float F) : Option Ordering :=
  if x.isNan || y.isNan then none else some (compare x.key y.key)

/-- `RangedNumber` of a float type: `common/range.rs` L38-51. `inc` is never called for floats. -/
def num : Num (Float F) where
  isFloat := true
  inc _ := none
  eq x y := pcmp x y == some .eq

/-- The compiled range check: `number/mod.rs` L80-189, L223-229. -/
def check (r : RangeOption (Float F)) : Option (Float F → Out RangeError Unit) := compile pcmp .f (numberCode num r)

/-- `handle_nan`: `number/mod.rs` L191-209. -/
def checkNan (nan : TriAllow) (f : Float F) : Out Number.NumberError Unit :=
  match nan with
  | .allow => .ok ()
  | .must => if f.isNan then .ok () else .err .nanMust
  | .disallow => if f.isNan then .err .nanDisallow else .ok ()

/-- `v_parse_f`, hence `parse_f32` and `parse_f64` at the validator's own type: `number/mod.rs` L223-229, L262-267, L293-298.
`chk` is the compiled range check. -/
def parseF (chk : Float F → Out RangeError Unit) (nan : TriAllow) (f : Float F) : Out Number.NumberError (Float F) :=
  match chk f with
  | .err e => .err (.range e)
  | .panic => .panic
  | .ok () => (checkNan nan f).map fun _ => f

/-! ## Reading and rounding (`core`) -/

theorem Fmt.inf_lt (F : Fmt) : F.inf < 2 ^ (F.exp + F.man) := by cases F <;> decide +kernel

/-- `F::INFINITY`, `F::NEG_INFINITY`. -/
def infinity (F : Fmt) (neg : Bool) : Float F := ⟨neg, F.inf, F.inf_lt⟩

/-- `F::NAN` with a sign: the first bit of the fraction is set. -/
def nan (F : Fmt) (neg : Bool) : Float F := ⟨neg, F.inf + 2 ^ (F.man - 1), by cases F <;> decide +kernel⟩

/-- Division with rounding to the nearest, ties to even. -/
def divEven (a d : Nat) : Nat :=
  if 2 * (a % d) < d then a / d
  else if 2 * (a % d) = d then a / d + (a / d) % 2
  else a / d + 1

/-- The bits of exponent and fraction for the number `a / d * 2 ^ -scale`, with no limit on the exponent: the number is divided by
the power of two that leaves `man + 1` bits (fewer for a small number) and rounded. -/
def pattern (F : Fmt) (a d : Nat) : Nat :=
  let shift := (a / d).log2 - F.man
  shift * 2 ^ F.man + divEven a (d * 2 ^ shift)

/-- The float for the number `n / d`, rounded to the nearest, ties to even; too large numbers are infinite. -/
def ofRatio (F : Fmt) (neg : Bool) (n d : Nat) : Float F :=
  ⟨neg, min F.inf (pattern F (n * 2 ^ F.scale) d), Nat.lt_of_le_of_lt (Nat.min_le_left _ _) F.inf_lt⟩

/-- The number of a run of digits: `core::num::dec2flt::parse` `parse_digits`. -/
def digits : Nat → List UInt8 → Nat
  | acc, [] => acc
  | acc, b :: rest => digits (acc * 10 + (b.toNat - 48)) rest

/-- `u8::is_ascii_digit`. -/
def isDigit (b : UInt8) : Bool := inRange '0' '9' b

/-- `core::num::dec2flt::parse` `parse_scientific`: the exponent after `e`. Simplified: the code stops adding digits at 65536, which
changes the result only for texts with more than 65536 digits. -/
def exponent (s : List UInt8) : Option Int :=
  let (neg, t) :=
    match s with
    | [] => (false, [])
    | b :: rest => if b = asc '-' then (true, rest) else if b = asc '+' then (false, rest) else (false, s)
  if t ≠ [] ∧ t.all isDigit then some (if neg then -(digits 0 t : Int) else digits 0 t) else none

/-- `core::num::dec2flt::parse` `parse_number`: the digits as a number, and the power of ten it is multiplied by. -/
def number (s : List UInt8) : Option (Nat × Int) :=
  let int := s.takeWhile isDigit
  let rest := s.dropWhile isDigit
  let (frac, rest) :=
    match rest with
    | [] => ([], [])
    | b :: r => if b = asc '.' then (r.takeWhile isDigit, r.dropWhile isDigit) else ([], rest)
  if int.length + frac.length = 0 then none
  else
    match rest with
    | [] => some (digits 0 (int ++ frac), -(frac.length : Int))
    | b :: r =>
      if b = asc 'e' ∨ b = asc 'E' then (exponent r).map fun x => (digits 0 (int ++ frac), x - frac.length)
      else none

/-- `u8::to_ascii_lowercase`. -/
def lower (b : UInt8) : UInt8 := if inRange 'A' 'Z' b then b + 32 else b

/-- `core::num::dec2flt::parse` `parse_inf_nan`. -/
def infNan (F : Fmt) (neg : Bool) (s : List UInt8) : Option (Float F) :=
  let t := s.map lower
  if t = ascii "nan" then some (nan F neg)
  else if t = ascii "inf" then some (infinity F neg)
  else if t = ascii "infinity" then some (infinity F neg)
  else none

/-- What comes after the sign. -/
def unsigned (F : Fmt) (neg : Bool) (s : List UInt8) : Option (Float F) :=
  match number s with
  | some (n, x) => some (if 0 ≤ x then ofRatio F neg (n * 10 ^ x.toNat) 1 else ofRatio F neg n (10 ^ (-x).toNat))
  | none => infNan F neg s

/-- `<f32 as FromStr>::from_str` and `<f64 as FromStr>::from_str`: `core::num::dec2flt` `dec2flt`, whose result is documented to be
the nearest float. -/
def fromStr (F : Fmt) (s : List UInt8) : Option (Float F) :=
  match s with
  | [] => none
  | b :: rest =>
    if b = asc '-' then unsigned F true rest
    else if b = asc '+' then unsigned F false rest
    else unsigned F false s

/-- `v_parse_str`: `number/mod.rs` L213-221. -/
def parseStr (chk : Float F → Out RangeError Unit) (nan : TriAllow) (s : List UInt8) : Out Number.NumberError (Float F) :=
  match fromStr F s with
  | none => .err .parseFloat
  | some f => parseF chk nan f

/-- The size of a float that is not NaN or infinite, in units of `2 ^ -scale`: a fraction without exponent is the number itself,
otherwise there is one more bit in front of the fraction, and the exponent shifts it. -/
def units (F : Fmt) (mag : Nat) : Nat :=
  if mag / 2 ^ F.man = 0 then mag % 2 ^ F.man else (2 ^ F.man + mag % 2 ^ F.man) * 2 ^ (mag / 2 ^ F.man - 1)

/-- `f as f32` and `f as f64` between the float types: NaN and the infinities stay (the payload of NaN is not kept here), other
numbers are rounded to the nearest, ties to even. -/
def cast (G : Fmt) (x : Float F) : Float G :=
  if x.isNan then nan G x.neg
  else if x.mag = F.inf then infinity G x.neg
  else ofRatio G x.neg (units F x.mag) (2 ^ F.scale)

/-- `parse_f64` of a validator over `f32` (`number/mod.rs` L283-286) and `parse_f32` of a validator over `f64`
(`validators/src/traits/validate_number.rs` L9-12): the number is cast to the type of the validator. -/
def parseOther {G : Fmt} (chk : Float F → Out RangeError Unit) (nan : TriAllow) (f : Float G) : Out Number.NumberError (Float F) :=
  parseF chk nan (cast F f)

end Verif.Float
