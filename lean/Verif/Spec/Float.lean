import Verif.Model.Float
import Verif.Spec.Int
import Verif.Spec.Range
import Mathlib.Order.WithBot
import Mathlib.Algebra.Order.Field.Rat

/-!
# Specification of floats: IEEE 754 values, rounding, decimal texts
-/

namespace Verif.Spec.Float

open Verif.Float (Fmt Float)

variable {F : Fmt}

/-- The exponent bits of a float. -/
def expBits (x : Float F) : Nat := x.mag / 2 ^ F.man

/-- The fraction bits of a float. -/
def fracBits (x : Float F) : Nat := x.mag % 2 ^ F.man

/-- The bias of the exponent: 127 and 1023. -/
def bias (F : Fmt) : Nat := 2 ^ (F.exp - 1) - 1

/-- All exponent bits set, and a fraction. -/
def IsNan (x : Float F) : Prop := expBits x = 2 ^ F.exp - 1 ∧ fracBits x ≠ 0

/-- All exponent bits set, no fraction. -/
def IsInf (x : Float F) : Prop := expBits x = 2 ^ F.exp - 1 ∧ fracBits x = 0

/-- Neither NaN nor infinite. -/
def IsFinite (x : Float F) : Prop := expBits x < 2 ^ F.exp - 1

/-- The number that a finite float stands for (IEEE 754): sign, exponent, and fraction with a leading 1 unless the exponent bits
are all zero. -/
def value (x : Float F) : ℚ :=
  (if x.neg then -1 else 1) *
    if expBits x = 0 then (2 : ℚ) ^ (1 - (bias F : ℤ)) * (fracBits x / 2 ^ F.man)
    else (2 : ℚ) ^ ((expBits x : ℤ) - bias F) * (1 + fracBits x / 2 ^ F.man)

/-- The numbers with two infinities. -/
abbrev Ext := WithBot (WithTop ℚ)

/-- The place in the order of a float that is not NaN. -/
def place (x : Float F) : Ext :=
  if expBits x = 2 ^ F.exp - 1 then (if x.neg then ⊥ else ⊤) else ((value x : WithTop ℚ) : Ext)

/-- From here on numbers are rounded to infinity: half a unit above the largest finite float. -/
def overflow (F : Fmt) : ℚ := 2 ^ bias F * (2 - 1 / 2 ^ (F.man + 1))

/-- `x` is `q` rounded to the nearest float, ties to the even fraction (IEEE 754 roundTiesToEven), with the sign `neg`. -/
def RoundsTo (neg : Bool) (q : ℚ) (x : Float F) : Prop :=
  x.neg = neg ∧
    if overflow F ≤ |q| then IsInf x
    else IsFinite x ∧ ∀ y : Float F, IsFinite y →
      |q - value x| ≤ |q - value y| ∧ (|q - value x| = |q - value y| → value x ≠ value y → fracBits x % 2 = 0)

/-- `x` is a float nearest to `q`, with its sign (any sign for zero). -/
def Nearest (q : ℚ) (x : Float F) : Prop := ∃ neg, (if neg then q ≤ 0 else 0 ≤ q) ∧ RoundsTo neg q x

/-- An optional sign. -/
def Sign (s : List UInt8) (neg : Bool) : Prop :=
  s = [] ∧ neg = false ∨ s = [asc '+'] ∧ neg = false ∨ s = [asc '-'] ∧ neg = true

/-- An optional exponent: `e` or `E`, an optional sign, at least one digit. -/
def ExpPart (s : List UInt8) (x : ℤ) : Prop :=
  s = [] ∧ x = 0 ∨ ∃ e n, s = e :: n ∧ (e = asc 'e' ∨ e = asc 'E') ∧ IntV.Numeral true n x

/-- `s` is a decimal text: an optional sign, digits with at most one point and at least one digit, an optional exponent. It
writes the number `q`. -/
def Decimal (s : List UInt8) (neg : Bool) (q : ℚ) : Prop :=
  ∃ sign int point frac exp x, s = sign ++ int ++ point ++ frac ++ exp ∧
    Sign sign neg ∧ (∀ b ∈ int ++ frac, b ∈ IntV.decDigits) ∧ int ++ frac ≠ [] ∧
    (point = [] ∧ frac = [] ∨ point = [asc '.']) ∧ ExpPart exp x ∧
    q = (if neg then -1 else 1) * IntV.decValue (int ++ frac) * (10 : ℚ) ^ (x - frac.length)

/-- The text with its capital letters made small. -/
def small (s : List UInt8) : List UInt8 :=
  s.map fun b => if 65 ≤ b.toNat ∧ b.toNat ≤ 90 then b + 32 else b

/-- `s` is a text for infinity. -/
def InfText (s : List UInt8) (neg : Bool) : Prop :=
  ∃ sign w, s = sign ++ w ∧ Sign sign neg ∧ (small w = ascii "inf" ∨ small w = ascii "infinity")

/-- `s` is a text for NaN. -/
def NanText (s : List UInt8) (neg : Bool) : Prop :=
  ∃ sign w, s = sign ++ w ∧ Sign sign neg ∧ small w = ascii "nan"

/-- The bounds as numbers. -/
def placeBounds (b : Verif.Range.Bounds (Float F)) : Verif.Range.Bounds Ext := ⟨b.min.map place, b.max.map place, b.inclusive⟩

/-- The range as numbers. -/
def placeRange : Verif.Range.RangeOption (Float F) → Verif.Range.RangeOption Ext
  | .inside b => .inside (placeBounds b)
  | .outside b => .outside (placeBounds b)
  | .unlimited => .unlimited

/-- No bound is NaN: the bounds come from literals, and there is no literal for NaN. -/
def NoNan : Verif.Range.RangeOption (Float F) → Prop
  | .inside b | .outside b => (∀ m, b.min = some m → ¬ IsNan m) ∧ ∀ m, b.max = some m → ¬ IsNan m
  | .unlimited => True

end Verif.Spec.Float
