import Verif.Model.Basic

/-!
# Specification of integers written in decimal
-/

namespace Verif.Spec.IntV

/-- The decimal digits. -/
def decDigits : List UInt8 := ascii "0123456789"

/-- The number written by decimal digits, most significant first. -/
def decValue : List UInt8 → Nat
  | [] => 0
  | b :: ds => decDigits.idxOf b * 10 ^ ds.length + decValue ds

/-- `s` is an optional sign followed by at least one decimal digit, and denotes `v`. The sign `-` is for signed types. -/
def Numeral (signed : Bool) (s : List UInt8) (v : Int) : Prop :=
  ∃ ds, ds ≠ [] ∧ (∀ b ∈ ds, b ∈ decDigits) ∧
    ((s = ds ∨ s = asc '+' :: ds) ∧ v = decValue ds ∨ signed = true ∧ s = asc '-' :: ds ∧ v = -decValue ds)

/-- `v` is a value of the (un)signed integer type with `bits` bits. -/
def Fits (signed : Bool) (bits : Nat) (v : Int) : Prop :=
  if signed then -2 ^ (bits - 1) ≤ v ∧ v < 2 ^ (bits - 1) else 0 ≤ v ∧ v < 2 ^ bits

end Verif.Spec.IntV
