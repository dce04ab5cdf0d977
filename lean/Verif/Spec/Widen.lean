import Verif.Spec.Range

/-!
# Specification of wider ranges
-/

namespace Verif.Spec.Widen

open Verif.Range (Bounds RangeOption)

variable {α : Type} [LinearOrder α]

/-- Every minimum of `b'` is a minimum of `b` or lower. -/
def LowerMin (b b' : Option α) : Prop := ∀ m', b' = some m' → ∃ m, b = some m ∧ m' ≤ m

/-- Every maximum of `b'` is a maximum of `b` or higher. -/
def HigherMax (b b' : Option α) : Prop := ∀ m', b' = some m' → ∃ m, b = some m ∧ m ≤ m'

/-- The interval `b'` reaches at least as far as `b` on both sides: its minimum, if any, is not higher and its maximum, if any,
is not lower; if the maxima are equal, `b'` does not exclude it unless `b` does. -/
def Widens (b b' : Bounds α) : Prop :=
  LowerMin b.min b'.min ∧ HigherMax b.max b'.max ∧
    ∀ m, b.max = some m → b'.max = some m → b'.inclusive = false → b.inclusive = false

/-- The range `r'` is at least as permissive as `r`: no range, a wider inside, or a smaller hole. (`Outside` with no bound
is no hole.) -/
def Relaxes : (r r' : RangeOption α) → Prop
  | _, .unlimited => True
  | .inside b, .inside b' => Widens b b'
  | .outside b, .outside b' => Range.Bounded b ∧ Widens b' b
  | _, _ => False

end Verif.Spec.Widen
