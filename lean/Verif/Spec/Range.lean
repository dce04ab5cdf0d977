import Verif.Model.Range
import Mathlib.Order.Defs.LinearOrder

/-!
# Specification of ranges
-/

namespace Verif.Spec.Range

open Verif.Range (Bounds RangeOption)

variable {α : Type} [LinearOrder α]

/-- `x` is below the given minimum. -/
def BelowMin (b : Bounds α) (x : α) : Prop := ∃ m, b.min = some m ∧ x < m

/-- `x` is above the given maximum, or equal to it if it is exclusive. -/
def AboveMax (b : Bounds α) (x : α) : Prop := ∃ m, b.max = some m ∧ (m < x ∨ b.inclusive = false ∧ x = m)

/-- `x` lies within the bounds. -/
def Contains (b : Bounds α) (x : α) : Prop :=
  (∀ m, b.min = some m → m ≤ x) ∧ (∀ m, b.max = some m → x ≤ m ∧ (b.inclusive = false → x ≠ m))

/-- At least one bound is given. -/
def Bounded (b : Bounds α) : Prop := b.min ≠ none ∨ b.max ≠ none

/-- The bounds are in order. -/
def Ordered (b : Bounds α) : Prop :=
  ∀ m, b.min = some m → ∀ n, b.max = some n → m ≤ n ∧ (b.inclusive = false → m ≠ n)

/-- `x` satisfies the configured range. `Outside` without any bound excludes nothing. -/
def Satisfies : RangeOption α → α → Prop
  | .inside b, x => Contains b x
  | .outside b, x => ¬ (Bounded b ∧ Contains b x)
  | .unlimited, _ => True

end Verif.Spec.Range
