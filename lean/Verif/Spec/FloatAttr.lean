import Verif.Spec.Float
import Verif.Spec.Attr

/-!
# Specification: the range of a `number` attribute as it is written
-/

namespace Verif.Spec.FloatAttr

open Verif.Range Verif.Float Verif.Attr
open Verif.Spec.Float Verif.Spec.Attr

variable {F : Fmt} {τ : Type}

open Classical in
/-- The numbers themselves, without rounding: a literal is the number that its text writes. They are not compared. -/
noncomputable def exact : NumTy ℚ where
  fromStr d := if h : ∃ q neg, Decimal d neg q then some h.choose else none
  pcmp _ _ := none
  literal _ := true

/-- A bound as it is written, and the float nearest to it, which is finite. -/
def Read (p : Option ℚ) (m : Option (Float F)) : Prop :=
  p = none ∧ m = none ∨ ∃ q x, p = some q ∧ m = some x ∧ IsFinite x ∧ Nearest q x

/-- The same for ranges. -/
def ReadRange : RangeOption ℚ → RangeOption (Float F) → Prop
  | .inside B, .inside b | .outside B, .outside b => Read B.min b.min ∧ Read B.max b.max ∧ b.inclusive = B.inclusive
  | .unlimited, .unlimited => True
  | _, _ => False

/-- The range of an attribute, as it is written: its parameter `range`, or `Unlimited`. -/
def WrittenRange (syn : Syn τ) (full : Bool) (m : Meta τ) (R : RangeOption ℚ) : Prop :=
  ∃ ps, Gives syn m ps ∧ Set ps "range" (SaysRangeOption syn full exact) .unlimited R

end Verif.Spec.FloatAttr
