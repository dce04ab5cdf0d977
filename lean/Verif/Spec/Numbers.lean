import Verif.Spec.Float

/-!
# Specification: an integer and a float that are the same number
-/

namespace Verif.Spec.Numbers

open Verif.Float (Fmt Float)
open Verif.Range (Bounds RangeOption)
open Verif.Spec.Float

variable {F : Fmt}

/-- The float is the integer. -/
def Exact (v : Int) (x : Float F) : Prop := IsFinite x ∧ value x = v

/-- The same bound, or none. -/
def SameBound : Option Int → Option (Float F) → Prop
  | none, none => True
  | some m, some x => Exact m x
  | _, _ => False

/-- The same bounds. -/
def SameBounds (b : Bounds Int) (c : Bounds (Float F)) : Prop :=
  SameBound b.min c.min ∧ SameBound b.max c.max ∧ b.inclusive = c.inclusive

/-- The same range, for integers and for floats. -/
def SameRange : RangeOption Int → RangeOption (Float F) → Prop
  | .inside b, .inside c => SameBounds b c
  | .outside b, .outside c => SameBounds b c
  | .unlimited, .unlimited => True
  | _, _ => False

end Verif.Spec.Numbers
