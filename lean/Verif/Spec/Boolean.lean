import Verif.Model.Basic

/-!
# Specification of boolean words
-/

namespace Verif.Spec.Boolean

/-- `u8::to_ascii_lowercase`. -/
def lower (b : UInt8) : UInt8 := if asc 'A' ≤ b ∧ b ≤ asc 'Z' then b + 32 else b

/-- The words for true and for false, in lower case. -/
def trueWords : List (List UInt8) := ["y", "yes", "t", "true", "1", "on"].map ascii
def falseWords : List (List UInt8) := ["n", "no", "f", "false", "0", "off"].map ascii

end Verif.Spec.Boolean
