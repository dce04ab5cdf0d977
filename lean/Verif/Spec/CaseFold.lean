import Verif.Spec.Domain

/-!
# Specification of texts that differ in letter case only
-/

namespace Verif.Spec.CaseFold

open Verif.Spec.Domain (lowered)

/-- The texts are equal up to the case of ASCII letters. -/
def SameCase (v w : List UInt8) : Prop := v.map lowered = w.map lowered

instance (v w : List UInt8) : Decidable (SameCase v w) := inferInstanceAs (Decidable (_ = _))

/-- Not an ASCII letter. -/
def Caseless (c : UInt8) : Prop := ∀ b, lowered b = lowered c → b = c

/-- The IDNA conversion does not depend on the case of ASCII letters (UTS 46 maps capitals to small letters). -/
def IdnaCase (idna : List UInt8 → Option (List UInt8)) : Prop := ∀ d e, SameCase d e → idna d = idna e

end Verif.Spec.CaseFold
