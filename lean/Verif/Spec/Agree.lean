import Verif.Model.Basic

/-!
# Specification of translations between validators
-/

namespace Verif.Spec.Agree

/-- Exchanges `+` with `-` and `/` with `_`. -/
def urlSafe (b : UInt8) : UInt8 :=
  if b = asc '+' then asc '-' else if b = asc '-' then asc '+' else if b = asc '/' then asc '_' else if b = asc '_' then asc '/' else b

end Verif.Spec.Agree
