import Verif.Conformance.Harness

/-!
# The tests of `validators/tests/phone.rs`

Written by `tools/conformance.py`.
-/

namespace Verif.Conformance.Phone

open Verif.Attr Verif.Derive Verif.Constants
open Verif.Conformance

/-- `InternationalPhone`. -/
def internationalPhoneItem : Input Toks := ⟨[attr (.path (some "phone"))], .struct (.unnamed ["PhoneNumber"])⟩

theorem internationalPhone_passes : passes false [⟨"+886912345678", fun _ => true⟩, ⟨"0912345678", fun _ => false⟩, ⟨"+14155552671", fun _ => true⟩] internationalPhoneItem = true := by decide +kernel

/-- `TWPhone`. -/
def tWPhoneItem : Input Toks := ⟨[attr (.list (some "phone") (.metas [.list (some "countries") (.word "TW")]))], .struct (.unnamed ["PhoneNumber"])⟩

theorem tWPhone_passes : passes false [⟨"+886912345678", fun _ => true⟩, ⟨"0912345678", fun _ => true⟩, ⟨"+14155552671", fun _ => false⟩] tWPhoneItem = true := by decide +kernel

/-- `TWorUSPhone`. -/
def tWorUSPhoneItem : Input Toks := ⟨[attr (.list (some "phone") (.metas [.list (some "countries") (.words ["TW", "US"])]))], .struct (.unnamed ["std::collections::HashMap<Id, PhoneNumber>"])⟩

theorem tWorUSPhone_passes : passes false [⟨"+886912345678", fun _ => true⟩, ⟨"0912345678", fun _ => true⟩, ⟨"+14155552671", fun _ => true⟩] tWorUSPhoneItem = true := by decide +kernel

end Verif.Conformance.Phone
