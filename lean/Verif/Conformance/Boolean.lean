import Verif.Conformance.Harness

/-!
# The tests of `validators/tests/boolean.rs`

Written by `tools/conformance.py`.
-/

namespace Verif.Conformance.Boolean

open Verif.Attr Verif.Derive Verif.Constants
open Verif.Conformance

/-- `parse_str`. -/
theorem parse_str_passes : ([("t", true), ("true", true), ("y", true), ("yes", true), ("on", true), ("1", true), ("f", false), ("false", false), ("n", false), ("no", false), ("off", false), ("0", false)] : List (String × Bool)).all (fun x => decide (Boolean.parseStr (BaseN.strBytes x.1.toList) = .ok x.2)) = true := by decide +kernel

/-- `parse_char`. -/
theorem parse_char_passes : ([('t', true), ('y', true), ('1', true), ('f', false), ('n', false), ('0', false)] : List (Char × Bool)).all (fun x => decide (Boolean.parseChar x.1 = .ok x.2)) = true := by decide +kernel

/-- `parse_i128`. -/
theorem parse_i128_passes : ([(1, true), (0, false)] : List (Int × Bool)).all (fun x => decide (Boolean.parseInt x.1 = .ok x.2)) = true := by decide +kernel

/-- `parse_u128`. -/
theorem parse_u128_passes : ([(1, true), (0, false)] : List (Int × Bool)).all (fun x => decide (Boolean.parseInt x.1 = .ok x.2)) = true := by decide +kernel

/-- `Validator`. -/
def validatorItem : Input Toks := ⟨[attr (.path (some "boolean"))], .struct (.unnamed ["bool"])⟩

theorem validator_passes : passes false [⟨"", fun _ => false⟩, ⟨"xzy", fun _ => false⟩, ⟨"onion", fun _ => false⟩] validatorItem = true := by decide +kernel

end Verif.Conformance.Boolean
