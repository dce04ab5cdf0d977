import Verif.Conformance.Harness

/-!
# The tests of `validators/tests/mac_address.rs`

Written by `tools/conformance.py`.
-/

namespace Verif.Conformance.MacAddress

open Verif.Attr Verif.Derive Verif.Constants
open Verif.Conformance

/-- The strings of `basic`, and whether they are accepted. -/
def basicCases : List Case := [
  ⟨"", fun _ => false⟩,
  ⟨"08:00:27:b2:46:c3", fun c => (case c "V_CASE").takesLower && (separator c "V_SEPARATOR").allowed == some 58⟩,
  ⟨"08:00:27:B2:46:C3", fun c => (case c "V_CASE").takesUpper && (separator c "V_SEPARATOR").allowed == some 58⟩,
  ⟨"08:00:27:b2:46:C3", fun c => (case c "V_CASE").isAny && (separator c "V_SEPARATOR").allowed == some 58⟩,
  ⟨"08-00-27-b2-46-c3", fun c => (case c "V_CASE").takesLower && (separator c "V_SEPARATOR").allowed == some 45⟩,
  ⟨"08-00-27-B2-46-C3", fun c => (case c "V_CASE").takesUpper && (separator c "V_SEPARATOR").allowed == some 45⟩,
  ⟨"08-00-27-b2-46-C3", fun c => (case c "V_CASE").isAny && (separator c "V_SEPARATOR").allowed == some 45⟩,
  ⟨"080027b246c3", fun c => (case c "V_CASE").takesLower && !(separator c "V_SEPARATOR").required.isSome⟩,
  ⟨"080027B246C3", fun c => (case c "V_CASE").takesUpper && !(separator c "V_SEPARATOR").required.isSome⟩,
  ⟨"080027b246C3", fun c => (case c "V_CASE").isAny && !(separator c "V_SEPARATOR").required.isSome⟩]

/-- The items of `test!`. -/
def basicTest : List (Input Toks) := [
  -- `Validator`
  ⟨[attr (.list (some "mac_address") (.metas [.list (some "case") (.word "Any"), .list (some "separator") (.metas [.list (some "Allow") (.expr (.lit (.byte 58)))])]))], .struct (.unnamed ["u64"])⟩,
  -- `Validator`
  ⟨[attr (.list (some "mac_address") (.metas [.list (some "case") (.word "Upper"), .list (some "separator") (.metas [.list (some "Allow") (.expr (.lit (.byte 58)))])]))], .struct (.unnamed ["u64"])⟩,
  -- `Validator`
  ⟨[attr (.list (some "mac_address") (.metas [.list (some "case") (.word "Lower"), .list (some "separator") (.metas [.list (some "Allow") (.expr (.lit (.byte 58)))])]))], .struct (.unnamed ["u64"])⟩,
  -- `Validator`
  ⟨[attr (.list (some "mac_address") (.metas [.list (some "case") (.word "Any"), .list (some "separator") (.metas [.list (some "Must") (.expr (.lit (.byte 58)))])]))], .struct (.unnamed ["u64"])⟩,
  -- `Validator`
  ⟨[attr (.list (some "mac_address") (.metas [.list (some "case") (.word "Upper"), .list (some "separator") (.metas [.list (some "Must") (.expr (.lit (.byte 58)))])]))], .struct (.unnamed ["u64"])⟩,
  -- `Validator`
  ⟨[attr (.list (some "mac_address") (.metas [.list (some "case") (.word "Lower"), .list (some "separator") (.metas [.list (some "Must") (.expr (.lit (.byte 58)))])]))], .struct (.unnamed ["u64"])⟩,
  -- `Validator`
  ⟨[attr (.list (some "mac_address") (.metas [.list (some "case") (.word "Any"), .list (some "separator") (.metas [.list (some "Allow") (.expr (.lit (.byte 45)))])]))], .struct (.unnamed ["u64"])⟩,
  -- `Validator`
  ⟨[attr (.list (some "mac_address") (.metas [.list (some "case") (.word "Upper"), .list (some "separator") (.metas [.list (some "Allow") (.expr (.lit (.byte 45)))])]))], .struct (.unnamed ["u64"])⟩,
  -- `Validator`
  ⟨[attr (.list (some "mac_address") (.metas [.list (some "case") (.word "Lower"), .list (some "separator") (.metas [.list (some "Allow") (.expr (.lit (.byte 45)))])]))], .struct (.unnamed ["u64"])⟩,
  -- `Validator`
  ⟨[attr (.list (some "mac_address") (.metas [.list (some "case") (.word "Any"), .list (some "separator") (.metas [.list (some "Must") (.expr (.lit (.byte 45)))])]))], .struct (.unnamed ["u64"])⟩,
  -- `Validator`
  ⟨[attr (.list (some "mac_address") (.metas [.list (some "case") (.word "Upper"), .list (some "separator") (.metas [.list (some "Must") (.expr (.lit (.byte 45)))])]))], .struct (.unnamed ["u64"])⟩,
  -- `Validator`
  ⟨[attr (.list (some "mac_address") (.metas [.list (some "case") (.word "Lower"), .list (some "separator") (.metas [.list (some "Must") (.expr (.lit (.byte 45)))])]))], .struct (.unnamed ["u64"])⟩,
  -- `Validator`
  ⟨[attr (.list (some "mac_address") (.metas [.list (some "case") (.word "Any"), .list (some "separator") (.word "Disallow")]))], .struct (.unnamed ["u64"])⟩,
  -- `Validator`
  ⟨[attr (.list (some "mac_address") (.metas [.list (some "case") (.word "Upper"), .list (some "separator") (.word "Disallow")]))], .struct (.unnamed ["u64"])⟩,
  -- `Validator`
  ⟨[attr (.list (some "mac_address") (.metas [.list (some "case") (.word "Lower"), .list (some "separator") (.word "Disallow")]))], .struct (.unnamed ["u64"])⟩]

theorem basicTest_passes : basicTest.all (passes true basicCases) = true := by decide +kernel

end Verif.Conformance.MacAddress
