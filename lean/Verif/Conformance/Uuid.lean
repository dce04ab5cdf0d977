import Verif.Conformance.Harness

/-!
# The tests of `validators/tests/uuid.rs`

Written by `tools/conformance.py`.
-/

namespace Verif.Conformance.Uuid

open Verif.Attr Verif.Derive Verif.Constants
open Verif.Conformance

/-- The strings of `basic`, and whether they are accepted. -/
def basicCases : List Case := [
  ⟨"", fun _ => false⟩,
  ⟨"a866664a-f9d3-4dde-89cb-182015fa4f41", fun c => (case c "V_CASE").takesLower && (separator c "V_SEPARATOR").allowed == some 45⟩,
  ⟨"A866664A-F9D3-4DDE-89CB-182015FA4F41", fun c => (case c "V_CASE").takesUpper && (separator c "V_SEPARATOR").allowed == some 45⟩,
  ⟨"A866664A-f9D3-4dde-89CB-182015FA4F41", fun c => (case c "V_CASE").isAny && (separator c "V_SEPARATOR").allowed == some 45⟩,
  ⟨"a866664a f9d3 4dde 89cb 182015fa4f41", fun _ => false⟩,
  ⟨"a866664af9d34dde89cb182015fa4f41", fun c => (case c "V_CASE").takesLower && !(separator c "V_SEPARATOR").required.isSome⟩,
  ⟨"A866664AF9D34DDE89CB182015FA4F41", fun c => (case c "V_CASE").takesUpper && !(separator c "V_SEPARATOR").required.isSome⟩,
  ⟨"A866664AF9D34dde89CB182015FA4F41", fun c => (case c "V_CASE").isAny && !(separator c "V_SEPARATOR").required.isSome⟩]

/-- The items of `test!`. -/
def basicTest : List (Input Toks) := [
  -- `Validator`
  ⟨[attr (.list (some "uuid") (.metas [.list (some "case") (.word "Any"), .list (some "separator") (.metas [.list (some "Allow") (.expr (.lit (.byte 45)))])]))], .struct (.unnamed ["u128"])⟩,
  -- `Validator`
  ⟨[attr (.list (some "uuid") (.metas [.list (some "case") (.word "Upper"), .list (some "separator") (.metas [.list (some "Allow") (.expr (.lit (.byte 45)))])]))], .struct (.unnamed ["u128"])⟩,
  -- `Validator`
  ⟨[attr (.list (some "uuid") (.metas [.list (some "case") (.word "Lower"), .list (some "separator") (.metas [.list (some "Allow") (.expr (.lit (.byte 45)))])]))], .struct (.unnamed ["u128"])⟩,
  -- `Validator`
  ⟨[attr (.list (some "uuid") (.metas [.list (some "case") (.word "Any"), .list (some "separator") (.metas [.list (some "Must") (.expr (.lit (.byte 45)))])]))], .struct (.unnamed ["u128"])⟩,
  -- `Validator`
  ⟨[attr (.list (some "uuid") (.metas [.list (some "case") (.word "Upper"), .list (some "separator") (.metas [.list (some "Must") (.expr (.lit (.byte 45)))])]))], .struct (.unnamed ["u128"])⟩,
  -- `Validator`
  ⟨[attr (.list (some "uuid") (.metas [.list (some "case") (.word "Lower"), .list (some "separator") (.metas [.list (some "Must") (.expr (.lit (.byte 45)))])]))], .struct (.unnamed ["u128"])⟩,
  -- `Validator`
  ⟨[attr (.list (some "uuid") (.metas [.list (some "case") (.word "Any"), .list (some "separator") (.word "Disallow")]))], .struct (.unnamed ["u128"])⟩,
  -- `Validator`
  ⟨[attr (.list (some "uuid") (.metas [.list (some "case") (.word "Upper"), .list (some "separator") (.word "Disallow")]))], .struct (.unnamed ["u128"])⟩,
  -- `Validator`
  ⟨[attr (.list (some "uuid") (.metas [.list (some "case") (.word "Lower"), .list (some "separator") (.word "Disallow")]))], .struct (.unnamed ["u128"])⟩]

theorem basicTest_passes : basicTest.all (passes true basicCases) = true := by decide +kernel

end Verif.Conformance.Uuid
