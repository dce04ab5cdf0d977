import Verif.Conformance.Harness

/-!
# The tests of `validators/tests/byte.rs`

Written by `tools/conformance.py`.
-/

namespace Verif.Conformance.Byte

open Verif.Attr Verif.Derive Verif.Constants
open Verif.Conformance

/-- The strings of `basic`, and whether they are accepted. -/
def basicCases : List Case := [
  ⟨"", fun _ => false⟩,
  ⟨"0", fun c => insideOnly (0) (limits c "V_RANGE")⟩,
  ⟨"1", fun c => insideOnly (1) (limits c "V_RANGE")⟩]

/-- The items of `test!`. -/
def basicTest : List (Input Toks) := [
  -- `B`
  ⟨[attr (.list (some "byte") (.metas [.list (some "range") (.metas [.nameValue (some "min") (.lit (.int (ascii "0")))])]))], .struct (.unnamed ["byte_unit::Byte"])⟩,
  -- `B`
  ⟨[attr (.list (some "byte") (.metas [.list (some "range") (.metas [.nameValue (some "max") (.lit (.int (ascii "0")))])]))], .struct (.unnamed ["byte_unit::Byte"])⟩,
  -- `B`
  ⟨[attr (.list (some "byte") (.metas [.list (some "range") (.metas [.nameValue (some "min") (.lit (.int (ascii "0"))), .nameValue (some "max") (.lit (.int (ascii "0")))])]))], .struct (.unnamed ["byte_unit::Byte"])⟩,
  -- `B`
  ⟨[attr (.list (some "byte") (.metas [.list (some "range") (.metas [.nameValue (some "min") (.lit (.int (ascii "0"))), .nameValue (some "max") (.lit (.int (ascii "0")))])]))], .struct (.unnamed ["byte_unit::Byte"])⟩,
  -- `B`
  ⟨[attr (.list (some "byte") (.metas [.list (some "range") (.metas [.nameValue (some "min") (.lit (.int (ascii "0"))), .nameValue (some "max") (.lit (.int (ascii "1"))), .nameValue (some "inclusive") (.lit (.bool false))])]))], .struct (.unnamed ["byte_unit::Byte"])⟩,
  -- `B`
  ⟨[attr (.list (some "byte") (.metas [.nameValue (some "ignore_case") (.lit (.bool false))]))], .struct (.unnamed ["byte_unit::Byte"])⟩]

theorem basicTest_passes : basicTest.all (passes false basicCases) = true := by decide +kernel

end Verif.Conformance.Byte
