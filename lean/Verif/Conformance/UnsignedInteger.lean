import Verif.Conformance.Harness

/-!
# The tests of `validators/tests/unsigned_integer.rs`

Written by `tools/conformance.py`.
-/

namespace Verif.Conformance.UnsignedInteger

open Verif.Attr Verif.Derive Verif.Constants
open Verif.Conformance

/-- The strings of `basic`, and whether they are accepted. -/
def basicCases : List Case := [
  ⟨"", fun _ => false⟩,
  ⟨"0", fun c => checkRange (0) (limits c "V_RANGE")⟩,
  ⟨"1", fun c => checkRange (1) (limits c "V_RANGE")⟩]

/-- The items of `test!`. -/
def basicTest : List (Input Toks) := [
  -- `U8`
  ⟨[attr (.list (some "unsigned_integer") (.metas [.list (some "range") (.word "Unlimited")]))], .struct (.unnamed ["u8"])⟩,
  -- `U8`
  ⟨[attr (.list (some "unsigned_integer") (.metas [.list (some "range") (.metas [.list (some "Inside") (.metas [.nameValue (some "min") (.lit (.int (ascii "0")))])])]))], .struct (.unnamed ["u8"])⟩,
  -- `U8`
  ⟨[attr (.list (some "unsigned_integer") (.metas [.list (some "range") (.metas [.list (some "Inside") (.metas [.nameValue (some "max") (.lit (.int (ascii "0")))])])]))], .struct (.unnamed ["u8"])⟩,
  -- `U8`
  ⟨[attr (.list (some "unsigned_integer") (.metas [.list (some "range") (.metas [.list (some "Inside") (.metas [.nameValue (some "min") (.lit (.int (ascii "0"))), .nameValue (some "max") (.lit (.int (ascii "0")))])])]))], .struct (.unnamed ["u8"])⟩,
  -- `U8`
  ⟨[attr (.list (some "unsigned_integer") (.metas [.list (some "range") (.metas [.list (some "Outside") (.metas [.nameValue (some "min") (.lit (.int (ascii "0"))), .nameValue (some "max") (.lit (.int (ascii "0")))])])]))], .struct (.unnamed ["u8"])⟩,
  -- `U8`
  ⟨[attr (.list (some "unsigned_integer") (.metas [.list (some "range") (.metas [.list (some "Outside") (.metas [.nameValue (some "min") (.lit (.int (ascii "0"))), .nameValue (some "max") (.lit (.int (ascii "1"))), .nameValue (some "inclusive") (.lit (.bool false))])])]))], .struct (.unnamed ["u8"])⟩]

theorem basicTest_passes : basicTest.all (passes false basicCases) = true := by decide +kernel

/-- The items of `test2!`. -/
def basicTest2 : List (Input Toks) := [
  -- `Usize`
  ⟨[attr (.list (some "unsigned_integer") (.metas [.list (some "range") (.word "Unlimited")]))], .struct (.unnamed ["usize"])⟩,
  -- `Usize`
  ⟨[attr (.list (some "unsigned_integer") (.metas [.list (some "range") (.metas [.list (some "Inside") (.metas [.nameValue (some "min") (.lit (.int (ascii "0")))])])]))], .struct (.unnamed ["usize"])⟩,
  -- `Usize`
  ⟨[attr (.list (some "unsigned_integer") (.metas [.list (some "range") (.metas [.list (some "Inside") (.metas [.nameValue (some "max") (.lit (.int (ascii "0")))])])]))], .struct (.unnamed ["usize"])⟩,
  -- `Usize`
  ⟨[attr (.list (some "unsigned_integer") (.metas [.list (some "range") (.metas [.list (some "Inside") (.metas [.nameValue (some "min") (.lit (.int (ascii "0"))), .nameValue (some "max") (.lit (.int (ascii "0")))])])]))], .struct (.unnamed ["usize"])⟩,
  -- `Usize`
  ⟨[attr (.list (some "unsigned_integer") (.metas [.list (some "range") (.metas [.list (some "Outside") (.metas [.nameValue (some "min") (.lit (.int (ascii "0"))), .nameValue (some "max") (.lit (.int (ascii "0")))])])]))], .struct (.unnamed ["usize"])⟩,
  -- `Usize`
  ⟨[attr (.list (some "unsigned_integer") (.metas [.list (some "range") (.metas [.list (some "Outside") (.metas [.nameValue (some "min") (.lit (.int (ascii "0"))), .nameValue (some "max") (.lit (.int (ascii "1"))), .nameValue (some "inclusive") (.lit (.bool false))])])]))], .struct (.unnamed ["usize"])⟩]

theorem basicTest2_passes : basicTest2.all (passes false basicCases) = true := by decide +kernel

/-- The items of `test3!`. -/
def basicTest3 : List (Input Toks) := [
  -- `U128`
  ⟨[attr (.list (some "unsigned_integer") (.metas [.list (some "range") (.word "Unlimited")]))], .struct (.unnamed ["u128"])⟩,
  -- `U128`
  ⟨[attr (.list (some "unsigned_integer") (.metas [.list (some "range") (.metas [.list (some "Inside") (.metas [.nameValue (some "min") (.lit (.int (ascii "0")))])])]))], .struct (.unnamed ["u128"])⟩,
  -- `U128`
  ⟨[attr (.list (some "unsigned_integer") (.metas [.list (some "range") (.metas [.list (some "Inside") (.metas [.nameValue (some "max") (.lit (.int (ascii "0")))])])]))], .struct (.unnamed ["u128"])⟩,
  -- `U128`
  ⟨[attr (.list (some "unsigned_integer") (.metas [.list (some "range") (.metas [.list (some "Inside") (.metas [.nameValue (some "min") (.lit (.int (ascii "0"))), .nameValue (some "max") (.lit (.int (ascii "0")))])])]))], .struct (.unnamed ["u128"])⟩,
  -- `U128`
  ⟨[attr (.list (some "unsigned_integer") (.metas [.list (some "range") (.metas [.list (some "Outside") (.metas [.nameValue (some "min") (.lit (.int (ascii "0"))), .nameValue (some "max") (.lit (.int (ascii "0")))])])]))], .struct (.unnamed ["u128"])⟩,
  -- `U128`
  ⟨[attr (.list (some "unsigned_integer") (.metas [.list (some "range") (.metas [.list (some "Outside") (.metas [.nameValue (some "min") (.lit (.int (ascii "0"))), .nameValue (some "max") (.lit (.int (ascii "1"))), .nameValue (some "inclusive") (.lit (.bool false))])])]))], .struct (.unnamed ["u128"])⟩]

theorem basicTest3_passes : basicTest3.all (passes false basicCases) = true := by decide +kernel

end Verif.Conformance.UnsignedInteger
