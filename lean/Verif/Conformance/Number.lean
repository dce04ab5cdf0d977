import Verif.Conformance.Harness

/-!
# The tests of `validators/tests/number.rs`

Written by `tools/conformance.py`.
-/

namespace Verif.Conformance.Number

open Verif.Attr Verif.Derive Verif.Constants
open Verif.Conformance

/-- The strings of `basic`, and whether they are accepted. -/
def basicCases : List Case := [
  ⟨"", fun _ => false⟩,
  ⟨"0", fun c => !(tri c "V_NAN").musts && checkRange (0) (limits c "V_RANGE")⟩,
  ⟨"1", fun c => !(tri c "V_NAN").musts && checkRange (1) (limits c "V_RANGE")⟩,
  ⟨"-1", fun c => !(tri c "V_NAN").musts && checkRange (-1) (limits c "V_RANGE")⟩,
  ⟨"NaN", fun c => (tri c "V_NAN").allows⟩]

/-- The items of `test!`. -/
def basicTest : List (Input Toks) := [
  -- `F32`
  ⟨[attr (.list (some "number") (.metas [.list (some "nan") (.word "Allow"), .list (some "range") (.word "Unlimited"), .list (some "conflict") (.word "Allow")]))], .struct (.unnamed ["f32"])⟩,
  -- `F32`
  ⟨[attr (.list (some "number") (.metas [.list (some "nan") (.word "Must"), .list (some "range") (.word "Unlimited"), .list (some "conflict") (.word "Allow")]))], .struct (.unnamed ["f32"])⟩,
  -- `F32`
  ⟨[attr (.list (some "number") (.metas [.list (some "nan") (.word "Disallow"), .list (some "range") (.word "Unlimited"), .list (some "conflict") (.word "Allow")]))], .struct (.unnamed ["f32"])⟩,
  -- `F32`
  ⟨[attr (.list (some "number") (.metas [.list (some "nan") (.word "Allow"), .list (some "range") (.metas [.list (some "Inside") (.metas [.nameValue (some "min") (.lit (.int (ascii "0")))])]), .list (some "conflict") (.word "Allow")]))], .struct (.unnamed ["f32"])⟩,
  -- `F32`
  ⟨[attr (.list (some "number") (.metas [.list (some "nan") (.word "Must"), .list (some "range") (.metas [.list (some "Inside") (.metas [.nameValue (some "min") (.lit (.int (ascii "0")))])]), .list (some "conflict") (.word "Allow")]))], .struct (.unnamed ["f32"])⟩,
  -- `F32`
  ⟨[attr (.list (some "number") (.metas [.list (some "nan") (.word "Disallow"), .list (some "range") (.metas [.list (some "Inside") (.metas [.nameValue (some "min") (.lit (.int (ascii "0")))])]), .list (some "conflict") (.word "Allow")]))], .struct (.unnamed ["f32"])⟩,
  -- `F32`
  ⟨[attr (.list (some "number") (.metas [.list (some "nan") (.word "Allow"), .list (some "range") (.metas [.list (some "Inside") (.metas [.nameValue (some "max") (.lit (.int (ascii "0")))])]), .list (some "conflict") (.word "Allow")]))], .struct (.unnamed ["f32"])⟩,
  -- `F32`
  ⟨[attr (.list (some "number") (.metas [.list (some "nan") (.word "Must"), .list (some "range") (.metas [.list (some "Inside") (.metas [.nameValue (some "max") (.lit (.int (ascii "0")))])]), .list (some "conflict") (.word "Allow")]))], .struct (.unnamed ["f32"])⟩,
  -- `F32`
  ⟨[attr (.list (some "number") (.metas [.list (some "nan") (.word "Disallow"), .list (some "range") (.metas [.list (some "Inside") (.metas [.nameValue (some "max") (.lit (.int (ascii "0")))])]), .list (some "conflict") (.word "Allow")]))], .struct (.unnamed ["f32"])⟩,
  -- `F32`
  ⟨[attr (.list (some "number") (.metas [.list (some "nan") (.word "Allow"), .list (some "range") (.metas [.list (some "Inside") (.metas [.nameValue (some "min") (.lit (.int (ascii "0"))), .nameValue (some "max") (.lit (.int (ascii "0")))])]), .list (some "conflict") (.word "Allow")]))], .struct (.unnamed ["f32"])⟩,
  -- `F32`
  ⟨[attr (.list (some "number") (.metas [.list (some "nan") (.word "Must"), .list (some "range") (.metas [.list (some "Inside") (.metas [.nameValue (some "min") (.lit (.int (ascii "0"))), .nameValue (some "max") (.lit (.int (ascii "0")))])]), .list (some "conflict") (.word "Allow")]))], .struct (.unnamed ["f32"])⟩,
  -- `F32`
  ⟨[attr (.list (some "number") (.metas [.list (some "nan") (.word "Disallow"), .list (some "range") (.metas [.list (some "Inside") (.metas [.nameValue (some "min") (.lit (.int (ascii "0"))), .nameValue (some "max") (.lit (.int (ascii "0")))])]), .list (some "conflict") (.word "Allow")]))], .struct (.unnamed ["f32"])⟩,
  -- `F32`
  ⟨[attr (.list (some "number") (.metas [.list (some "nan") (.word "Allow"), .list (some "range") (.metas [.list (some "Outside") (.metas [.nameValue (some "min") (.lit (.int (ascii "0"))), .nameValue (some "max") (.lit (.int (ascii "0")))])]), .list (some "conflict") (.word "Allow")]))], .struct (.unnamed ["f32"])⟩,
  -- `F32`
  ⟨[attr (.list (some "number") (.metas [.list (some "nan") (.word "Must"), .list (some "range") (.metas [.list (some "Outside") (.metas [.nameValue (some "min") (.lit (.int (ascii "0"))), .nameValue (some "max") (.lit (.int (ascii "0")))])]), .list (some "conflict") (.word "Allow")]))], .struct (.unnamed ["f32"])⟩,
  -- `F32`
  ⟨[attr (.list (some "number") (.metas [.list (some "nan") (.word "Disallow"), .list (some "range") (.metas [.list (some "Outside") (.metas [.nameValue (some "min") (.lit (.int (ascii "0"))), .nameValue (some "max") (.lit (.int (ascii "0")))])]), .list (some "conflict") (.word "Allow")]))], .struct (.unnamed ["f32"])⟩,
  -- `F32`
  ⟨[attr (.list (some "number") (.metas [.list (some "nan") (.word "Disallow"), .list (some "range") (.metas [.list (some "Inside") (.metas [.nameValue (some "min") (.neg (.int (ascii "1"))), .nameValue (some "max") (.lit (.int (ascii "1")))])]), .list (some "conflict") (.word "Allow")]))], .struct (.unnamed ["f32"])⟩,
  -- `F32`
  ⟨[attr (.list (some "number") (.metas [.list (some "nan") (.word "Disallow"), .list (some "range") (.metas [.list (some "Outside") (.metas [.nameValue (some "min") (.neg (.int (ascii "1"))), .nameValue (some "max") (.lit (.int (ascii "1")))])]), .list (some "conflict") (.word "Allow")]))], .struct (.unnamed ["f32"])⟩,
  -- `F32`
  ⟨[attr (.list (some "number") (.metas [.list (some "nan") (.word "Disallow"), .list (some "range") (.metas [.list (some "Outside") (.metas [.nameValue (some "min") (.lit (.int (ascii "0"))), .nameValue (some "max") (.lit (.int (ascii "1"))), .nameValue (some "inclusive") (.lit (.bool false))])]), .list (some "conflict") (.word "Allow")]))], .struct (.unnamed ["f32"])⟩]

theorem basicTest_passes : basicTest.all (passes false basicCases) = true := by decide +kernel

/-- Items of `test2!` that are only compiled. -/
def basicTest2Compiled : List (Input Toks) := [
  -- `F64`
  ⟨[attr (.list (some "number") (.metas [.list (some "nan") (.word "Allow"), .list (some "range") (.word "Unlimited"), .list (some "conflict") (.word "Allow")]))], .struct (.unnamed ["f64"])⟩,
  -- `F64`
  ⟨[attr (.list (some "number") (.metas [.list (some "nan") (.word "Must"), .list (some "range") (.word "Unlimited"), .list (some "conflict") (.word "Allow")]))], .struct (.unnamed ["f64"])⟩,
  -- `F64`
  ⟨[attr (.list (some "number") (.metas [.list (some "nan") (.word "Disallow"), .list (some "range") (.word "Unlimited"), .list (some "conflict") (.word "Allow")]))], .struct (.unnamed ["f64"])⟩,
  -- `F64`
  ⟨[attr (.list (some "number") (.metas [.list (some "nan") (.word "Allow"), .list (some "range") (.metas [.list (some "Inside") (.metas [.nameValue (some "min") (.lit (.int (ascii "0")))])]), .list (some "conflict") (.word "Allow")]))], .struct (.unnamed ["f64"])⟩,
  -- `F64`
  ⟨[attr (.list (some "number") (.metas [.list (some "nan") (.word "Must"), .list (some "range") (.metas [.list (some "Inside") (.metas [.nameValue (some "min") (.lit (.int (ascii "0")))])]), .list (some "conflict") (.word "Allow")]))], .struct (.unnamed ["f64"])⟩,
  -- `F64`
  ⟨[attr (.list (some "number") (.metas [.list (some "nan") (.word "Disallow"), .list (some "range") (.metas [.list (some "Inside") (.metas [.nameValue (some "min") (.lit (.int (ascii "0")))])]), .list (some "conflict") (.word "Allow")]))], .struct (.unnamed ["f64"])⟩,
  -- `F64`
  ⟨[attr (.list (some "number") (.metas [.list (some "nan") (.word "Allow"), .list (some "range") (.metas [.list (some "Inside") (.metas [.nameValue (some "max") (.lit (.int (ascii "0")))])]), .list (some "conflict") (.word "Allow")]))], .struct (.unnamed ["f64"])⟩,
  -- `F64`
  ⟨[attr (.list (some "number") (.metas [.list (some "nan") (.word "Must"), .list (some "range") (.metas [.list (some "Inside") (.metas [.nameValue (some "max") (.lit (.int (ascii "0")))])]), .list (some "conflict") (.word "Allow")]))], .struct (.unnamed ["f64"])⟩,
  -- `F64`
  ⟨[attr (.list (some "number") (.metas [.list (some "nan") (.word "Disallow"), .list (some "range") (.metas [.list (some "Inside") (.metas [.nameValue (some "max") (.lit (.int (ascii "0")))])]), .list (some "conflict") (.word "Allow")]))], .struct (.unnamed ["f64"])⟩,
  -- `F64`
  ⟨[attr (.list (some "number") (.metas [.list (some "nan") (.word "Allow"), .list (some "range") (.metas [.list (some "Inside") (.metas [.nameValue (some "min") (.lit (.int (ascii "0"))), .nameValue (some "max") (.lit (.int (ascii "0")))])]), .list (some "conflict") (.word "Allow")]))], .struct (.unnamed ["f64"])⟩,
  -- `F64`
  ⟨[attr (.list (some "number") (.metas [.list (some "nan") (.word "Must"), .list (some "range") (.metas [.list (some "Inside") (.metas [.nameValue (some "min") (.lit (.int (ascii "0"))), .nameValue (some "max") (.lit (.int (ascii "0")))])]), .list (some "conflict") (.word "Allow")]))], .struct (.unnamed ["f64"])⟩,
  -- `F64`
  ⟨[attr (.list (some "number") (.metas [.list (some "nan") (.word "Disallow"), .list (some "range") (.metas [.list (some "Inside") (.metas [.nameValue (some "min") (.lit (.int (ascii "0"))), .nameValue (some "max") (.lit (.int (ascii "0")))])]), .list (some "conflict") (.word "Allow")]))], .struct (.unnamed ["f64"])⟩,
  -- `F64`
  ⟨[attr (.list (some "number") (.metas [.list (some "nan") (.word "Allow"), .list (some "range") (.metas [.list (some "Outside") (.metas [.nameValue (some "min") (.lit (.int (ascii "0"))), .nameValue (some "max") (.lit (.int (ascii "0")))])]), .list (some "conflict") (.word "Allow")]))], .struct (.unnamed ["f64"])⟩,
  -- `F64`
  ⟨[attr (.list (some "number") (.metas [.list (some "nan") (.word "Must"), .list (some "range") (.metas [.list (some "Outside") (.metas [.nameValue (some "min") (.lit (.int (ascii "0"))), .nameValue (some "max") (.lit (.int (ascii "0")))])]), .list (some "conflict") (.word "Allow")]))], .struct (.unnamed ["f64"])⟩,
  -- `F64`
  ⟨[attr (.list (some "number") (.metas [.list (some "nan") (.word "Disallow"), .list (some "range") (.metas [.list (some "Outside") (.metas [.nameValue (some "min") (.lit (.int (ascii "0"))), .nameValue (some "max") (.lit (.int (ascii "0")))])]), .list (some "conflict") (.word "Allow")]))], .struct (.unnamed ["f64"])⟩,
  -- `F64`
  ⟨[attr (.list (some "number") (.metas [.list (some "nan") (.word "Disallow"), .list (some "range") (.metas [.list (some "Inside") (.metas [.nameValue (some "min") (.neg (.int (ascii "1"))), .nameValue (some "max") (.lit (.int (ascii "1")))])]), .list (some "conflict") (.word "Allow")]))], .struct (.unnamed ["f64"])⟩,
  -- `F64`
  ⟨[attr (.list (some "number") (.metas [.list (some "nan") (.word "Disallow"), .list (some "range") (.metas [.list (some "Outside") (.metas [.nameValue (some "min") (.neg (.int (ascii "1"))), .nameValue (some "max") (.lit (.int (ascii "1")))])]), .list (some "conflict") (.word "Allow")]))], .struct (.unnamed ["f64"])⟩,
  -- `F64`
  ⟨[attr (.list (some "number") (.metas [.list (some "nan") (.word "Disallow"), .list (some "range") (.metas [.list (some "Outside") (.metas [.nameValue (some "min") (.lit (.int (ascii "0"))), .nameValue (some "max") (.lit (.int (ascii "1"))), .nameValue (some "inclusive") (.lit (.bool false))])]), .list (some "conflict") (.word "Allow")]))], .struct (.unnamed ["f64"])⟩]

theorem basicTest2Compiled_compiles : basicTest2Compiled.all compiles = true := by decide +kernel

end Verif.Conformance.Number
