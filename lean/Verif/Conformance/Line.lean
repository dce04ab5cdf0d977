import Verif.Conformance.Harness

/-!
# The tests of `validators/tests/line.rs`

Written by `tools/conformance.py`.
-/

namespace Verif.Conformance.Line

open Verif.Attr Verif.Derive Verif.Constants
open Verif.Conformance

/-- The strings of `char`, and whether they are accepted. -/
def charCases : List Case := [
  ⟨"123\n456", fun _ => false⟩,
  ⟨"", fun c => charLength "" (number c "V_CHAR_LENGTH_MIN") (number c "V_CHAR_LENGTH_MAX") (number c "V_CHAR_LENGTH_TRIMMED_MIN")⟩,
  ⟨"   ", fun c => charLength "   " (number c "V_CHAR_LENGTH_MIN") (number c "V_CHAR_LENGTH_MAX") (number c "V_CHAR_LENGTH_TRIMMED_MIN")⟩,
  ⟨"　　　", fun c => charLength "　　　" (number c "V_CHAR_LENGTH_MIN") (number c "V_CHAR_LENGTH_MAX") (number c "V_CHAR_LENGTH_TRIMMED_MIN")⟩,
  ⟨"123", fun c => charLength "123" (number c "V_CHAR_LENGTH_MIN") (number c "V_CHAR_LENGTH_MAX") (number c "V_CHAR_LENGTH_TRIMMED_MIN")⟩]

/-- The items of `test!`. -/
def charTest : List (Input Toks) := [
  -- `Validator`
  ⟨[attr (.list (some "line") (.metas [.list (some "char_length") (.metas [.nameValue (some "min") (.group (some (.int (ascii "1"))))])]))], .struct (.unnamed ["String"])⟩,
  -- `Validator`
  ⟨[attr (.list (some "line") (.metas [.list (some "char_length") (.metas [.nameValue (some "trimmed_min") (.group (some (.int (ascii "1"))))])]))], .struct (.unnamed ["String"])⟩,
  -- `Validator`
  ⟨[attr (.list (some "line") (.metas [.list (some "char_length") (.metas [.nameValue (some "max") (.group (some (.int (ascii "3"))))])]))], .struct (.unnamed ["String"])⟩,
  -- `Validator`
  ⟨[attr (.list (some "line") (.metas [.list (some "char_length") (.metas [.nameValue (some "min") (.group (some (.int (ascii "1")))), .nameValue (some "max") (.group (some (.int (ascii "3"))))])]))], .struct (.unnamed ["String"])⟩,
  -- `Validator`
  ⟨[attr (.list (some "line") (.metas [.list (some "char_length") (.metas [.nameValue (some "trimmed_min") (.group (some (.int (ascii "1")))), .nameValue (some "max") (.group (some (.int (ascii "3"))))])]))], .struct (.unnamed ["String"])⟩,
  -- `Validator`
  ⟨[attr (.list (some "line") (.metas [.list (some "char_length") (.metas [.nameValue (some "trimmed_min") (.group (some (.int (ascii "1")))), .nameValue (some "min") (.group (some (.int (ascii "2")))), .nameValue (some "max") (.group (some (.int (ascii "3"))))])]))], .struct (.unnamed ["String"])⟩]

theorem charTest_passes : charTest.all (passes false charCases) = true := by decide +kernel

/-- The strings of `byte`, and whether they are accepted. -/
def byteCases : List Case := [
  ⟨"123\n456", fun _ => false⟩,
  ⟨"", fun c => byteLength "" (number c "V_BYTE_LENGTH_MIN") (number c "V_BYTE_LENGTH_MAX") (number c "V_BYTE_LENGTH_TRIMMED_MIN")⟩,
  ⟨"   ", fun c => byteLength "   " (number c "V_BYTE_LENGTH_MIN") (number c "V_BYTE_LENGTH_MAX") (number c "V_BYTE_LENGTH_TRIMMED_MIN")⟩,
  ⟨"　　　", fun c => byteLength "　　　" (number c "V_BYTE_LENGTH_MIN") (number c "V_BYTE_LENGTH_MAX") (number c "V_BYTE_LENGTH_TRIMMED_MIN")⟩,
  ⟨"123", fun c => byteLength "123" (number c "V_BYTE_LENGTH_MIN") (number c "V_BYTE_LENGTH_MAX") (number c "V_BYTE_LENGTH_TRIMMED_MIN")⟩]

/-- The items of `test!`. -/
def byteTest : List (Input Toks) := [
  -- `Validator`
  ⟨[attr (.list (some "line") (.metas [.list (some "byte_length") (.metas [.nameValue (some "min") (.group (some (.int (ascii "1"))))])]))], .struct (.unnamed ["String"])⟩,
  -- `Validator`
  ⟨[attr (.list (some "line") (.metas [.list (some "byte_length") (.metas [.nameValue (some "trimmed_min") (.group (some (.int (ascii "1"))))])]))], .struct (.unnamed ["String"])⟩,
  -- `Validator`
  ⟨[attr (.list (some "line") (.metas [.list (some "byte_length") (.metas [.nameValue (some "max") (.group (some (.int (ascii "3"))))])]))], .struct (.unnamed ["String"])⟩,
  -- `Validator`
  ⟨[attr (.list (some "line") (.metas [.list (some "byte_length") (.metas [.nameValue (some "min") (.group (some (.int (ascii "1")))), .nameValue (some "max") (.group (some (.int (ascii "3"))))])]))], .struct (.unnamed ["String"])⟩,
  -- `Validator`
  ⟨[attr (.list (some "line") (.metas [.list (some "byte_length") (.metas [.nameValue (some "trimmed_min") (.group (some (.int (ascii "1")))), .nameValue (some "max") (.group (some (.int (ascii "3"))))])]))], .struct (.unnamed ["String"])⟩,
  -- `Validator`
  ⟨[attr (.list (some "line") (.metas [.list (some "byte_length") (.metas [.nameValue (some "trimmed_min") (.group (some (.int (ascii "1")))), .nameValue (some "min") (.group (some (.int (ascii "2")))), .nameValue (some "max") (.group (some (.int (ascii "3"))))])]))], .struct (.unnamed ["String"])⟩]

theorem byteTest_passes : byteTest.all (passes false byteCases) = true := by decide +kernel

end Verif.Conformance.Line
