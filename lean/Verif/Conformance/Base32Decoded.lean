import Verif.Conformance.Harness

/-!
# The tests of `validators/tests/base32_decoded.rs`

Written by `tools/conformance.py`.
-/

namespace Verif.Conformance.Base32Decoded

open Verif.Attr Verif.Derive Verif.Constants
open Verif.Conformance

/-- The strings of `basic`, and whether they are accepted. -/
def basicCases : List Case := [
  ⟨"", fun _ => false⟩,
  ⟨"GEZDGNBVGY3TQOI=", fun c => (tri c "V_PADDING").allows⟩,
  ⟨"GEZDGNBVGY3TQOI", fun c => !(tri c "V_PADDING").musts⟩,
  ⟨"GEZDGNBV=GY3TQOI", fun _ => false⟩]

/-- The items of `test!`. -/
def basicTest : List (Input Toks) := [
  -- `Validator`
  ⟨[attr (.list (some "base32_decoded") (.metas [.list (some "padding") (.word "Allow")]))], .struct (.unnamed ["Vec<u8>"])⟩,
  -- `Validator`
  ⟨[attr (.list (some "base32_decoded") (.metas [.list (some "padding") (.word "Must")]))], .struct (.unnamed ["Vec<u8>"])⟩,
  -- `Validator`
  ⟨[attr (.list (some "base32_decoded") (.metas [.list (some "padding") (.word "Disallow")]))], .struct (.unnamed ["Vec<u8>"])⟩]

theorem basicTest_passes : basicTest.all (passes true basicCases) = true := by decide +kernel

end Verif.Conformance.Base32Decoded
