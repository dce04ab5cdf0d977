import Verif.Conformance.Harness

/-!
# The tests of `validators/tests/http_url.rs`

Written by `tools/conformance.py`.
-/

namespace Verif.Conformance.HttpUrl

open Verif.Attr Verif.Derive Verif.Constants
open Verif.Conformance

/-- The strings of `basic`, and whether they are accepted. -/
def basicCases : List Case := [
  ⟨"", fun _ => false⟩,
  ⟨"example:", fun _ => false⟩,
  ⟨"ftp://example.org/", fun _ => false⟩,
  ⟨"https://example.org/", fun c => !(tri c "V_LOCAL").musts⟩,
  ⟨"http://localhost:3000/", fun c => (tri c "V_LOCAL").allows⟩,
  ⟨"http://127.0.0.1:3000/", fun c => (tri c "V_LOCAL").allows⟩]

/-- The items of `test!`. -/
def basicTest : List (Input Toks) := [
  -- `Validator`
  ⟨[attr (.list (some "http_url") (.metas [.list (some "local") (.word "Allow")]))], .struct (.named [("url", "url::Url"), ("is_https", "bool")])⟩,
  -- `Validator`
  ⟨[attr (.list (some "http_url") (.metas [.list (some "local") (.word "Must")]))], .struct (.named [("url", "url::Url"), ("is_https", "bool")])⟩,
  -- `Validator`
  ⟨[attr (.list (some "http_url") (.metas [.list (some "local") (.word "Disallow")]))], .struct (.named [("url", "url::Url"), ("is_https", "bool")])⟩]

theorem basicTest_passes : basicTest.all (passes false basicCases) = true := by decide +kernel

end Verif.Conformance.HttpUrl
