import Verif.Conformance.Harness

/-!
# The tests of `validators/tests/host.rs`

Written by `tools/conformance.py`.
-/

namespace Verif.Conformance.Host

open Verif.Attr Verif.Derive Verif.Constants
open Verif.Conformance

/-- The strings of `basic`, and whether they are accepted. -/
def basicCases : List Case := [
  ⟨"", fun _ => false⟩,
  ⟨"127.0.0.1", fun c => (tri c "V_LOCAL").allows && !(tri c "V_PORT").musts && (tri c "V_AT_LEAST_TWO_LABELS").allows⟩,
  ⟨"127.0.0.1.", fun _ => false⟩,
  ⟨"127.0.0.1:8080", fun c => (tri c "V_LOCAL").allows && (tri c "V_PORT").allows && (tri c "V_AT_LEAST_TWO_LABELS").allows⟩,
  ⟨"127.0.0.1.:8080", fun _ => false⟩,
  ⟨"168.17.212.1", fun c => !(tri c "V_LOCAL").musts && !(tri c "V_PORT").musts && (tri c "V_AT_LEAST_TWO_LABELS").allows⟩,
  ⟨"168.17.212.1.", fun _ => false⟩,
  ⟨"168.17.212.1:8080", fun c => !(tri c "V_LOCAL").musts && (tri c "V_PORT").allows && (tri c "V_AT_LEAST_TWO_LABELS").allows⟩,
  ⟨"168.17.212.1.:8080", fun _ => false⟩,
  ⟨"localhost", fun c => (tri c "V_LOCAL").allows && !(tri c "V_PORT").musts⟩,
  ⟨"localhost.", fun _ => false⟩,
  ⟨"localhost:8080", fun c => (tri c "V_LOCAL").allows && (tri c "V_PORT").allows⟩,
  ⟨"localhost.:8080", fun _ => false⟩,
  ⟨"myhost", fun c => !(tri c "V_LOCAL").musts && !(tri c "V_PORT").musts && !(tri c "V_AT_LEAST_TWO_LABELS").musts⟩,
  ⟨"myhost.", fun _ => false⟩,
  ⟨"myhost:8080", fun c => !(tri c "V_LOCAL").musts && (tri c "V_PORT").allows && !(tri c "V_AT_LEAST_TWO_LABELS").musts⟩,
  ⟨"myhost.:8080", fun _ => false⟩,
  ⟨"臺灣.tw", fun c => !(tri c "V_LOCAL").musts && !(tri c "V_PORT").musts && (tri c "V_AT_LEAST_TWO_LABELS").allows⟩,
  ⟨"臺灣.tw.", fun _ => false⟩,
  ⟨"臺灣.tw:8080", fun c => !(tri c "V_LOCAL").musts && (tri c "V_PORT").allows && (tri c "V_AT_LEAST_TWO_LABELS").allows⟩,
  ⟨"臺灣.tw.:8080", fun _ => false⟩,
  ⟨"0000:0000:0000:0000:0000:0000:370:7348", fun c => !(tri c "V_LOCAL").musts && !(tri c "V_PORT").musts && (tri c "V_AT_LEAST_TWO_LABELS").allows⟩,
  ⟨"[0000:0000:0000:0000:0000:0000:370:7348]", fun c => !(tri c "V_LOCAL").musts && !(tri c "V_PORT").musts && (tri c "V_AT_LEAST_TWO_LABELS").allows⟩,
  ⟨"[0000:0000:0000:0000:0000:0000:370:7348]:8080", fun c => !(tri c "V_LOCAL").musts && (tri c "V_PORT").allows && (tri c "V_AT_LEAST_TWO_LABELS").allows⟩]

/-- The items of `test!`. -/
def basicTest : List (Input Toks) := [
  -- `HostAllowPort`
  ⟨[attr (.list (some "host") (.metas [.list (some "local") (.word "Allow"), .list (some "at_least_two_labels") (.word "Allow")]))], .struct (.named [("host", "validators::models::Host"), ("port", "Option<u16>")])⟩,
  -- `HostWithPort`
  ⟨[attr (.list (some "host") (.metas [.list (some "local") (.word "Allow"), .list (some "at_least_two_labels") (.word "Allow"), .list (some "port") (.word "Must")]))], .struct (.named [("host", "validators::models::Host"), ("port", "u16")])⟩,
  -- `HostWithoutPort`
  ⟨[attr (.list (some "host") (.metas [.list (some "local") (.word "Allow"), .list (some "at_least_two_labels") (.word "Allow"), .list (some "port") (.word "Disallow")]))], .struct (.unnamed ["validators::models::Host"])⟩,
  -- `HostAllowPort`
  ⟨[attr (.list (some "host") (.metas [.list (some "local") (.word "Must"), .list (some "at_least_two_labels") (.word "Allow")]))], .struct (.named [("host", "validators::models::Host"), ("port", "Option<u16>")])⟩,
  -- `HostWithPort`
  ⟨[attr (.list (some "host") (.metas [.list (some "local") (.word "Must"), .list (some "at_least_two_labels") (.word "Allow"), .list (some "port") (.word "Must")]))], .struct (.named [("host", "validators::models::Host"), ("port", "u16")])⟩,
  -- `HostWithoutPort`
  ⟨[attr (.list (some "host") (.metas [.list (some "local") (.word "Must"), .list (some "at_least_two_labels") (.word "Allow"), .list (some "port") (.word "Disallow")]))], .struct (.unnamed ["validators::models::Host"])⟩,
  -- `HostAllowPort`
  ⟨[attr (.list (some "host") (.metas [.list (some "local") (.word "Must"), .list (some "at_least_two_labels") (.word "Must")]))], .struct (.named [("host", "validators::models::Host"), ("port", "Option<u16>")])⟩,
  -- `HostWithPort`
  ⟨[attr (.list (some "host") (.metas [.list (some "local") (.word "Must"), .list (some "at_least_two_labels") (.word "Must"), .list (some "port") (.word "Must")]))], .struct (.named [("host", "validators::models::Host"), ("port", "u16")])⟩,
  -- `HostWithoutPort`
  ⟨[attr (.list (some "host") (.metas [.list (some "local") (.word "Must"), .list (some "at_least_two_labels") (.word "Must"), .list (some "port") (.word "Disallow")]))], .struct (.unnamed ["validators::models::Host"])⟩,
  -- `HostAllowPort`
  ⟨[attr (.list (some "host") (.metas [.list (some "local") (.word "Must"), .list (some "at_least_two_labels") (.word "Disallow")]))], .struct (.named [("host", "validators::models::Host"), ("port", "Option<u16>")])⟩,
  -- `HostWithPort`
  ⟨[attr (.list (some "host") (.metas [.list (some "local") (.word "Must"), .list (some "at_least_two_labels") (.word "Disallow"), .list (some "port") (.word "Must")]))], .struct (.named [("host", "validators::models::Host"), ("port", "u16")])⟩,
  -- `HostWithoutPort`
  ⟨[attr (.list (some "host") (.metas [.list (some "local") (.word "Must"), .list (some "at_least_two_labels") (.word "Disallow"), .list (some "port") (.word "Disallow")]))], .struct (.unnamed ["validators::models::Host"])⟩,
  -- `HostAllowPort`
  ⟨[attr (.list (some "host") (.metas [.list (some "local") (.word "Disallow"), .list (some "at_least_two_labels") (.word "Allow")]))], .struct (.named [("host", "validators::models::Host"), ("port", "Option<u16>")])⟩,
  -- `HostWithPort`
  ⟨[attr (.list (some "host") (.metas [.list (some "local") (.word "Disallow"), .list (some "at_least_two_labels") (.word "Allow"), .list (some "port") (.word "Must")]))], .struct (.named [("host", "validators::models::Host"), ("port", "u16")])⟩,
  -- `HostWithoutPort`
  ⟨[attr (.list (some "host") (.metas [.list (some "local") (.word "Disallow"), .list (some "at_least_two_labels") (.word "Allow"), .list (some "port") (.word "Disallow")]))], .struct (.unnamed ["validators::models::Host"])⟩,
  -- `HostAllowPort`
  ⟨[attr (.list (some "host") (.metas [.list (some "local") (.word "Disallow"), .list (some "at_least_two_labels") (.word "Must")]))], .struct (.named [("host", "validators::models::Host"), ("port", "Option<u16>")])⟩,
  -- `HostWithPort`
  ⟨[attr (.list (some "host") (.metas [.list (some "local") (.word "Disallow"), .list (some "at_least_two_labels") (.word "Must"), .list (some "port") (.word "Must")]))], .struct (.named [("host", "validators::models::Host"), ("port", "u16")])⟩,
  -- `HostWithoutPort`
  ⟨[attr (.list (some "host") (.metas [.list (some "local") (.word "Disallow"), .list (some "at_least_two_labels") (.word "Must"), .list (some "port") (.word "Disallow")]))], .struct (.unnamed ["validators::models::Host"])⟩,
  -- `HostAllowPort`
  ⟨[attr (.list (some "host") (.metas [.list (some "local") (.word "Disallow"), .list (some "at_least_two_labels") (.word "Disallow")]))], .struct (.named [("host", "validators::models::Host"), ("port", "Option<u16>")])⟩,
  -- `HostWithPort`
  ⟨[attr (.list (some "host") (.metas [.list (some "local") (.word "Disallow"), .list (some "at_least_two_labels") (.word "Disallow"), .list (some "port") (.word "Must")]))], .struct (.named [("host", "validators::models::Host"), ("port", "u16")])⟩,
  -- `HostWithoutPort`
  ⟨[attr (.list (some "host") (.metas [.list (some "local") (.word "Disallow"), .list (some "at_least_two_labels") (.word "Disallow"), .list (some "port") (.word "Disallow")]))], .struct (.unnamed ["validators::models::Host"])⟩]

theorem basicTest_passes : basicTest.all (passes false basicCases) = true := by decide +kernel

/-- The items of `test2!`. -/
def basicTest2 : List (Input Toks) := [
  -- `HostAllowPortIsLocal`
  ⟨[attr (.list (some "host") (.metas [.list (some "local") (.word "Allow"), .list (some "at_least_two_labels") (.word "Must")]))], .struct (.named [("host", "validators::models::Host"), ("port", "Option<u16>"), ("is_local", "bool")])⟩,
  -- `HostWithPortIsLocal`
  ⟨[attr (.list (some "host") (.metas [.list (some "local") (.word "Allow"), .list (some "at_least_two_labels") (.word "Must"), .list (some "port") (.word "Must")]))], .struct (.named [("host", "validators::models::Host"), ("port", "u16"), ("is_local", "bool")])⟩,
  -- `HostWithoutPortIsLocal`
  ⟨[attr (.list (some "host") (.metas [.list (some "local") (.word "Allow"), .list (some "at_least_two_labels") (.word "Must"), .list (some "port") (.word "Disallow")]))], .struct (.named [("host", "validators::models::Host"), ("is_local", "bool")])⟩,
  -- `HostAllowPortIsLocal`
  ⟨[attr (.list (some "host") (.metas [.list (some "local") (.word "Allow"), .list (some "at_least_two_labels") (.word "Disallow")]))], .struct (.named [("host", "validators::models::Host"), ("port", "Option<u16>"), ("is_local", "bool")])⟩,
  -- `HostWithPortIsLocal`
  ⟨[attr (.list (some "host") (.metas [.list (some "local") (.word "Allow"), .list (some "at_least_two_labels") (.word "Disallow"), .list (some "port") (.word "Must")]))], .struct (.named [("host", "validators::models::Host"), ("port", "u16"), ("is_local", "bool")])⟩,
  -- `HostWithoutPortIsLocal`
  ⟨[attr (.list (some "host") (.metas [.list (some "local") (.word "Allow"), .list (some "at_least_two_labels") (.word "Disallow"), .list (some "port") (.word "Disallow")]))], .struct (.named [("host", "validators::models::Host"), ("is_local", "bool")])⟩]

theorem basicTest2_passes : basicTest2.all (passes false basicCases) = true := by decide +kernel

end Verif.Conformance.Host
