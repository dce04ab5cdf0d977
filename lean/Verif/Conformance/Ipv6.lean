import Verif.Conformance.Harness

/-!
# The tests of `validators/tests/ipv6.rs`

Written by `tools/conformance.py`.
-/

namespace Verif.Conformance.Ipv6

open Verif.Attr Verif.Derive Verif.Constants
open Verif.Conformance

/-- The strings of `basic`, and whether they are accepted. -/
def basicCases : List Case := [
  ⟨"", fun _ => false⟩,
  ⟨"127.0.0.1", fun _ => false⟩,
  ⟨"127.0.0.1:8080", fun _ => false⟩,
  ⟨"168.17.212.1", fun _ => false⟩,
  ⟨"168.17.212.1:8080", fun _ => false⟩,
  ⟨"0000:0000:0000:0000:0000:0000:370:7348", fun c => !(tri c "V_LOCAL").musts && !(tri c "V_PORT").musts⟩,
  ⟨"[0000:0000:0000:0000:0000:0000:370:7348]", fun c => !(tri c "V_LOCAL").musts && !(tri c "V_PORT").musts⟩,
  ⟨"[0000:0000:0000:0000:0000:0000:370:7348]:8080", fun c => !(tri c "V_LOCAL").musts && (tri c "V_PORT").allows⟩]

/-- The items of `test!`. -/
def basicTest : List (Input Toks) := [
  -- `IPv6AllowPort`
  ⟨[attr (.list (some "ipv6") (.metas [.list (some "local") (.word "Allow")]))], .struct (.named [("ipv6", "std::net::Ipv6Addr"), ("port", "Option<u16>")])⟩,
  -- `IPv6WithPort`
  ⟨[attr (.list (some "ipv6") (.metas [.list (some "local") (.word "Allow"), .list (some "port") (.word "Must")]))], .struct (.named [("ipv6", "std::net::Ipv6Addr"), ("port", "u16")])⟩,
  -- `IPv6WithoutPort`
  ⟨[attr (.list (some "ipv6") (.metas [.list (some "local") (.word "Allow"), .list (some "port") (.word "Disallow")]))], .struct (.unnamed ["std::net::Ipv6Addr"])⟩,
  -- `IPv6AllowPort`
  ⟨[attr (.list (some "ipv6") (.metas [.list (some "local") (.word "Must")]))], .struct (.named [("ipv6", "std::net::Ipv6Addr"), ("port", "Option<u16>")])⟩,
  -- `IPv6WithPort`
  ⟨[attr (.list (some "ipv6") (.metas [.list (some "local") (.word "Must"), .list (some "port") (.word "Must")]))], .struct (.named [("ipv6", "std::net::Ipv6Addr"), ("port", "u16")])⟩,
  -- `IPv6WithoutPort`
  ⟨[attr (.list (some "ipv6") (.metas [.list (some "local") (.word "Must"), .list (some "port") (.word "Disallow")]))], .struct (.unnamed ["std::net::Ipv6Addr"])⟩,
  -- `IPv6AllowPort`
  ⟨[attr (.list (some "ipv6") (.metas [.list (some "local") (.word "Disallow")]))], .struct (.named [("ipv6", "std::net::Ipv6Addr"), ("port", "Option<u16>")])⟩,
  -- `IPv6WithPort`
  ⟨[attr (.list (some "ipv6") (.metas [.list (some "local") (.word "Disallow"), .list (some "port") (.word "Must")]))], .struct (.named [("ipv6", "std::net::Ipv6Addr"), ("port", "u16")])⟩,
  -- `IPv6WithoutPort`
  ⟨[attr (.list (some "ipv6") (.metas [.list (some "local") (.word "Disallow"), .list (some "port") (.word "Disallow")]))], .struct (.unnamed ["std::net::Ipv6Addr"])⟩]

theorem basicTest_passes : basicTest.all (passes false basicCases) = true := by decide +kernel

end Verif.Conformance.Ipv6
