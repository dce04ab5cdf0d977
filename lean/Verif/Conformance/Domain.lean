import Verif.Conformance.Harness

/-!
# The tests of `validators/tests/domain.rs`

Written by `tools/conformance.py`.
-/

namespace Verif.Conformance.Domain

open Verif.Attr Verif.Derive Verif.Constants
open Verif.Conformance

/-- The strings of `basic`, and whether they are accepted. -/
def basicCases : List Case := [
  ⟨"", fun _ => false⟩,
  ⟨"127.0.0.1", fun c => (tri c "V_IPV4").allows && (tri c "V_LOCAL").allows && !(tri c "V_PORT").musts && (tri c "V_AT_LEAST_TWO_LABELS").allows⟩,
  ⟨"127.0.0.1.", fun c => (tri c "V_IPV4").allows && (tri c "V_LOCAL").allows && !(tri c "V_PORT").musts && (tri c "V_AT_LEAST_TWO_LABELS").allows⟩,
  ⟨"127.0.0.1:8080", fun c => (tri c "V_IPV4").allows && (tri c "V_LOCAL").allows && (tri c "V_PORT").allows && (tri c "V_AT_LEAST_TWO_LABELS").allows⟩,
  ⟨"127.0.0.1.:8080", fun c => (tri c "V_IPV4").allows && (tri c "V_LOCAL").allows && (tri c "V_PORT").allows && (tri c "V_AT_LEAST_TWO_LABELS").allows⟩,
  ⟨"168.17.212.1", fun c => (tri c "V_IPV4").allows && !(tri c "V_LOCAL").musts && !(tri c "V_PORT").musts && (tri c "V_AT_LEAST_TWO_LABELS").allows⟩,
  ⟨"168.17.212.1.", fun c => (tri c "V_IPV4").allows && !(tri c "V_LOCAL").musts && !(tri c "V_PORT").musts && (tri c "V_AT_LEAST_TWO_LABELS").allows⟩,
  ⟨"168.17.212.1:8080", fun c => (tri c "V_IPV4").allows && !(tri c "V_LOCAL").musts && (tri c "V_PORT").allows && (tri c "V_AT_LEAST_TWO_LABELS").allows⟩,
  ⟨"168.17.212.1.:8080", fun c => (tri c "V_IPV4").allows && !(tri c "V_LOCAL").musts && (tri c "V_PORT").allows && (tri c "V_AT_LEAST_TWO_LABELS").allows⟩,
  ⟨"localhost", fun c => !(tri c "V_IPV4").musts && (tri c "V_LOCAL").allows && !(tri c "V_PORT").musts⟩,
  ⟨"localhost.", fun c => !(tri c "V_IPV4").musts && (tri c "V_LOCAL").allows && !(tri c "V_PORT").musts⟩,
  ⟨"localhost:8080", fun c => !(tri c "V_IPV4").musts && (tri c "V_LOCAL").allows && (tri c "V_PORT").allows⟩,
  ⟨"localhost.:8080", fun c => !(tri c "V_IPV4").musts && (tri c "V_LOCAL").allows && (tri c "V_PORT").allows⟩,
  ⟨"myhost", fun c => !(tri c "V_IPV4").musts && !(tri c "V_LOCAL").musts && !(tri c "V_PORT").musts && !(tri c "V_AT_LEAST_TWO_LABELS").musts⟩,
  ⟨"myhost.", fun c => !(tri c "V_IPV4").musts && !(tri c "V_LOCAL").musts && !(tri c "V_PORT").musts && !(tri c "V_AT_LEAST_TWO_LABELS").musts⟩,
  ⟨"myhost:8080", fun c => !(tri c "V_IPV4").musts && !(tri c "V_LOCAL").musts && (tri c "V_PORT").allows && !(tri c "V_AT_LEAST_TWO_LABELS").musts⟩,
  ⟨"myhost.:8080", fun c => !(tri c "V_IPV4").musts && !(tri c "V_LOCAL").musts && (tri c "V_PORT").allows && !(tri c "V_AT_LEAST_TWO_LABELS").musts⟩,
  ⟨"臺灣.tw", fun c => !(tri c "V_IPV4").musts && !(tri c "V_LOCAL").musts && !(tri c "V_PORT").musts && (tri c "V_AT_LEAST_TWO_LABELS").allows⟩,
  ⟨"臺灣.tw.", fun c => !(tri c "V_IPV4").musts && !(tri c "V_LOCAL").musts && !(tri c "V_PORT").musts && (tri c "V_AT_LEAST_TWO_LABELS").allows⟩,
  ⟨"臺灣.tw:8080", fun c => !(tri c "V_IPV4").musts && !(tri c "V_LOCAL").musts && (tri c "V_PORT").allows && (tri c "V_AT_LEAST_TWO_LABELS").allows⟩,
  ⟨"臺灣.tw.:8080", fun c => !(tri c "V_IPV4").musts && !(tri c "V_LOCAL").musts && (tri c "V_PORT").allows && (tri c "V_AT_LEAST_TWO_LABELS").allows⟩]

/-- The items of `test!`. -/
def basicTest : List (Input Toks) := [
  -- `DomainAllowPort`
  ⟨[attr (.list (some "domain") (.metas [.list (some "ipv4") (.word "Allow"), .list (some "local") (.word "Allow"), .list (some "at_least_two_labels") (.word "Allow"), .list (some "conflict") (.word "Allow")]))], .struct (.named [("domain", "String"), ("port", "Option<u16>")])⟩,
  -- `DomainWithPort`
  ⟨[attr (.list (some "domain") (.metas [.list (some "ipv4") (.word "Allow"), .list (some "local") (.word "Allow"), .list (some "at_least_two_labels") (.word "Allow"), .list (some "port") (.word "Must"), .list (some "conflict") (.word "Allow")]))], .struct (.named [("domain", "String"), ("port", "u16")])⟩,
  -- `DomainWithoutPort`
  ⟨[attr (.list (some "domain") (.metas [.list (some "ipv4") (.word "Allow"), .list (some "local") (.word "Allow"), .list (some "at_least_two_labels") (.word "Allow"), .list (some "port") (.word "Disallow"), .list (some "conflict") (.word "Allow")]))], .struct (.unnamed ["String"])⟩,
  -- `DomainAllowPort`
  ⟨[attr (.list (some "domain") (.metas [.list (some "ipv4") (.word "Allow"), .list (some "local") (.word "Must"), .list (some "at_least_two_labels") (.word "Allow"), .list (some "conflict") (.word "Allow")]))], .struct (.named [("domain", "String"), ("port", "Option<u16>")])⟩,
  -- `DomainWithPort`
  ⟨[attr (.list (some "domain") (.metas [.list (some "ipv4") (.word "Allow"), .list (some "local") (.word "Must"), .list (some "at_least_two_labels") (.word "Allow"), .list (some "port") (.word "Must"), .list (some "conflict") (.word "Allow")]))], .struct (.named [("domain", "String"), ("port", "u16")])⟩,
  -- `DomainWithoutPort`
  ⟨[attr (.list (some "domain") (.metas [.list (some "ipv4") (.word "Allow"), .list (some "local") (.word "Must"), .list (some "at_least_two_labels") (.word "Allow"), .list (some "port") (.word "Disallow"), .list (some "conflict") (.word "Allow")]))], .struct (.unnamed ["String"])⟩,
  -- `DomainAllowPort`
  ⟨[attr (.list (some "domain") (.metas [.list (some "ipv4") (.word "Allow"), .list (some "local") (.word "Must"), .list (some "at_least_two_labels") (.word "Must"), .list (some "conflict") (.word "Allow")]))], .struct (.named [("domain", "String"), ("port", "Option<u16>")])⟩,
  -- `DomainWithPort`
  ⟨[attr (.list (some "domain") (.metas [.list (some "ipv4") (.word "Allow"), .list (some "local") (.word "Must"), .list (some "at_least_two_labels") (.word "Must"), .list (some "port") (.word "Must"), .list (some "conflict") (.word "Allow")]))], .struct (.named [("domain", "String"), ("port", "u16")])⟩,
  -- `DomainWithoutPort`
  ⟨[attr (.list (some "domain") (.metas [.list (some "ipv4") (.word "Allow"), .list (some "local") (.word "Must"), .list (some "at_least_two_labels") (.word "Must"), .list (some "port") (.word "Disallow"), .list (some "conflict") (.word "Allow")]))], .struct (.unnamed ["String"])⟩,
  -- `DomainAllowPort`
  ⟨[attr (.list (some "domain") (.metas [.list (some "ipv4") (.word "Allow"), .list (some "local") (.word "Must"), .list (some "at_least_two_labels") (.word "Disallow"), .list (some "conflict") (.word "Allow")]))], .struct (.named [("domain", "String"), ("port", "Option<u16>")])⟩,
  -- `DomainWithPort`
  ⟨[attr (.list (some "domain") (.metas [.list (some "ipv4") (.word "Allow"), .list (some "local") (.word "Must"), .list (some "at_least_two_labels") (.word "Disallow"), .list (some "port") (.word "Must"), .list (some "conflict") (.word "Allow")]))], .struct (.named [("domain", "String"), ("port", "u16")])⟩,
  -- `DomainWithoutPort`
  ⟨[attr (.list (some "domain") (.metas [.list (some "ipv4") (.word "Allow"), .list (some "local") (.word "Must"), .list (some "at_least_two_labels") (.word "Disallow"), .list (some "port") (.word "Disallow"), .list (some "conflict") (.word "Allow")]))], .struct (.unnamed ["String"])⟩,
  -- `DomainAllowPort`
  ⟨[attr (.list (some "domain") (.metas [.list (some "ipv4") (.word "Allow"), .list (some "local") (.word "Disallow"), .list (some "at_least_two_labels") (.word "Allow"), .list (some "conflict") (.word "Allow")]))], .struct (.named [("domain", "String"), ("port", "Option<u16>")])⟩,
  -- `DomainWithPort`
  ⟨[attr (.list (some "domain") (.metas [.list (some "ipv4") (.word "Allow"), .list (some "local") (.word "Disallow"), .list (some "at_least_two_labels") (.word "Allow"), .list (some "port") (.word "Must"), .list (some "conflict") (.word "Allow")]))], .struct (.named [("domain", "String"), ("port", "u16")])⟩,
  -- `DomainWithoutPort`
  ⟨[attr (.list (some "domain") (.metas [.list (some "ipv4") (.word "Allow"), .list (some "local") (.word "Disallow"), .list (some "at_least_two_labels") (.word "Allow"), .list (some "port") (.word "Disallow"), .list (some "conflict") (.word "Allow")]))], .struct (.unnamed ["String"])⟩,
  -- `DomainAllowPort`
  ⟨[attr (.list (some "domain") (.metas [.list (some "ipv4") (.word "Allow"), .list (some "local") (.word "Disallow"), .list (some "at_least_two_labels") (.word "Must"), .list (some "conflict") (.word "Allow")]))], .struct (.named [("domain", "String"), ("port", "Option<u16>")])⟩,
  -- `DomainWithPort`
  ⟨[attr (.list (some "domain") (.metas [.list (some "ipv4") (.word "Allow"), .list (some "local") (.word "Disallow"), .list (some "at_least_two_labels") (.word "Must"), .list (some "port") (.word "Must"), .list (some "conflict") (.word "Allow")]))], .struct (.named [("domain", "String"), ("port", "u16")])⟩,
  -- `DomainWithoutPort`
  ⟨[attr (.list (some "domain") (.metas [.list (some "ipv4") (.word "Allow"), .list (some "local") (.word "Disallow"), .list (some "at_least_two_labels") (.word "Must"), .list (some "port") (.word "Disallow"), .list (some "conflict") (.word "Allow")]))], .struct (.unnamed ["String"])⟩,
  -- `DomainAllowPort`
  ⟨[attr (.list (some "domain") (.metas [.list (some "ipv4") (.word "Allow"), .list (some "local") (.word "Disallow"), .list (some "at_least_two_labels") (.word "Disallow"), .list (some "conflict") (.word "Allow")]))], .struct (.named [("domain", "String"), ("port", "Option<u16>")])⟩,
  -- `DomainWithPort`
  ⟨[attr (.list (some "domain") (.metas [.list (some "ipv4") (.word "Allow"), .list (some "local") (.word "Disallow"), .list (some "at_least_two_labels") (.word "Disallow"), .list (some "port") (.word "Must"), .list (some "conflict") (.word "Allow")]))], .struct (.named [("domain", "String"), ("port", "u16")])⟩,
  -- `DomainWithoutPort`
  ⟨[attr (.list (some "domain") (.metas [.list (some "ipv4") (.word "Allow"), .list (some "local") (.word "Disallow"), .list (some "at_least_two_labels") (.word "Disallow"), .list (some "port") (.word "Disallow"), .list (some "conflict") (.word "Allow")]))], .struct (.unnamed ["String"])⟩,
  -- `DomainAllowPort`
  ⟨[attr (.list (some "domain") (.metas [.list (some "ipv4") (.word "Must"), .list (some "local") (.word "Must"), .list (some "at_least_two_labels") (.word "Allow"), .list (some "conflict") (.word "Allow")]))], .struct (.named [("domain", "String"), ("port", "Option<u16>")])⟩,
  -- `DomainWithPort`
  ⟨[attr (.list (some "domain") (.metas [.list (some "ipv4") (.word "Must"), .list (some "local") (.word "Must"), .list (some "at_least_two_labels") (.word "Allow"), .list (some "port") (.word "Must"), .list (some "conflict") (.word "Allow")]))], .struct (.named [("domain", "String"), ("port", "u16")])⟩,
  -- `DomainWithoutPort`
  ⟨[attr (.list (some "domain") (.metas [.list (some "ipv4") (.word "Must"), .list (some "local") (.word "Must"), .list (some "at_least_two_labels") (.word "Allow"), .list (some "port") (.word "Disallow"), .list (some "conflict") (.word "Allow")]))], .struct (.unnamed ["String"])⟩,
  -- `DomainAllowPort`
  ⟨[attr (.list (some "domain") (.metas [.list (some "ipv4") (.word "Must"), .list (some "local") (.word "Must"), .list (some "at_least_two_labels") (.word "Must"), .list (some "conflict") (.word "Allow")]))], .struct (.named [("domain", "String"), ("port", "Option<u16>")])⟩,
  -- `DomainWithPort`
  ⟨[attr (.list (some "domain") (.metas [.list (some "ipv4") (.word "Must"), .list (some "local") (.word "Must"), .list (some "at_least_two_labels") (.word "Must"), .list (some "port") (.word "Must"), .list (some "conflict") (.word "Allow")]))], .struct (.named [("domain", "String"), ("port", "u16")])⟩,
  -- `DomainWithoutPort`
  ⟨[attr (.list (some "domain") (.metas [.list (some "ipv4") (.word "Must"), .list (some "local") (.word "Must"), .list (some "at_least_two_labels") (.word "Must"), .list (some "port") (.word "Disallow"), .list (some "conflict") (.word "Allow")]))], .struct (.unnamed ["String"])⟩,
  -- `DomainAllowPort`
  ⟨[attr (.list (some "domain") (.metas [.list (some "ipv4") (.word "Must"), .list (some "local") (.word "Must"), .list (some "at_least_two_labels") (.word "Disallow"), .list (some "conflict") (.word "Allow")]))], .struct (.named [("domain", "String"), ("port", "Option<u16>")])⟩,
  -- `DomainWithPort`
  ⟨[attr (.list (some "domain") (.metas [.list (some "ipv4") (.word "Must"), .list (some "local") (.word "Must"), .list (some "at_least_two_labels") (.word "Disallow"), .list (some "port") (.word "Must"), .list (some "conflict") (.word "Allow")]))], .struct (.named [("domain", "String"), ("port", "u16")])⟩,
  -- `DomainWithoutPort`
  ⟨[attr (.list (some "domain") (.metas [.list (some "ipv4") (.word "Must"), .list (some "local") (.word "Must"), .list (some "at_least_two_labels") (.word "Disallow"), .list (some "port") (.word "Disallow"), .list (some "conflict") (.word "Allow")]))], .struct (.unnamed ["String"])⟩,
  -- `DomainAllowPort`
  ⟨[attr (.list (some "domain") (.metas [.list (some "ipv4") (.word "Must"), .list (some "local") (.word "Disallow"), .list (some "at_least_two_labels") (.word "Allow"), .list (some "conflict") (.word "Allow")]))], .struct (.named [("domain", "String"), ("port", "Option<u16>")])⟩,
  -- `DomainWithPort`
  ⟨[attr (.list (some "domain") (.metas [.list (some "ipv4") (.word "Must"), .list (some "local") (.word "Disallow"), .list (some "at_least_two_labels") (.word "Allow"), .list (some "port") (.word "Must"), .list (some "conflict") (.word "Allow")]))], .struct (.named [("domain", "String"), ("port", "u16")])⟩,
  -- `DomainWithoutPort`
  ⟨[attr (.list (some "domain") (.metas [.list (some "ipv4") (.word "Must"), .list (some "local") (.word "Disallow"), .list (some "at_least_two_labels") (.word "Allow"), .list (some "port") (.word "Disallow"), .list (some "conflict") (.word "Allow")]))], .struct (.unnamed ["String"])⟩,
  -- `DomainAllowPort`
  ⟨[attr (.list (some "domain") (.metas [.list (some "ipv4") (.word "Must"), .list (some "local") (.word "Disallow"), .list (some "at_least_two_labels") (.word "Must"), .list (some "conflict") (.word "Allow")]))], .struct (.named [("domain", "String"), ("port", "Option<u16>")])⟩,
  -- `DomainWithPort`
  ⟨[attr (.list (some "domain") (.metas [.list (some "ipv4") (.word "Must"), .list (some "local") (.word "Disallow"), .list (some "at_least_two_labels") (.word "Must"), .list (some "port") (.word "Must"), .list (some "conflict") (.word "Allow")]))], .struct (.named [("domain", "String"), ("port", "u16")])⟩,
  -- `DomainWithoutPort`
  ⟨[attr (.list (some "domain") (.metas [.list (some "ipv4") (.word "Must"), .list (some "local") (.word "Disallow"), .list (some "at_least_two_labels") (.word "Must"), .list (some "port") (.word "Disallow"), .list (some "conflict") (.word "Allow")]))], .struct (.unnamed ["String"])⟩,
  -- `DomainAllowPort`
  ⟨[attr (.list (some "domain") (.metas [.list (some "ipv4") (.word "Must"), .list (some "local") (.word "Disallow"), .list (some "at_least_two_labels") (.word "Disallow"), .list (some "conflict") (.word "Allow")]))], .struct (.named [("domain", "String"), ("port", "Option<u16>")])⟩,
  -- `DomainWithPort`
  ⟨[attr (.list (some "domain") (.metas [.list (some "ipv4") (.word "Must"), .list (some "local") (.word "Disallow"), .list (some "at_least_two_labels") (.word "Disallow"), .list (some "port") (.word "Must"), .list (some "conflict") (.word "Allow")]))], .struct (.named [("domain", "String"), ("port", "u16")])⟩,
  -- `DomainWithoutPort`
  ⟨[attr (.list (some "domain") (.metas [.list (some "ipv4") (.word "Must"), .list (some "local") (.word "Disallow"), .list (some "at_least_two_labels") (.word "Disallow"), .list (some "port") (.word "Disallow"), .list (some "conflict") (.word "Allow")]))], .struct (.unnamed ["String"])⟩,
  -- `DomainAllowPort`
  ⟨[attr (.list (some "domain") (.metas [.list (some "ipv4") (.word "Disallow"), .list (some "local") (.word "Must"), .list (some "at_least_two_labels") (.word "Allow"), .list (some "conflict") (.word "Allow")]))], .struct (.named [("domain", "String"), ("port", "Option<u16>")])⟩,
  -- `DomainWithPort`
  ⟨[attr (.list (some "domain") (.metas [.list (some "ipv4") (.word "Disallow"), .list (some "local") (.word "Must"), .list (some "at_least_two_labels") (.word "Allow"), .list (some "port") (.word "Must"), .list (some "conflict") (.word "Allow")]))], .struct (.named [("domain", "String"), ("port", "u16")])⟩,
  -- `DomainWithoutPort`
  ⟨[attr (.list (some "domain") (.metas [.list (some "ipv4") (.word "Disallow"), .list (some "local") (.word "Must"), .list (some "at_least_two_labels") (.word "Allow"), .list (some "port") (.word "Disallow"), .list (some "conflict") (.word "Allow")]))], .struct (.unnamed ["String"])⟩,
  -- `DomainAllowPort`
  ⟨[attr (.list (some "domain") (.metas [.list (some "ipv4") (.word "Disallow"), .list (some "local") (.word "Must"), .list (some "at_least_two_labels") (.word "Must"), .list (some "conflict") (.word "Allow")]))], .struct (.named [("domain", "String"), ("port", "Option<u16>")])⟩,
  -- `DomainWithPort`
  ⟨[attr (.list (some "domain") (.metas [.list (some "ipv4") (.word "Disallow"), .list (some "local") (.word "Must"), .list (some "at_least_two_labels") (.word "Must"), .list (some "port") (.word "Must"), .list (some "conflict") (.word "Allow")]))], .struct (.named [("domain", "String"), ("port", "u16")])⟩,
  -- `DomainWithoutPort`
  ⟨[attr (.list (some "domain") (.metas [.list (some "ipv4") (.word "Disallow"), .list (some "local") (.word "Must"), .list (some "at_least_two_labels") (.word "Must"), .list (some "port") (.word "Disallow"), .list (some "conflict") (.word "Allow")]))], .struct (.unnamed ["String"])⟩,
  -- `DomainAllowPort`
  ⟨[attr (.list (some "domain") (.metas [.list (some "ipv4") (.word "Disallow"), .list (some "local") (.word "Must"), .list (some "at_least_two_labels") (.word "Disallow"), .list (some "conflict") (.word "Allow")]))], .struct (.named [("domain", "String"), ("port", "Option<u16>")])⟩,
  -- `DomainWithPort`
  ⟨[attr (.list (some "domain") (.metas [.list (some "ipv4") (.word "Disallow"), .list (some "local") (.word "Must"), .list (some "at_least_two_labels") (.word "Disallow"), .list (some "port") (.word "Must"), .list (some "conflict") (.word "Allow")]))], .struct (.named [("domain", "String"), ("port", "u16")])⟩,
  -- `DomainWithoutPort`
  ⟨[attr (.list (some "domain") (.metas [.list (some "ipv4") (.word "Disallow"), .list (some "local") (.word "Must"), .list (some "at_least_two_labels") (.word "Disallow"), .list (some "port") (.word "Disallow"), .list (some "conflict") (.word "Allow")]))], .struct (.unnamed ["String"])⟩,
  -- `DomainAllowPort`
  ⟨[attr (.list (some "domain") (.metas [.list (some "ipv4") (.word "Disallow"), .list (some "local") (.word "Disallow"), .list (some "at_least_two_labels") (.word "Allow"), .list (some "conflict") (.word "Allow")]))], .struct (.named [("domain", "String"), ("port", "Option<u16>")])⟩,
  -- `DomainWithPort`
  ⟨[attr (.list (some "domain") (.metas [.list (some "ipv4") (.word "Disallow"), .list (some "local") (.word "Disallow"), .list (some "at_least_two_labels") (.word "Allow"), .list (some "port") (.word "Must"), .list (some "conflict") (.word "Allow")]))], .struct (.named [("domain", "String"), ("port", "u16")])⟩,
  -- `DomainWithoutPort`
  ⟨[attr (.list (some "domain") (.metas [.list (some "ipv4") (.word "Disallow"), .list (some "local") (.word "Disallow"), .list (some "at_least_two_labels") (.word "Allow"), .list (some "port") (.word "Disallow"), .list (some "conflict") (.word "Allow")]))], .struct (.unnamed ["String"])⟩,
  -- `DomainAllowPort`
  ⟨[attr (.list (some "domain") (.metas [.list (some "ipv4") (.word "Disallow"), .list (some "local") (.word "Disallow"), .list (some "at_least_two_labels") (.word "Must"), .list (some "conflict") (.word "Allow")]))], .struct (.named [("domain", "String"), ("port", "Option<u16>")])⟩,
  -- `DomainWithPort`
  ⟨[attr (.list (some "domain") (.metas [.list (some "ipv4") (.word "Disallow"), .list (some "local") (.word "Disallow"), .list (some "at_least_two_labels") (.word "Must"), .list (some "port") (.word "Must"), .list (some "conflict") (.word "Allow")]))], .struct (.named [("domain", "String"), ("port", "u16")])⟩,
  -- `DomainWithoutPort`
  ⟨[attr (.list (some "domain") (.metas [.list (some "ipv4") (.word "Disallow"), .list (some "local") (.word "Disallow"), .list (some "at_least_two_labels") (.word "Must"), .list (some "port") (.word "Disallow"), .list (some "conflict") (.word "Allow")]))], .struct (.unnamed ["String"])⟩,
  -- `DomainAllowPort`
  ⟨[attr (.list (some "domain") (.metas [.list (some "ipv4") (.word "Disallow"), .list (some "local") (.word "Disallow"), .list (some "at_least_two_labels") (.word "Disallow"), .list (some "conflict") (.word "Allow")]))], .struct (.named [("domain", "String"), ("port", "Option<u16>")])⟩,
  -- `DomainWithPort`
  ⟨[attr (.list (some "domain") (.metas [.list (some "ipv4") (.word "Disallow"), .list (some "local") (.word "Disallow"), .list (some "at_least_two_labels") (.word "Disallow"), .list (some "port") (.word "Must"), .list (some "conflict") (.word "Allow")]))], .struct (.named [("domain", "String"), ("port", "u16")])⟩,
  -- `DomainWithoutPort`
  ⟨[attr (.list (some "domain") (.metas [.list (some "ipv4") (.word "Disallow"), .list (some "local") (.word "Disallow"), .list (some "at_least_two_labels") (.word "Disallow"), .list (some "port") (.word "Disallow"), .list (some "conflict") (.word "Allow")]))], .struct (.unnamed ["String"])⟩]

theorem basicTest_passes : basicTest.all (passes false basicCases) = true := by decide +kernel

/-- The items of `test2!`. -/
def basicTest2 : List (Input Toks) := [
  -- `DomainAllowIPv4AllowPortIsLocal`
  ⟨[attr (.list (some "domain") (.metas [.list (some "local") (.word "Allow"), .list (some "at_least_two_labels") (.word "Must")]))], .struct (.named [("domain", "String"), ("is_ipv4", "bool"), ("port", "Option<u16>"), ("is_local", "bool")])⟩,
  -- `DomainAllowIPv4WithPortIsLocal`
  ⟨[attr (.list (some "domain") (.metas [.list (some "local") (.word "Allow"), .list (some "at_least_two_labels") (.word "Must"), .list (some "port") (.word "Must")]))], .struct (.named [("domain", "String"), ("is_ipv4", "bool"), ("port", "u16"), ("is_local", "bool")])⟩,
  -- `DomainAllowIPv4WithoutPortIsLocal`
  ⟨[attr (.list (some "domain") (.metas [.list (some "local") (.word "Allow"), .list (some "at_least_two_labels") (.word "Must"), .list (some "port") (.word "Disallow")]))], .struct (.named [("domain", "String"), ("is_ipv4", "bool"), ("is_local", "bool")])⟩,
  -- `DomainIPv4AllowPortIsLocal`
  ⟨[attr (.list (some "domain") (.metas [.list (some "local") (.word "Allow"), .list (some "at_least_two_labels") (.word "Must"), .list (some "ipv4") (.word "Must"), .list (some "conflict") (.word "Allow")]))], .struct (.named [("domain", "String"), ("port", "Option<u16>"), ("is_local", "bool")])⟩,
  -- `DomainIPv4WithPortIsLocal`
  ⟨[attr (.list (some "domain") (.metas [.list (some "local") (.word "Allow"), .list (some "at_least_two_labels") (.word "Must"), .list (some "ipv4") (.word "Must"), .list (some "port") (.word "Must"), .list (some "conflict") (.word "Allow")]))], .struct (.named [("domain", "String"), ("port", "u16"), ("is_local", "bool")])⟩,
  -- `DomainIPv4WithoutPortIsLocal`
  ⟨[attr (.list (some "domain") (.metas [.list (some "local") (.word "Allow"), .list (some "at_least_two_labels") (.word "Must"), .list (some "ipv4") (.word "Must"), .list (some "port") (.word "Disallow"), .list (some "conflict") (.word "Allow")]))], .struct (.named [("domain", "String"), ("is_local", "bool")])⟩,
  -- `DomainNonIPv4AllowPortIsLocal`
  ⟨[attr (.list (some "domain") (.metas [.list (some "local") (.word "Allow"), .list (some "at_least_two_labels") (.word "Must"), .list (some "ipv4") (.word "Disallow")]))], .struct (.named [("domain", "String"), ("port", "Option<u16>"), ("is_local", "bool")])⟩,
  -- `DomainNonIPv4WithPortIsLocal`
  ⟨[attr (.list (some "domain") (.metas [.list (some "local") (.word "Allow"), .list (some "at_least_two_labels") (.word "Must"), .list (some "ipv4") (.word "Disallow"), .list (some "port") (.word "Must")]))], .struct (.named [("domain", "String"), ("port", "u16"), ("is_local", "bool")])⟩,
  -- `DomainNonIPv4WithoutPortIsLocal`
  ⟨[attr (.list (some "domain") (.metas [.list (some "local") (.word "Allow"), .list (some "at_least_two_labels") (.word "Must"), .list (some "ipv4") (.word "Disallow"), .list (some "port") (.word "Disallow")]))], .struct (.named [("domain", "String"), ("is_local", "bool")])⟩,
  -- `DomainAllowIPv4AllowPortIsLocal`
  ⟨[attr (.list (some "domain") (.metas [.list (some "local") (.word "Allow"), .list (some "at_least_two_labels") (.word "Disallow")]))], .struct (.named [("domain", "String"), ("is_ipv4", "bool"), ("port", "Option<u16>"), ("is_local", "bool")])⟩,
  -- `DomainAllowIPv4WithPortIsLocal`
  ⟨[attr (.list (some "domain") (.metas [.list (some "local") (.word "Allow"), .list (some "at_least_two_labels") (.word "Disallow"), .list (some "port") (.word "Must")]))], .struct (.named [("domain", "String"), ("is_ipv4", "bool"), ("port", "u16"), ("is_local", "bool")])⟩,
  -- `DomainAllowIPv4WithoutPortIsLocal`
  ⟨[attr (.list (some "domain") (.metas [.list (some "local") (.word "Allow"), .list (some "at_least_two_labels") (.word "Disallow"), .list (some "port") (.word "Disallow")]))], .struct (.named [("domain", "String"), ("is_ipv4", "bool"), ("is_local", "bool")])⟩,
  -- `DomainIPv4AllowPortIsLocal`
  ⟨[attr (.list (some "domain") (.metas [.list (some "local") (.word "Allow"), .list (some "at_least_two_labels") (.word "Disallow"), .list (some "ipv4") (.word "Must"), .list (some "conflict") (.word "Allow")]))], .struct (.named [("domain", "String"), ("port", "Option<u16>"), ("is_local", "bool")])⟩,
  -- `DomainIPv4WithPortIsLocal`
  ⟨[attr (.list (some "domain") (.metas [.list (some "local") (.word "Allow"), .list (some "at_least_two_labels") (.word "Disallow"), .list (some "ipv4") (.word "Must"), .list (some "port") (.word "Must"), .list (some "conflict") (.word "Allow")]))], .struct (.named [("domain", "String"), ("port", "u16"), ("is_local", "bool")])⟩,
  -- `DomainIPv4WithoutPortIsLocal`
  ⟨[attr (.list (some "domain") (.metas [.list (some "local") (.word "Allow"), .list (some "at_least_two_labels") (.word "Disallow"), .list (some "ipv4") (.word "Must"), .list (some "port") (.word "Disallow"), .list (some "conflict") (.word "Allow")]))], .struct (.named [("domain", "String"), ("is_local", "bool")])⟩,
  -- `DomainNonIPv4AllowPortIsLocal`
  ⟨[attr (.list (some "domain") (.metas [.list (some "local") (.word "Allow"), .list (some "at_least_two_labels") (.word "Disallow"), .list (some "ipv4") (.word "Disallow")]))], .struct (.named [("domain", "String"), ("port", "Option<u16>"), ("is_local", "bool")])⟩,
  -- `DomainNonIPv4WithPortIsLocal`
  ⟨[attr (.list (some "domain") (.metas [.list (some "local") (.word "Allow"), .list (some "at_least_two_labels") (.word "Disallow"), .list (some "ipv4") (.word "Disallow"), .list (some "port") (.word "Must")]))], .struct (.named [("domain", "String"), ("port", "u16"), ("is_local", "bool")])⟩,
  -- `DomainNonIPv4WithoutPortIsLocal`
  ⟨[attr (.list (some "domain") (.metas [.list (some "local") (.word "Allow"), .list (some "at_least_two_labels") (.word "Disallow"), .list (some "ipv4") (.word "Disallow"), .list (some "port") (.word "Disallow")]))], .struct (.named [("domain", "String"), ("is_local", "bool")])⟩]

theorem basicTest2_passes : basicTest2.all (passes false basicCases) = true := by decide +kernel

end Verif.Conformance.Domain
