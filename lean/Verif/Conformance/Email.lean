import Verif.Conformance.Harness

/-!
# The tests of `validators/tests/email.rs`

Written by `tools/conformance.py`.
-/

namespace Verif.Conformance.Email

open Verif.Attr Verif.Derive Verif.Constants
open Verif.Conformance

/-- The strings of `basic`, and whether they are accepted. -/
def basicCases : List Case := [
  ⟨"", fun _ => false⟩,
  ⟨"Abc.example.com", fun _ => false⟩,
  ⟨"A@b@c@example.com", fun _ => false⟩,
  ⟨"a\"b(c)d,e:f;g<h>i[j\\k]l@example.com", fun _ => false⟩,
  ⟨"just\"not\"right@example.com", fun _ => false⟩,
  ⟨"this is\"not\\allowed@example.com", fun _ => false⟩,
  ⟨"this\\ still\\\"not\\\\allowed@example.com", fun _ => false⟩,
  ⟨"1234567890123456789012345678901234567890123456789012345678901234+x@example.com", fun _ => false⟩,
  ⟨"i_like_underscore@but_its_not_allow_in _this_part.example.com", fun _ => false⟩,
  ⟨"\"joh\"n\"\"@example.com", fun _ => false⟩,
  ⟨"simple@example.com", fun c => !(tri c "V_IP").musts && !(tri c "V_LOCAL").musts && (tri c "V_AT_LEAST_TWO_LABELS").allows⟩,
  ⟨"very.common@example.com", fun c => !(tri c "V_IP").musts && !(tri c "V_LOCAL").musts && (tri c "V_AT_LEAST_TWO_LABELS").allows⟩,
  ⟨"disposable.style.email.with+symbol@example.com", fun c => !(tri c "V_IP").musts && !(tri c "V_LOCAL").musts && (tri c "V_AT_LEAST_TWO_LABELS").allows⟩,
  ⟨"other.email-with-hyphen@example.com", fun c => !(tri c "V_IP").musts && !(tri c "V_LOCAL").musts && (tri c "V_AT_LEAST_TWO_LABELS").allows⟩,
  ⟨"fully-qualified-domain@example.com", fun c => !(tri c "V_IP").musts && !(tri c "V_LOCAL").musts && (tri c "V_AT_LEAST_TWO_LABELS").allows⟩,
  ⟨"user.name+tag+sorting@example.com", fun c => !(tri c "V_IP").musts && !(tri c "V_LOCAL").musts && (tri c "V_AT_LEAST_TWO_LABELS").allows⟩,
  ⟨"x@example.com", fun c => !(tri c "V_IP").musts && !(tri c "V_LOCAL").musts && (tri c "V_AT_LEAST_TWO_LABELS").allows⟩,
  ⟨"example-indeed@strange-example.com", fun c => !(tri c "V_IP").musts && !(tri c "V_LOCAL").musts && (tri c "V_AT_LEAST_TWO_LABELS").allows⟩,
  ⟨"admin@mailserver1", fun c => !(tri c "V_IP").musts && !(tri c "V_LOCAL").musts && !(tri c "V_AT_LEAST_TWO_LABELS").musts⟩,
  ⟨"example@s.example", fun c => !(tri c "V_IP").musts && !(tri c "V_LOCAL").musts && (tri c "V_AT_LEAST_TWO_LABELS").allows⟩,
  ⟨"\" \"@example.org", fun c => !(tri c "V_IP").musts && !(tri c "V_LOCAL").musts && (tri c "V_AT_LEAST_TWO_LABELS").allows⟩,
  ⟨"\"john..doe\"@example.org", fun c => !(tri c "V_IP").musts && !(tri c "V_LOCAL").musts && (tri c "V_AT_LEAST_TWO_LABELS").allows⟩,
  ⟨"mailhost!username@example.org", fun c => !(tri c "V_IP").musts && !(tri c "V_LOCAL").musts && (tri c "V_AT_LEAST_TWO_LABELS").allows⟩,
  ⟨"user%example.com@example.org", fun c => !(tri c "V_IP").musts && !(tri c "V_LOCAL").musts && (tri c "V_AT_LEAST_TWO_LABELS").allows⟩,
  ⟨"\"joh\\\"n\\\"\"@example.com", fun c => !(tri c "V_IP").musts && !(tri c "V_LOCAL").musts && (tri c "V_AT_LEAST_TWO_LABELS").allows⟩,
  ⟨"simple@localhost", fun c => !(tri c "V_IP").musts && (tri c "V_LOCAL").allows⟩,
  ⟨"simple@[168.17.212.1]", fun c => (tri c "V_IP").allows && !(tri c "V_LOCAL").musts && (tri c "V_AT_LEAST_TWO_LABELS").allows⟩,
  ⟨"simple@[127.0.0.1]", fun c => (tri c "V_IP").allows && (tri c "V_LOCAL").allows && (tri c "V_AT_LEAST_TWO_LABELS").allows⟩,
  ⟨"simple@[IPv6:0000:0000:0000:0000:0000:0000:370:7348]", fun c => (tri c "V_IP").allows && !(tri c "V_LOCAL").musts && (tri c "V_AT_LEAST_TWO_LABELS").allows⟩,
  ⟨"simple@中文.com", fun c => !(tri c "V_IP").musts && !(tri c "V_LOCAL").musts && (tri c "V_AT_LEAST_TWO_LABELS").allows⟩,
  ⟨"中文@example.com", fun c => (tri c "V_NON_ASCII").allows && !(tri c "V_IP").musts && !(tri c "V_LOCAL").musts && (tri c "V_AT_LEAST_TWO_LABELS").allows⟩,
  ⟨"(a)simple(b)@(c)example.com(d)", fun c => (tri c "V_COMMENT").allows && !(tri c "V_IP").musts && !(tri c "V_LOCAL").musts && (tri c "V_AT_LEAST_TWO_LABELS").allows⟩]

/-- The items of `test!`. -/
def basicTest : List (Input Toks) := [
  -- `EmailAllowIP`
  ⟨[attr (.list (some "email") (.metas [.list (some "local") (.word "Allow"), .list (some "at_least_two_labels") (.word "Allow"), .list (some "non_ascii") (.word "Allow"), .list (some "comment") (.word "Disallow")]))], .struct (.named [("local_part", "String"), ("need_quoted", "bool"), ("domain_part", "validators::models::Host")])⟩,
  -- `EmailIP`
  ⟨[attr (.list (some "email") (.metas [.list (some "local") (.word "Allow"), .list (some "at_least_two_labels") (.word "Allow"), .list (some "non_ascii") (.word "Allow"), .list (some "comment") (.word "Disallow"), .list (some "ip") (.word "Must"), .list (some "conflict") (.word "Allow")]))], .struct (.named [("local_part", "String"), ("need_quoted", "bool"), ("domain_part", "std::net::IpAddr")])⟩,
  -- `EmailNonIP`
  ⟨[attr (.list (some "email") (.metas [.list (some "local") (.word "Allow"), .list (some "at_least_two_labels") (.word "Allow"), .list (some "non_ascii") (.word "Allow"), .list (some "comment") (.word "Disallow"), .list (some "ip") (.word "Disallow")]))], .struct (.named [("local_part", "String"), ("need_quoted", "bool"), ("domain_part", "String")])⟩,
  -- `EmailAllowCommentAllowIP`
  ⟨[attr (.list (some "email") (.metas [.list (some "local") (.word "Allow"), .list (some "at_least_two_labels") (.word "Allow"), .list (some "non_ascii") (.word "Allow")]))], .struct (.named [("local_part", "String"), ("need_quoted", "bool"), ("domain_part", "validators::models::Host"), ("comment_before_local_part", "Option<String>"), ("comment_after_local_part", "Option<String>"), ("comment_before_domain_part", "Option<String>"), ("comment_after_domain_part", "Option<String>")])⟩,
  -- `EmailAllowCommentIP`
  ⟨[attr (.list (some "email") (.metas [.list (some "local") (.word "Allow"), .list (some "at_least_two_labels") (.word "Allow"), .list (some "non_ascii") (.word "Allow"), .list (some "ip") (.word "Must"), .list (some "conflict") (.word "Allow")]))], .struct (.named [("local_part", "String"), ("need_quoted", "bool"), ("domain_part", "std::net::IpAddr"), ("comment_before_local_part", "Option<String>"), ("comment_after_local_part", "Option<String>"), ("comment_before_domain_part", "Option<String>"), ("comment_after_domain_part", "Option<String>")])⟩,
  -- `EmailAllowCommentNonIP`
  ⟨[attr (.list (some "email") (.metas [.list (some "local") (.word "Allow"), .list (some "at_least_two_labels") (.word "Allow"), .list (some "non_ascii") (.word "Allow"), .list (some "ip") (.word "Disallow")]))], .struct (.named [("local_part", "String"), ("need_quoted", "bool"), ("domain_part", "String"), ("comment_before_local_part", "Option<String>"), ("comment_after_local_part", "Option<String>"), ("comment_before_domain_part", "Option<String>"), ("comment_after_domain_part", "Option<String>")])⟩,
  -- `EmailAllowIP`
  ⟨[attr (.list (some "email") (.metas [.list (some "local") (.word "Allow"), .list (some "at_least_two_labels") (.word "Allow"), .list (some "non_ascii") (.word "Disallow"), .list (some "comment") (.word "Disallow")]))], .struct (.named [("local_part", "String"), ("need_quoted", "bool"), ("domain_part", "validators::models::Host")])⟩,
  -- `EmailIP`
  ⟨[attr (.list (some "email") (.metas [.list (some "local") (.word "Allow"), .list (some "at_least_two_labels") (.word "Allow"), .list (some "non_ascii") (.word "Disallow"), .list (some "comment") (.word "Disallow"), .list (some "ip") (.word "Must"), .list (some "conflict") (.word "Allow")]))], .struct (.named [("local_part", "String"), ("need_quoted", "bool"), ("domain_part", "std::net::IpAddr")])⟩,
  -- `EmailNonIP`
  ⟨[attr (.list (some "email") (.metas [.list (some "local") (.word "Allow"), .list (some "at_least_two_labels") (.word "Allow"), .list (some "non_ascii") (.word "Disallow"), .list (some "comment") (.word "Disallow"), .list (some "ip") (.word "Disallow")]))], .struct (.named [("local_part", "String"), ("need_quoted", "bool"), ("domain_part", "String")])⟩,
  -- `EmailAllowCommentAllowIP`
  ⟨[attr (.list (some "email") (.metas [.list (some "local") (.word "Allow"), .list (some "at_least_two_labels") (.word "Allow"), .list (some "non_ascii") (.word "Disallow")]))], .struct (.named [("local_part", "String"), ("need_quoted", "bool"), ("domain_part", "validators::models::Host"), ("comment_before_local_part", "Option<String>"), ("comment_after_local_part", "Option<String>"), ("comment_before_domain_part", "Option<String>"), ("comment_after_domain_part", "Option<String>")])⟩,
  -- `EmailAllowCommentIP`
  ⟨[attr (.list (some "email") (.metas [.list (some "local") (.word "Allow"), .list (some "at_least_two_labels") (.word "Allow"), .list (some "non_ascii") (.word "Disallow"), .list (some "ip") (.word "Must"), .list (some "conflict") (.word "Allow")]))], .struct (.named [("local_part", "String"), ("need_quoted", "bool"), ("domain_part", "std::net::IpAddr"), ("comment_before_local_part", "Option<String>"), ("comment_after_local_part", "Option<String>"), ("comment_before_domain_part", "Option<String>"), ("comment_after_domain_part", "Option<String>")])⟩,
  -- `EmailAllowCommentNonIP`
  ⟨[attr (.list (some "email") (.metas [.list (some "local") (.word "Allow"), .list (some "at_least_two_labels") (.word "Allow"), .list (some "non_ascii") (.word "Disallow"), .list (some "ip") (.word "Disallow")]))], .struct (.named [("local_part", "String"), ("need_quoted", "bool"), ("domain_part", "String"), ("comment_before_local_part", "Option<String>"), ("comment_after_local_part", "Option<String>"), ("comment_before_domain_part", "Option<String>"), ("comment_after_domain_part", "Option<String>")])⟩,
  -- `EmailAllowIP`
  ⟨[attr (.list (some "email") (.metas [.list (some "local") (.word "Must"), .list (some "at_least_two_labels") (.word "Allow"), .list (some "non_ascii") (.word "Allow"), .list (some "comment") (.word "Disallow")]))], .struct (.named [("local_part", "String"), ("need_quoted", "bool"), ("domain_part", "validators::models::Host")])⟩,
  -- `EmailIP`
  ⟨[attr (.list (some "email") (.metas [.list (some "local") (.word "Must"), .list (some "at_least_two_labels") (.word "Allow"), .list (some "non_ascii") (.word "Allow"), .list (some "comment") (.word "Disallow"), .list (some "ip") (.word "Must"), .list (some "conflict") (.word "Allow")]))], .struct (.named [("local_part", "String"), ("need_quoted", "bool"), ("domain_part", "std::net::IpAddr")])⟩,
  -- `EmailNonIP`
  ⟨[attr (.list (some "email") (.metas [.list (some "local") (.word "Must"), .list (some "at_least_two_labels") (.word "Allow"), .list (some "non_ascii") (.word "Allow"), .list (some "comment") (.word "Disallow"), .list (some "ip") (.word "Disallow")]))], .struct (.named [("local_part", "String"), ("need_quoted", "bool"), ("domain_part", "String")])⟩,
  -- `EmailAllowCommentAllowIP`
  ⟨[attr (.list (some "email") (.metas [.list (some "local") (.word "Must"), .list (some "at_least_two_labels") (.word "Allow"), .list (some "non_ascii") (.word "Allow")]))], .struct (.named [("local_part", "String"), ("need_quoted", "bool"), ("domain_part", "validators::models::Host"), ("comment_before_local_part", "Option<String>"), ("comment_after_local_part", "Option<String>"), ("comment_before_domain_part", "Option<String>"), ("comment_after_domain_part", "Option<String>")])⟩,
  -- `EmailAllowCommentIP`
  ⟨[attr (.list (some "email") (.metas [.list (some "local") (.word "Must"), .list (some "at_least_two_labels") (.word "Allow"), .list (some "non_ascii") (.word "Allow"), .list (some "ip") (.word "Must"), .list (some "conflict") (.word "Allow")]))], .struct (.named [("local_part", "String"), ("need_quoted", "bool"), ("domain_part", "std::net::IpAddr"), ("comment_before_local_part", "Option<String>"), ("comment_after_local_part", "Option<String>"), ("comment_before_domain_part", "Option<String>"), ("comment_after_domain_part", "Option<String>")])⟩,
  -- `EmailAllowCommentNonIP`
  ⟨[attr (.list (some "email") (.metas [.list (some "local") (.word "Must"), .list (some "at_least_two_labels") (.word "Allow"), .list (some "non_ascii") (.word "Allow"), .list (some "ip") (.word "Disallow")]))], .struct (.named [("local_part", "String"), ("need_quoted", "bool"), ("domain_part", "String"), ("comment_before_local_part", "Option<String>"), ("comment_after_local_part", "Option<String>"), ("comment_before_domain_part", "Option<String>"), ("comment_after_domain_part", "Option<String>")])⟩,
  -- `EmailAllowIP`
  ⟨[attr (.list (some "email") (.metas [.list (some "local") (.word "Must"), .list (some "at_least_two_labels") (.word "Allow"), .list (some "non_ascii") (.word "Disallow"), .list (some "comment") (.word "Disallow")]))], .struct (.named [("local_part", "String"), ("need_quoted", "bool"), ("domain_part", "validators::models::Host")])⟩,
  -- `EmailIP`
  ⟨[attr (.list (some "email") (.metas [.list (some "local") (.word "Must"), .list (some "at_least_two_labels") (.word "Allow"), .list (some "non_ascii") (.word "Disallow"), .list (some "comment") (.word "Disallow"), .list (some "ip") (.word "Must"), .list (some "conflict") (.word "Allow")]))], .struct (.named [("local_part", "String"), ("need_quoted", "bool"), ("domain_part", "std::net::IpAddr")])⟩,
  -- `EmailNonIP`
  ⟨[attr (.list (some "email") (.metas [.list (some "local") (.word "Must"), .list (some "at_least_two_labels") (.word "Allow"), .list (some "non_ascii") (.word "Disallow"), .list (some "comment") (.word "Disallow"), .list (some "ip") (.word "Disallow")]))], .struct (.named [("local_part", "String"), ("need_quoted", "bool"), ("domain_part", "String")])⟩,
  -- `EmailAllowCommentAllowIP`
  ⟨[attr (.list (some "email") (.metas [.list (some "local") (.word "Must"), .list (some "at_least_two_labels") (.word "Allow"), .list (some "non_ascii") (.word "Disallow")]))], .struct (.named [("local_part", "String"), ("need_quoted", "bool"), ("domain_part", "validators::models::Host"), ("comment_before_local_part", "Option<String>"), ("comment_after_local_part", "Option<String>"), ("comment_before_domain_part", "Option<String>"), ("comment_after_domain_part", "Option<String>")])⟩,
  -- `EmailAllowCommentIP`
  ⟨[attr (.list (some "email") (.metas [.list (some "local") (.word "Must"), .list (some "at_least_two_labels") (.word "Allow"), .list (some "non_ascii") (.word "Disallow"), .list (some "ip") (.word "Must"), .list (some "conflict") (.word "Allow")]))], .struct (.named [("local_part", "String"), ("need_quoted", "bool"), ("domain_part", "std::net::IpAddr"), ("comment_before_local_part", "Option<String>"), ("comment_after_local_part", "Option<String>"), ("comment_before_domain_part", "Option<String>"), ("comment_after_domain_part", "Option<String>")])⟩,
  -- `EmailAllowCommentNonIP`
  ⟨[attr (.list (some "email") (.metas [.list (some "local") (.word "Must"), .list (some "at_least_two_labels") (.word "Allow"), .list (some "non_ascii") (.word "Disallow"), .list (some "ip") (.word "Disallow")]))], .struct (.named [("local_part", "String"), ("need_quoted", "bool"), ("domain_part", "String"), ("comment_before_local_part", "Option<String>"), ("comment_after_local_part", "Option<String>"), ("comment_before_domain_part", "Option<String>"), ("comment_after_domain_part", "Option<String>")])⟩,
  -- `EmailAllowIP`
  ⟨[attr (.list (some "email") (.metas [.list (some "local") (.word "Disallow"), .list (some "at_least_two_labels") (.word "Allow"), .list (some "non_ascii") (.word "Allow"), .list (some "comment") (.word "Disallow")]))], .struct (.named [("local_part", "String"), ("need_quoted", "bool"), ("domain_part", "validators::models::Host")])⟩,
  -- `EmailIP`
  ⟨[attr (.list (some "email") (.metas [.list (some "local") (.word "Disallow"), .list (some "at_least_two_labels") (.word "Allow"), .list (some "non_ascii") (.word "Allow"), .list (some "comment") (.word "Disallow"), .list (some "ip") (.word "Must"), .list (some "conflict") (.word "Allow")]))], .struct (.named [("local_part", "String"), ("need_quoted", "bool"), ("domain_part", "std::net::IpAddr")])⟩,
  -- `EmailNonIP`
  ⟨[attr (.list (some "email") (.metas [.list (some "local") (.word "Disallow"), .list (some "at_least_two_labels") (.word "Allow"), .list (some "non_ascii") (.word "Allow"), .list (some "comment") (.word "Disallow"), .list (some "ip") (.word "Disallow")]))], .struct (.named [("local_part", "String"), ("need_quoted", "bool"), ("domain_part", "String")])⟩,
  -- `EmailAllowCommentAllowIP`
  ⟨[attr (.list (some "email") (.metas [.list (some "local") (.word "Disallow"), .list (some "at_least_two_labels") (.word "Allow"), .list (some "non_ascii") (.word "Allow")]))], .struct (.named [("local_part", "String"), ("need_quoted", "bool"), ("domain_part", "validators::models::Host"), ("comment_before_local_part", "Option<String>"), ("comment_after_local_part", "Option<String>"), ("comment_before_domain_part", "Option<String>"), ("comment_after_domain_part", "Option<String>")])⟩,
  -- `EmailAllowCommentIP`
  ⟨[attr (.list (some "email") (.metas [.list (some "local") (.word "Disallow"), .list (some "at_least_two_labels") (.word "Allow"), .list (some "non_ascii") (.word "Allow"), .list (some "ip") (.word "Must"), .list (some "conflict") (.word "Allow")]))], .struct (.named [("local_part", "String"), ("need_quoted", "bool"), ("domain_part", "std::net::IpAddr"), ("comment_before_local_part", "Option<String>"), ("comment_after_local_part", "Option<String>"), ("comment_before_domain_part", "Option<String>"), ("comment_after_domain_part", "Option<String>")])⟩,
  -- `EmailAllowCommentNonIP`
  ⟨[attr (.list (some "email") (.metas [.list (some "local") (.word "Disallow"), .list (some "at_least_two_labels") (.word "Allow"), .list (some "non_ascii") (.word "Allow"), .list (some "ip") (.word "Disallow")]))], .struct (.named [("local_part", "String"), ("need_quoted", "bool"), ("domain_part", "String"), ("comment_before_local_part", "Option<String>"), ("comment_after_local_part", "Option<String>"), ("comment_before_domain_part", "Option<String>"), ("comment_after_domain_part", "Option<String>")])⟩,
  -- `EmailAllowIP`
  ⟨[attr (.list (some "email") (.metas [.list (some "local") (.word "Disallow"), .list (some "at_least_two_labels") (.word "Allow"), .list (some "non_ascii") (.word "Disallow"), .list (some "comment") (.word "Disallow")]))], .struct (.named [("local_part", "String"), ("need_quoted", "bool"), ("domain_part", "validators::models::Host")])⟩,
  -- `EmailIP`
  ⟨[attr (.list (some "email") (.metas [.list (some "local") (.word "Disallow"), .list (some "at_least_two_labels") (.word "Allow"), .list (some "non_ascii") (.word "Disallow"), .list (some "comment") (.word "Disallow"), .list (some "ip") (.word "Must"), .list (some "conflict") (.word "Allow")]))], .struct (.named [("local_part", "String"), ("need_quoted", "bool"), ("domain_part", "std::net::IpAddr")])⟩,
  -- `EmailNonIP`
  ⟨[attr (.list (some "email") (.metas [.list (some "local") (.word "Disallow"), .list (some "at_least_two_labels") (.word "Allow"), .list (some "non_ascii") (.word "Disallow"), .list (some "comment") (.word "Disallow"), .list (some "ip") (.word "Disallow")]))], .struct (.named [("local_part", "String"), ("need_quoted", "bool"), ("domain_part", "String")])⟩,
  -- `EmailAllowCommentAllowIP`
  ⟨[attr (.list (some "email") (.metas [.list (some "local") (.word "Disallow"), .list (some "at_least_two_labels") (.word "Allow"), .list (some "non_ascii") (.word "Disallow")]))], .struct (.named [("local_part", "String"), ("need_quoted", "bool"), ("domain_part", "validators::models::Host"), ("comment_before_local_part", "Option<String>"), ("comment_after_local_part", "Option<String>"), ("comment_before_domain_part", "Option<String>"), ("comment_after_domain_part", "Option<String>")])⟩,
  -- `EmailAllowCommentIP`
  ⟨[attr (.list (some "email") (.metas [.list (some "local") (.word "Disallow"), .list (some "at_least_two_labels") (.word "Allow"), .list (some "non_ascii") (.word "Disallow"), .list (some "ip") (.word "Must"), .list (some "conflict") (.word "Allow")]))], .struct (.named [("local_part", "String"), ("need_quoted", "bool"), ("domain_part", "std::net::IpAddr"), ("comment_before_local_part", "Option<String>"), ("comment_after_local_part", "Option<String>"), ("comment_before_domain_part", "Option<String>"), ("comment_after_domain_part", "Option<String>")])⟩,
  -- `EmailAllowCommentNonIP`
  ⟨[attr (.list (some "email") (.metas [.list (some "local") (.word "Disallow"), .list (some "at_least_two_labels") (.word "Allow"), .list (some "non_ascii") (.word "Disallow"), .list (some "ip") (.word "Disallow")]))], .struct (.named [("local_part", "String"), ("need_quoted", "bool"), ("domain_part", "String"), ("comment_before_local_part", "Option<String>"), ("comment_after_local_part", "Option<String>"), ("comment_before_domain_part", "Option<String>"), ("comment_after_domain_part", "Option<String>")])⟩,
  -- `EmailAllowIP`
  ⟨[attr (.list (some "email") (.metas [.list (some "local") (.word "Must"), .list (some "at_least_two_labels") (.word "Disallow"), .list (some "non_ascii") (.word "Allow"), .list (some "comment") (.word "Disallow")]))], .struct (.named [("local_part", "String"), ("need_quoted", "bool"), ("domain_part", "validators::models::Host")])⟩,
  -- `EmailIP`
  ⟨[attr (.list (some "email") (.metas [.list (some "local") (.word "Must"), .list (some "at_least_two_labels") (.word "Disallow"), .list (some "non_ascii") (.word "Allow"), .list (some "comment") (.word "Disallow"), .list (some "ip") (.word "Must"), .list (some "conflict") (.word "Allow")]))], .struct (.named [("local_part", "String"), ("need_quoted", "bool"), ("domain_part", "std::net::IpAddr")])⟩,
  -- `EmailNonIP`
  ⟨[attr (.list (some "email") (.metas [.list (some "local") (.word "Must"), .list (some "at_least_two_labels") (.word "Disallow"), .list (some "non_ascii") (.word "Allow"), .list (some "comment") (.word "Disallow"), .list (some "ip") (.word "Disallow")]))], .struct (.named [("local_part", "String"), ("need_quoted", "bool"), ("domain_part", "String")])⟩,
  -- `EmailAllowCommentAllowIP`
  ⟨[attr (.list (some "email") (.metas [.list (some "local") (.word "Must"), .list (some "at_least_two_labels") (.word "Disallow"), .list (some "non_ascii") (.word "Allow")]))], .struct (.named [("local_part", "String"), ("need_quoted", "bool"), ("domain_part", "validators::models::Host"), ("comment_before_local_part", "Option<String>"), ("comment_after_local_part", "Option<String>"), ("comment_before_domain_part", "Option<String>"), ("comment_after_domain_part", "Option<String>")])⟩,
  -- `EmailAllowCommentIP`
  ⟨[attr (.list (some "email") (.metas [.list (some "local") (.word "Must"), .list (some "at_least_two_labels") (.word "Disallow"), .list (some "non_ascii") (.word "Allow"), .list (some "ip") (.word "Must"), .list (some "conflict") (.word "Allow")]))], .struct (.named [("local_part", "String"), ("need_quoted", "bool"), ("domain_part", "std::net::IpAddr"), ("comment_before_local_part", "Option<String>"), ("comment_after_local_part", "Option<String>"), ("comment_before_domain_part", "Option<String>"), ("comment_after_domain_part", "Option<String>")])⟩,
  -- `EmailAllowCommentNonIP`
  ⟨[attr (.list (some "email") (.metas [.list (some "local") (.word "Must"), .list (some "at_least_two_labels") (.word "Disallow"), .list (some "non_ascii") (.word "Allow"), .list (some "ip") (.word "Disallow")]))], .struct (.named [("local_part", "String"), ("need_quoted", "bool"), ("domain_part", "String"), ("comment_before_local_part", "Option<String>"), ("comment_after_local_part", "Option<String>"), ("comment_before_domain_part", "Option<String>"), ("comment_after_domain_part", "Option<String>")])⟩,
  -- `EmailAllowIP`
  ⟨[attr (.list (some "email") (.metas [.list (some "local") (.word "Must"), .list (some "at_least_two_labels") (.word "Disallow"), .list (some "non_ascii") (.word "Disallow"), .list (some "comment") (.word "Disallow")]))], .struct (.named [("local_part", "String"), ("need_quoted", "bool"), ("domain_part", "validators::models::Host")])⟩,
  -- `EmailIP`
  ⟨[attr (.list (some "email") (.metas [.list (some "local") (.word "Must"), .list (some "at_least_two_labels") (.word "Disallow"), .list (some "non_ascii") (.word "Disallow"), .list (some "comment") (.word "Disallow"), .list (some "ip") (.word "Must"), .list (some "conflict") (.word "Allow")]))], .struct (.named [("local_part", "String"), ("need_quoted", "bool"), ("domain_part", "std::net::IpAddr")])⟩,
  -- `EmailNonIP`
  ⟨[attr (.list (some "email") (.metas [.list (some "local") (.word "Must"), .list (some "at_least_two_labels") (.word "Disallow"), .list (some "non_ascii") (.word "Disallow"), .list (some "comment") (.word "Disallow"), .list (some "ip") (.word "Disallow")]))], .struct (.named [("local_part", "String"), ("need_quoted", "bool"), ("domain_part", "String")])⟩,
  -- `EmailAllowCommentAllowIP`
  ⟨[attr (.list (some "email") (.metas [.list (some "local") (.word "Must"), .list (some "at_least_two_labels") (.word "Disallow"), .list (some "non_ascii") (.word "Disallow")]))], .struct (.named [("local_part", "String"), ("need_quoted", "bool"), ("domain_part", "validators::models::Host"), ("comment_before_local_part", "Option<String>"), ("comment_after_local_part", "Option<String>"), ("comment_before_domain_part", "Option<String>"), ("comment_after_domain_part", "Option<String>")])⟩,
  -- `EmailAllowCommentIP`
  ⟨[attr (.list (some "email") (.metas [.list (some "local") (.word "Must"), .list (some "at_least_two_labels") (.word "Disallow"), .list (some "non_ascii") (.word "Disallow"), .list (some "ip") (.word "Must"), .list (some "conflict") (.word "Allow")]))], .struct (.named [("local_part", "String"), ("need_quoted", "bool"), ("domain_part", "std::net::IpAddr"), ("comment_before_local_part", "Option<String>"), ("comment_after_local_part", "Option<String>"), ("comment_before_domain_part", "Option<String>"), ("comment_after_domain_part", "Option<String>")])⟩,
  -- `EmailAllowCommentNonIP`
  ⟨[attr (.list (some "email") (.metas [.list (some "local") (.word "Must"), .list (some "at_least_two_labels") (.word "Disallow"), .list (some "non_ascii") (.word "Disallow"), .list (some "ip") (.word "Disallow")]))], .struct (.named [("local_part", "String"), ("need_quoted", "bool"), ("domain_part", "String"), ("comment_before_local_part", "Option<String>"), ("comment_after_local_part", "Option<String>"), ("comment_before_domain_part", "Option<String>"), ("comment_after_domain_part", "Option<String>")])⟩,
  -- `EmailAllowIP`
  ⟨[attr (.list (some "email") (.metas [.list (some "local") (.word "Disallow"), .list (some "at_least_two_labels") (.word "Disallow"), .list (some "non_ascii") (.word "Allow"), .list (some "comment") (.word "Disallow")]))], .struct (.named [("local_part", "String"), ("need_quoted", "bool"), ("domain_part", "validators::models::Host")])⟩,
  -- `EmailIP`
  ⟨[attr (.list (some "email") (.metas [.list (some "local") (.word "Disallow"), .list (some "at_least_two_labels") (.word "Disallow"), .list (some "non_ascii") (.word "Allow"), .list (some "comment") (.word "Disallow"), .list (some "ip") (.word "Must"), .list (some "conflict") (.word "Allow")]))], .struct (.named [("local_part", "String"), ("need_quoted", "bool"), ("domain_part", "std::net::IpAddr")])⟩,
  -- `EmailNonIP`
  ⟨[attr (.list (some "email") (.metas [.list (some "local") (.word "Disallow"), .list (some "at_least_two_labels") (.word "Disallow"), .list (some "non_ascii") (.word "Allow"), .list (some "comment") (.word "Disallow"), .list (some "ip") (.word "Disallow")]))], .struct (.named [("local_part", "String"), ("need_quoted", "bool"), ("domain_part", "String")])⟩,
  -- `EmailAllowCommentAllowIP`
  ⟨[attr (.list (some "email") (.metas [.list (some "local") (.word "Disallow"), .list (some "at_least_two_labels") (.word "Disallow"), .list (some "non_ascii") (.word "Allow")]))], .struct (.named [("local_part", "String"), ("need_quoted", "bool"), ("domain_part", "validators::models::Host"), ("comment_before_local_part", "Option<String>"), ("comment_after_local_part", "Option<String>"), ("comment_before_domain_part", "Option<String>"), ("comment_after_domain_part", "Option<String>")])⟩,
  -- `EmailAllowCommentIP`
  ⟨[attr (.list (some "email") (.metas [.list (some "local") (.word "Disallow"), .list (some "at_least_two_labels") (.word "Disallow"), .list (some "non_ascii") (.word "Allow"), .list (some "ip") (.word "Must"), .list (some "conflict") (.word "Allow")]))], .struct (.named [("local_part", "String"), ("need_quoted", "bool"), ("domain_part", "std::net::IpAddr"), ("comment_before_local_part", "Option<String>"), ("comment_after_local_part", "Option<String>"), ("comment_before_domain_part", "Option<String>"), ("comment_after_domain_part", "Option<String>")])⟩,
  -- `EmailAllowCommentNonIP`
  ⟨[attr (.list (some "email") (.metas [.list (some "local") (.word "Disallow"), .list (some "at_least_two_labels") (.word "Disallow"), .list (some "non_ascii") (.word "Allow"), .list (some "ip") (.word "Disallow")]))], .struct (.named [("local_part", "String"), ("need_quoted", "bool"), ("domain_part", "String"), ("comment_before_local_part", "Option<String>"), ("comment_after_local_part", "Option<String>"), ("comment_before_domain_part", "Option<String>"), ("comment_after_domain_part", "Option<String>")])⟩,
  -- `EmailAllowIP`
  ⟨[attr (.list (some "email") (.metas [.list (some "local") (.word "Disallow"), .list (some "at_least_two_labels") (.word "Disallow"), .list (some "non_ascii") (.word "Disallow"), .list (some "comment") (.word "Disallow")]))], .struct (.named [("local_part", "String"), ("need_quoted", "bool"), ("domain_part", "validators::models::Host")])⟩,
  -- `EmailIP`
  ⟨[attr (.list (some "email") (.metas [.list (some "local") (.word "Disallow"), .list (some "at_least_two_labels") (.word "Disallow"), .list (some "non_ascii") (.word "Disallow"), .list (some "comment") (.word "Disallow"), .list (some "ip") (.word "Must"), .list (some "conflict") (.word "Allow")]))], .struct (.named [("local_part", "String"), ("need_quoted", "bool"), ("domain_part", "std::net::IpAddr")])⟩,
  -- `EmailNonIP`
  ⟨[attr (.list (some "email") (.metas [.list (some "local") (.word "Disallow"), .list (some "at_least_two_labels") (.word "Disallow"), .list (some "non_ascii") (.word "Disallow"), .list (some "comment") (.word "Disallow"), .list (some "ip") (.word "Disallow")]))], .struct (.named [("local_part", "String"), ("need_quoted", "bool"), ("domain_part", "String")])⟩,
  -- `EmailAllowCommentAllowIP`
  ⟨[attr (.list (some "email") (.metas [.list (some "local") (.word "Disallow"), .list (some "at_least_two_labels") (.word "Disallow"), .list (some "non_ascii") (.word "Disallow")]))], .struct (.named [("local_part", "String"), ("need_quoted", "bool"), ("domain_part", "validators::models::Host"), ("comment_before_local_part", "Option<String>"), ("comment_after_local_part", "Option<String>"), ("comment_before_domain_part", "Option<String>"), ("comment_after_domain_part", "Option<String>")])⟩,
  -- `EmailAllowCommentIP`
  ⟨[attr (.list (some "email") (.metas [.list (some "local") (.word "Disallow"), .list (some "at_least_two_labels") (.word "Disallow"), .list (some "non_ascii") (.word "Disallow"), .list (some "ip") (.word "Must"), .list (some "conflict") (.word "Allow")]))], .struct (.named [("local_part", "String"), ("need_quoted", "bool"), ("domain_part", "std::net::IpAddr"), ("comment_before_local_part", "Option<String>"), ("comment_after_local_part", "Option<String>"), ("comment_before_domain_part", "Option<String>"), ("comment_after_domain_part", "Option<String>")])⟩,
  -- `EmailAllowCommentNonIP`
  ⟨[attr (.list (some "email") (.metas [.list (some "local") (.word "Disallow"), .list (some "at_least_two_labels") (.word "Disallow"), .list (some "non_ascii") (.word "Disallow"), .list (some "ip") (.word "Disallow")]))], .struct (.named [("local_part", "String"), ("need_quoted", "bool"), ("domain_part", "String"), ("comment_before_local_part", "Option<String>"), ("comment_after_local_part", "Option<String>"), ("comment_before_domain_part", "Option<String>"), ("comment_after_domain_part", "Option<String>")])⟩,
  -- `EmailAllowIP`
  ⟨[attr (.list (some "email") (.metas [.list (some "local") (.word "Must"), .list (some "at_least_two_labels") (.word "Must"), .list (some "non_ascii") (.word "Allow"), .list (some "comment") (.word "Disallow")]))], .struct (.named [("local_part", "String"), ("need_quoted", "bool"), ("domain_part", "validators::models::Host")])⟩,
  -- `EmailIP`
  ⟨[attr (.list (some "email") (.metas [.list (some "local") (.word "Must"), .list (some "at_least_two_labels") (.word "Must"), .list (some "non_ascii") (.word "Allow"), .list (some "comment") (.word "Disallow"), .list (some "ip") (.word "Must"), .list (some "conflict") (.word "Allow")]))], .struct (.named [("local_part", "String"), ("need_quoted", "bool"), ("domain_part", "std::net::IpAddr")])⟩,
  -- `EmailNonIP`
  ⟨[attr (.list (some "email") (.metas [.list (some "local") (.word "Must"), .list (some "at_least_two_labels") (.word "Must"), .list (some "non_ascii") (.word "Allow"), .list (some "comment") (.word "Disallow"), .list (some "ip") (.word "Disallow")]))], .struct (.named [("local_part", "String"), ("need_quoted", "bool"), ("domain_part", "String")])⟩,
  -- `EmailAllowCommentAllowIP`
  ⟨[attr (.list (some "email") (.metas [.list (some "local") (.word "Must"), .list (some "at_least_two_labels") (.word "Must"), .list (some "non_ascii") (.word "Allow")]))], .struct (.named [("local_part", "String"), ("need_quoted", "bool"), ("domain_part", "validators::models::Host"), ("comment_before_local_part", "Option<String>"), ("comment_after_local_part", "Option<String>"), ("comment_before_domain_part", "Option<String>"), ("comment_after_domain_part", "Option<String>")])⟩,
  -- `EmailAllowCommentIP`
  ⟨[attr (.list (some "email") (.metas [.list (some "local") (.word "Must"), .list (some "at_least_two_labels") (.word "Must"), .list (some "non_ascii") (.word "Allow"), .list (some "ip") (.word "Must"), .list (some "conflict") (.word "Allow")]))], .struct (.named [("local_part", "String"), ("need_quoted", "bool"), ("domain_part", "std::net::IpAddr"), ("comment_before_local_part", "Option<String>"), ("comment_after_local_part", "Option<String>"), ("comment_before_domain_part", "Option<String>"), ("comment_after_domain_part", "Option<String>")])⟩,
  -- `EmailAllowCommentNonIP`
  ⟨[attr (.list (some "email") (.metas [.list (some "local") (.word "Must"), .list (some "at_least_two_labels") (.word "Must"), .list (some "non_ascii") (.word "Allow"), .list (some "ip") (.word "Disallow")]))], .struct (.named [("local_part", "String"), ("need_quoted", "bool"), ("domain_part", "String"), ("comment_before_local_part", "Option<String>"), ("comment_after_local_part", "Option<String>"), ("comment_before_domain_part", "Option<String>"), ("comment_after_domain_part", "Option<String>")])⟩,
  -- `EmailAllowIP`
  ⟨[attr (.list (some "email") (.metas [.list (some "local") (.word "Must"), .list (some "at_least_two_labels") (.word "Must"), .list (some "non_ascii") (.word "Disallow"), .list (some "comment") (.word "Disallow")]))], .struct (.named [("local_part", "String"), ("need_quoted", "bool"), ("domain_part", "validators::models::Host")])⟩,
  -- `EmailIP`
  ⟨[attr (.list (some "email") (.metas [.list (some "local") (.word "Must"), .list (some "at_least_two_labels") (.word "Must"), .list (some "non_ascii") (.word "Disallow"), .list (some "comment") (.word "Disallow"), .list (some "ip") (.word "Must"), .list (some "conflict") (.word "Allow")]))], .struct (.named [("local_part", "String"), ("need_quoted", "bool"), ("domain_part", "std::net::IpAddr")])⟩,
  -- `EmailNonIP`
  ⟨[attr (.list (some "email") (.metas [.list (some "local") (.word "Must"), .list (some "at_least_two_labels") (.word "Must"), .list (some "non_ascii") (.word "Disallow"), .list (some "comment") (.word "Disallow"), .list (some "ip") (.word "Disallow")]))], .struct (.named [("local_part", "String"), ("need_quoted", "bool"), ("domain_part", "String")])⟩,
  -- `EmailAllowCommentAllowIP`
  ⟨[attr (.list (some "email") (.metas [.list (some "local") (.word "Must"), .list (some "at_least_two_labels") (.word "Must"), .list (some "non_ascii") (.word "Disallow")]))], .struct (.named [("local_part", "String"), ("need_quoted", "bool"), ("domain_part", "validators::models::Host"), ("comment_before_local_part", "Option<String>"), ("comment_after_local_part", "Option<String>"), ("comment_before_domain_part", "Option<String>"), ("comment_after_domain_part", "Option<String>")])⟩,
  -- `EmailAllowCommentIP`
  ⟨[attr (.list (some "email") (.metas [.list (some "local") (.word "Must"), .list (some "at_least_two_labels") (.word "Must"), .list (some "non_ascii") (.word "Disallow"), .list (some "ip") (.word "Must"), .list (some "conflict") (.word "Allow")]))], .struct (.named [("local_part", "String"), ("need_quoted", "bool"), ("domain_part", "std::net::IpAddr"), ("comment_before_local_part", "Option<String>"), ("comment_after_local_part", "Option<String>"), ("comment_before_domain_part", "Option<String>"), ("comment_after_domain_part", "Option<String>")])⟩,
  -- `EmailAllowCommentNonIP`
  ⟨[attr (.list (some "email") (.metas [.list (some "local") (.word "Must"), .list (some "at_least_two_labels") (.word "Must"), .list (some "non_ascii") (.word "Disallow"), .list (some "ip") (.word "Disallow")]))], .struct (.named [("local_part", "String"), ("need_quoted", "bool"), ("domain_part", "String"), ("comment_before_local_part", "Option<String>"), ("comment_after_local_part", "Option<String>"), ("comment_before_domain_part", "Option<String>"), ("comment_after_domain_part", "Option<String>")])⟩,
  -- `EmailAllowIP`
  ⟨[attr (.list (some "email") (.metas [.list (some "local") (.word "Disallow"), .list (some "at_least_two_labels") (.word "Must"), .list (some "non_ascii") (.word "Allow"), .list (some "comment") (.word "Disallow")]))], .struct (.named [("local_part", "String"), ("need_quoted", "bool"), ("domain_part", "validators::models::Host")])⟩,
  -- `EmailIP`
  ⟨[attr (.list (some "email") (.metas [.list (some "local") (.word "Disallow"), .list (some "at_least_two_labels") (.word "Must"), .list (some "non_ascii") (.word "Allow"), .list (some "comment") (.word "Disallow"), .list (some "ip") (.word "Must"), .list (some "conflict") (.word "Allow")]))], .struct (.named [("local_part", "String"), ("need_quoted", "bool"), ("domain_part", "std::net::IpAddr")])⟩,
  -- `EmailNonIP`
  ⟨[attr (.list (some "email") (.metas [.list (some "local") (.word "Disallow"), .list (some "at_least_two_labels") (.word "Must"), .list (some "non_ascii") (.word "Allow"), .list (some "comment") (.word "Disallow"), .list (some "ip") (.word "Disallow")]))], .struct (.named [("local_part", "String"), ("need_quoted", "bool"), ("domain_part", "String")])⟩,
  -- `EmailAllowCommentAllowIP`
  ⟨[attr (.list (some "email") (.metas [.list (some "local") (.word "Disallow"), .list (some "at_least_two_labels") (.word "Must"), .list (some "non_ascii") (.word "Allow")]))], .struct (.named [("local_part", "String"), ("need_quoted", "bool"), ("domain_part", "validators::models::Host"), ("comment_before_local_part", "Option<String>"), ("comment_after_local_part", "Option<String>"), ("comment_before_domain_part", "Option<String>"), ("comment_after_domain_part", "Option<String>")])⟩,
  -- `EmailAllowCommentIP`
  ⟨[attr (.list (some "email") (.metas [.list (some "local") (.word "Disallow"), .list (some "at_least_two_labels") (.word "Must"), .list (some "non_ascii") (.word "Allow"), .list (some "ip") (.word "Must"), .list (some "conflict") (.word "Allow")]))], .struct (.named [("local_part", "String"), ("need_quoted", "bool"), ("domain_part", "std::net::IpAddr"), ("comment_before_local_part", "Option<String>"), ("comment_after_local_part", "Option<String>"), ("comment_before_domain_part", "Option<String>"), ("comment_after_domain_part", "Option<String>")])⟩,
  -- `EmailAllowCommentNonIP`
  ⟨[attr (.list (some "email") (.metas [.list (some "local") (.word "Disallow"), .list (some "at_least_two_labels") (.word "Must"), .list (some "non_ascii") (.word "Allow"), .list (some "ip") (.word "Disallow")]))], .struct (.named [("local_part", "String"), ("need_quoted", "bool"), ("domain_part", "String"), ("comment_before_local_part", "Option<String>"), ("comment_after_local_part", "Option<String>"), ("comment_before_domain_part", "Option<String>"), ("comment_after_domain_part", "Option<String>")])⟩,
  -- `EmailAllowIP`
  ⟨[attr (.list (some "email") (.metas [.list (some "local") (.word "Disallow"), .list (some "at_least_two_labels") (.word "Must"), .list (some "non_ascii") (.word "Disallow"), .list (some "comment") (.word "Disallow")]))], .struct (.named [("local_part", "String"), ("need_quoted", "bool"), ("domain_part", "validators::models::Host")])⟩,
  -- `EmailIP`
  ⟨[attr (.list (some "email") (.metas [.list (some "local") (.word "Disallow"), .list (some "at_least_two_labels") (.word "Must"), .list (some "non_ascii") (.word "Disallow"), .list (some "comment") (.word "Disallow"), .list (some "ip") (.word "Must"), .list (some "conflict") (.word "Allow")]))], .struct (.named [("local_part", "String"), ("need_quoted", "bool"), ("domain_part", "std::net::IpAddr")])⟩,
  -- `EmailNonIP`
  ⟨[attr (.list (some "email") (.metas [.list (some "local") (.word "Disallow"), .list (some "at_least_two_labels") (.word "Must"), .list (some "non_ascii") (.word "Disallow"), .list (some "comment") (.word "Disallow"), .list (some "ip") (.word "Disallow")]))], .struct (.named [("local_part", "String"), ("need_quoted", "bool"), ("domain_part", "String")])⟩,
  -- `EmailAllowCommentAllowIP`
  ⟨[attr (.list (some "email") (.metas [.list (some "local") (.word "Disallow"), .list (some "at_least_two_labels") (.word "Must"), .list (some "non_ascii") (.word "Disallow")]))], .struct (.named [("local_part", "String"), ("need_quoted", "bool"), ("domain_part", "validators::models::Host"), ("comment_before_local_part", "Option<String>"), ("comment_after_local_part", "Option<String>"), ("comment_before_domain_part", "Option<String>"), ("comment_after_domain_part", "Option<String>")])⟩,
  -- `EmailAllowCommentIP`
  ⟨[attr (.list (some "email") (.metas [.list (some "local") (.word "Disallow"), .list (some "at_least_two_labels") (.word "Must"), .list (some "non_ascii") (.word "Disallow"), .list (some "ip") (.word "Must"), .list (some "conflict") (.word "Allow")]))], .struct (.named [("local_part", "String"), ("need_quoted", "bool"), ("domain_part", "std::net::IpAddr"), ("comment_before_local_part", "Option<String>"), ("comment_after_local_part", "Option<String>"), ("comment_before_domain_part", "Option<String>"), ("comment_after_domain_part", "Option<String>")])⟩,
  -- `EmailAllowCommentNonIP`
  ⟨[attr (.list (some "email") (.metas [.list (some "local") (.word "Disallow"), .list (some "at_least_two_labels") (.word "Must"), .list (some "non_ascii") (.word "Disallow"), .list (some "ip") (.word "Disallow")]))], .struct (.named [("local_part", "String"), ("need_quoted", "bool"), ("domain_part", "String"), ("comment_before_local_part", "Option<String>"), ("comment_after_local_part", "Option<String>"), ("comment_before_domain_part", "Option<String>"), ("comment_after_domain_part", "Option<String>")])⟩]

theorem basicTest_passes : basicTest.all (passes false basicCases) = true := by decide +kernel

/-- The items of `test2!`. -/
def basicTest2 : List (Input Toks) := [
  -- `EmailAllowIPIsLocal`
  ⟨[attr (.list (some "email") (.metas [.list (some "local") (.word "Allow"), .list (some "at_least_two_labels") (.word "Must"), .list (some "non_ascii") (.word "Allow"), .list (some "comment") (.word "Disallow")]))], .struct (.named [("local_part", "String"), ("need_quoted", "bool"), ("domain_part", "validators::models::Host"), ("is_local", "bool")])⟩,
  -- `EmailIPIsLocal`
  ⟨[attr (.list (some "email") (.metas [.list (some "local") (.word "Allow"), .list (some "at_least_two_labels") (.word "Must"), .list (some "non_ascii") (.word "Allow"), .list (some "comment") (.word "Disallow"), .list (some "ip") (.word "Must"), .list (some "conflict") (.word "Allow")]))], .struct (.named [("local_part", "String"), ("need_quoted", "bool"), ("domain_part", "std::net::IpAddr"), ("is_local", "bool")])⟩,
  -- `EmailNonIPIsLocal`
  ⟨[attr (.list (some "email") (.metas [.list (some "local") (.word "Allow"), .list (some "at_least_two_labels") (.word "Must"), .list (some "non_ascii") (.word "Allow"), .list (some "comment") (.word "Disallow"), .list (some "ip") (.word "Disallow")]))], .struct (.named [("local_part", "String"), ("need_quoted", "bool"), ("domain_part", "String"), ("is_local", "bool")])⟩,
  -- `EmailAllowCommentAllowIPIsLocal`
  ⟨[attr (.list (some "email") (.metas [.list (some "local") (.word "Allow"), .list (some "at_least_two_labels") (.word "Must"), .list (some "non_ascii") (.word "Allow")]))], .struct (.named [("local_part", "String"), ("need_quoted", "bool"), ("domain_part", "validators::models::Host"), ("comment_before_local_part", "Option<String>"), ("comment_after_local_part", "Option<String>"), ("comment_before_domain_part", "Option<String>"), ("comment_after_domain_part", "Option<String>"), ("is_local", "bool")])⟩,
  -- `EmailAllowCommentIPIsLocal`
  ⟨[attr (.list (some "email") (.metas [.list (some "local") (.word "Allow"), .list (some "at_least_two_labels") (.word "Must"), .list (some "non_ascii") (.word "Allow"), .list (some "ip") (.word "Must"), .list (some "conflict") (.word "Allow")]))], .struct (.named [("local_part", "String"), ("need_quoted", "bool"), ("domain_part", "std::net::IpAddr"), ("comment_before_local_part", "Option<String>"), ("comment_after_local_part", "Option<String>"), ("comment_before_domain_part", "Option<String>"), ("comment_after_domain_part", "Option<String>"), ("is_local", "bool")])⟩,
  -- `EmailAllowCommentNonIPIsLocal`
  ⟨[attr (.list (some "email") (.metas [.list (some "local") (.word "Allow"), .list (some "at_least_two_labels") (.word "Must"), .list (some "non_ascii") (.word "Allow"), .list (some "ip") (.word "Disallow")]))], .struct (.named [("local_part", "String"), ("need_quoted", "bool"), ("domain_part", "String"), ("comment_before_local_part", "Option<String>"), ("comment_after_local_part", "Option<String>"), ("comment_before_domain_part", "Option<String>"), ("comment_after_domain_part", "Option<String>"), ("is_local", "bool")])⟩,
  -- `EmailAllowIPIsLocal`
  ⟨[attr (.list (some "email") (.metas [.list (some "local") (.word "Allow"), .list (some "at_least_two_labels") (.word "Must"), .list (some "non_ascii") (.word "Disallow"), .list (some "comment") (.word "Disallow")]))], .struct (.named [("local_part", "String"), ("need_quoted", "bool"), ("domain_part", "validators::models::Host"), ("is_local", "bool")])⟩,
  -- `EmailIPIsLocal`
  ⟨[attr (.list (some "email") (.metas [.list (some "local") (.word "Allow"), .list (some "at_least_two_labels") (.word "Must"), .list (some "non_ascii") (.word "Disallow"), .list (some "comment") (.word "Disallow"), .list (some "ip") (.word "Must"), .list (some "conflict") (.word "Allow")]))], .struct (.named [("local_part", "String"), ("need_quoted", "bool"), ("domain_part", "std::net::IpAddr"), ("is_local", "bool")])⟩,
  -- `EmailNonIPIsLocal`
  ⟨[attr (.list (some "email") (.metas [.list (some "local") (.word "Allow"), .list (some "at_least_two_labels") (.word "Must"), .list (some "non_ascii") (.word "Disallow"), .list (some "comment") (.word "Disallow"), .list (some "ip") (.word "Disallow")]))], .struct (.named [("local_part", "String"), ("need_quoted", "bool"), ("domain_part", "String"), ("is_local", "bool")])⟩,
  -- `EmailAllowCommentAllowIPIsLocal`
  ⟨[attr (.list (some "email") (.metas [.list (some "local") (.word "Allow"), .list (some "at_least_two_labels") (.word "Must"), .list (some "non_ascii") (.word "Disallow")]))], .struct (.named [("local_part", "String"), ("need_quoted", "bool"), ("domain_part", "validators::models::Host"), ("comment_before_local_part", "Option<String>"), ("comment_after_local_part", "Option<String>"), ("comment_before_domain_part", "Option<String>"), ("comment_after_domain_part", "Option<String>"), ("is_local", "bool")])⟩,
  -- `EmailAllowCommentIPIsLocal`
  ⟨[attr (.list (some "email") (.metas [.list (some "local") (.word "Allow"), .list (some "at_least_two_labels") (.word "Must"), .list (some "non_ascii") (.word "Disallow"), .list (some "ip") (.word "Must"), .list (some "conflict") (.word "Allow")]))], .struct (.named [("local_part", "String"), ("need_quoted", "bool"), ("domain_part", "std::net::IpAddr"), ("comment_before_local_part", "Option<String>"), ("comment_after_local_part", "Option<String>"), ("comment_before_domain_part", "Option<String>"), ("comment_after_domain_part", "Option<String>"), ("is_local", "bool")])⟩,
  -- `EmailAllowCommentNonIPIsLocal`
  ⟨[attr (.list (some "email") (.metas [.list (some "local") (.word "Allow"), .list (some "at_least_two_labels") (.word "Must"), .list (some "non_ascii") (.word "Disallow"), .list (some "ip") (.word "Disallow")]))], .struct (.named [("local_part", "String"), ("need_quoted", "bool"), ("domain_part", "String"), ("comment_before_local_part", "Option<String>"), ("comment_after_local_part", "Option<String>"), ("comment_before_domain_part", "Option<String>"), ("comment_after_domain_part", "Option<String>"), ("is_local", "bool")])⟩,
  -- `EmailAllowIPIsLocal`
  ⟨[attr (.list (some "email") (.metas [.list (some "local") (.word "Allow"), .list (some "at_least_two_labels") (.word "Disallow"), .list (some "non_ascii") (.word "Allow"), .list (some "comment") (.word "Disallow")]))], .struct (.named [("local_part", "String"), ("need_quoted", "bool"), ("domain_part", "validators::models::Host"), ("is_local", "bool")])⟩,
  -- `EmailIPIsLocal`
  ⟨[attr (.list (some "email") (.metas [.list (some "local") (.word "Allow"), .list (some "at_least_two_labels") (.word "Disallow"), .list (some "non_ascii") (.word "Allow"), .list (some "comment") (.word "Disallow"), .list (some "ip") (.word "Must"), .list (some "conflict") (.word "Allow")]))], .struct (.named [("local_part", "String"), ("need_quoted", "bool"), ("domain_part", "std::net::IpAddr"), ("is_local", "bool")])⟩,
  -- `EmailNonIPIsLocal`
  ⟨[attr (.list (some "email") (.metas [.list (some "local") (.word "Allow"), .list (some "at_least_two_labels") (.word "Disallow"), .list (some "non_ascii") (.word "Allow"), .list (some "comment") (.word "Disallow"), .list (some "ip") (.word "Disallow")]))], .struct (.named [("local_part", "String"), ("need_quoted", "bool"), ("domain_part", "String"), ("is_local", "bool")])⟩,
  -- `EmailAllowCommentAllowIPIsLocal`
  ⟨[attr (.list (some "email") (.metas [.list (some "local") (.word "Allow"), .list (some "at_least_two_labels") (.word "Disallow"), .list (some "non_ascii") (.word "Allow")]))], .struct (.named [("local_part", "String"), ("need_quoted", "bool"), ("domain_part", "validators::models::Host"), ("comment_before_local_part", "Option<String>"), ("comment_after_local_part", "Option<String>"), ("comment_before_domain_part", "Option<String>"), ("comment_after_domain_part", "Option<String>"), ("is_local", "bool")])⟩,
  -- `EmailAllowCommentIPIsLocal`
  ⟨[attr (.list (some "email") (.metas [.list (some "local") (.word "Allow"), .list (some "at_least_two_labels") (.word "Disallow"), .list (some "non_ascii") (.word "Allow"), .list (some "ip") (.word "Must"), .list (some "conflict") (.word "Allow")]))], .struct (.named [("local_part", "String"), ("need_quoted", "bool"), ("domain_part", "std::net::IpAddr"), ("comment_before_local_part", "Option<String>"), ("comment_after_local_part", "Option<String>"), ("comment_before_domain_part", "Option<String>"), ("comment_after_domain_part", "Option<String>"), ("is_local", "bool")])⟩,
  -- `EmailAllowCommentNonIPIsLocal`
  ⟨[attr (.list (some "email") (.metas [.list (some "local") (.word "Allow"), .list (some "at_least_two_labels") (.word "Disallow"), .list (some "non_ascii") (.word "Allow"), .list (some "ip") (.word "Disallow")]))], .struct (.named [("local_part", "String"), ("need_quoted", "bool"), ("domain_part", "String"), ("comment_before_local_part", "Option<String>"), ("comment_after_local_part", "Option<String>"), ("comment_before_domain_part", "Option<String>"), ("comment_after_domain_part", "Option<String>"), ("is_local", "bool")])⟩,
  -- `EmailAllowIPIsLocal`
  ⟨[attr (.list (some "email") (.metas [.list (some "local") (.word "Allow"), .list (some "at_least_two_labels") (.word "Disallow"), .list (some "non_ascii") (.word "Disallow"), .list (some "comment") (.word "Disallow")]))], .struct (.named [("local_part", "String"), ("need_quoted", "bool"), ("domain_part", "validators::models::Host"), ("is_local", "bool")])⟩,
  -- `EmailIPIsLocal`
  ⟨[attr (.list (some "email") (.metas [.list (some "local") (.word "Allow"), .list (some "at_least_two_labels") (.word "Disallow"), .list (some "non_ascii") (.word "Disallow"), .list (some "comment") (.word "Disallow"), .list (some "ip") (.word "Must"), .list (some "conflict") (.word "Allow")]))], .struct (.named [("local_part", "String"), ("need_quoted", "bool"), ("domain_part", "std::net::IpAddr"), ("is_local", "bool")])⟩,
  -- `EmailNonIPIsLocal`
  ⟨[attr (.list (some "email") (.metas [.list (some "local") (.word "Allow"), .list (some "at_least_two_labels") (.word "Disallow"), .list (some "non_ascii") (.word "Disallow"), .list (some "comment") (.word "Disallow"), .list (some "ip") (.word "Disallow")]))], .struct (.named [("local_part", "String"), ("need_quoted", "bool"), ("domain_part", "String"), ("is_local", "bool")])⟩,
  -- `EmailAllowCommentAllowIPIsLocal`
  ⟨[attr (.list (some "email") (.metas [.list (some "local") (.word "Allow"), .list (some "at_least_two_labels") (.word "Disallow"), .list (some "non_ascii") (.word "Disallow")]))], .struct (.named [("local_part", "String"), ("need_quoted", "bool"), ("domain_part", "validators::models::Host"), ("comment_before_local_part", "Option<String>"), ("comment_after_local_part", "Option<String>"), ("comment_before_domain_part", "Option<String>"), ("comment_after_domain_part", "Option<String>"), ("is_local", "bool")])⟩,
  -- `EmailAllowCommentIPIsLocal`
  ⟨[attr (.list (some "email") (.metas [.list (some "local") (.word "Allow"), .list (some "at_least_two_labels") (.word "Disallow"), .list (some "non_ascii") (.word "Disallow"), .list (some "ip") (.word "Must"), .list (some "conflict") (.word "Allow")]))], .struct (.named [("local_part", "String"), ("need_quoted", "bool"), ("domain_part", "std::net::IpAddr"), ("comment_before_local_part", "Option<String>"), ("comment_after_local_part", "Option<String>"), ("comment_before_domain_part", "Option<String>"), ("comment_after_domain_part", "Option<String>"), ("is_local", "bool")])⟩,
  -- `EmailAllowCommentNonIPIsLocal`
  ⟨[attr (.list (some "email") (.metas [.list (some "local") (.word "Allow"), .list (some "at_least_two_labels") (.word "Disallow"), .list (some "non_ascii") (.word "Disallow"), .list (some "ip") (.word "Disallow")]))], .struct (.named [("local_part", "String"), ("need_quoted", "bool"), ("domain_part", "String"), ("comment_before_local_part", "Option<String>"), ("comment_after_local_part", "Option<String>"), ("comment_before_domain_part", "Option<String>"), ("comment_after_domain_part", "Option<String>"), ("is_local", "bool")])⟩]

theorem basicTest2_passes : basicTest2.all (passes false basicCases) = true := by decide +kernel

end Verif.Conformance.Email
