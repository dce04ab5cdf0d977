import Verif.Conformance.Harness

/-!
# The examples of the manual, `validators/src/lib.rs` L41-830

Written by `tools/conformance.py`.
-/

namespace Verif.Conformance.Manual

open Verif.Attr Verif.Derive Verif.Constants
open Verif.Conformance

/-- `Base32WithPadding`. -/
def base32WithPadding : Input Toks := ⟨[attr (.list (some "base32") (.metas [.list (some "padding") (.word "Must")]))], .struct (.unnamed ["String"])⟩

theorem base32WithPadding_passes : passes true [⟨"GEZDGNBVGY3TQOI=", fun _ => true⟩, ⟨"GEZDGNBVGY3TQOI", fun _ => false⟩] base32WithPadding = true := by decide +kernel

/-- `Base32WithPaddingDecoded`. -/
def base32WithPaddingDecoded : Input Toks := ⟨[attr (.list (some "base32_decoded") (.metas [.list (some "padding") (.word "Must")]))], .struct (.unnamed ["Vec<u8>"])⟩

theorem base32WithPaddingDecoded_passes : passes true [⟨"GEZDGNBVGY3TQOI=", fun _ => true⟩, ⟨"GEZDGNBVGY3TQOI", fun _ => false⟩] base32WithPaddingDecoded = true := by decide +kernel

/-- `Base64WithPadding`. -/
def base64WithPadding : Input Toks := ⟨[attr (.list (some "base64") (.metas [.list (some "padding") (.word "Must")]))], .struct (.unnamed ["String"])⟩

theorem base64WithPadding_passes : passes true [⟨"MTIzNDU2Nzg5MA==", fun _ => true⟩, ⟨"MTIzNDU2Nzg5MA", fun _ => false⟩] base64WithPadding = true := by decide +kernel

/-- `Base64WithPaddingDecoded`. -/
def base64WithPaddingDecoded : Input Toks := ⟨[attr (.list (some "base64_decoded") (.metas [.list (some "padding") (.word "Must")]))], .struct (.unnamed ["Vec<u8>"])⟩

theorem base64WithPaddingDecoded_passes : passes true [⟨"MTIzNDU2Nzg5MA==", fun _ => true⟩, ⟨"MTIzNDU2Nzg5MA", fun _ => false⟩] base64WithPaddingDecoded = true := by decide +kernel

/-- `Base64UrlWithoutPadding`. -/
def base64UrlWithoutPadding : Input Toks := ⟨[attr (.list (some "base64_url") (.metas [.list (some "padding") (.word "Disallow")]))], .struct (.unnamed ["String"])⟩

theorem base64UrlWithoutPadding_passes : passes true [⟨"5LmN5pqW6YKE5a-S5pmC5YCZ", fun _ => true⟩, ⟨"5LmN5pqW6YKE5a+S5pmC5YCZ", fun _ => false⟩] base64UrlWithoutPadding = true := by decide +kernel

/-- `Base64UrlWithoutPaddingDecoded`. -/
def base64UrlWithoutPaddingDecoded : Input Toks := ⟨[attr (.list (some "base64_url_decoded") (.metas [.list (some "padding") (.word "Disallow")]))], .struct (.unnamed ["Vec<u8>"])⟩

theorem base64UrlWithoutPaddingDecoded_passes : passes true [⟨"5LmN5pqW6YKE5a-S5pmC5YCZ", fun _ => true⟩, ⟨"5LmN5pqW6YKE5a+S5pmC5YCZ", fun _ => false⟩] base64UrlWithoutPaddingDecoded = true := by decide +kernel

/-- `DomainWithoutPort`. -/
def domainWithoutPort : Input Toks := ⟨[attr (.list (some "domain") (.metas [.list (some "ipv4") (.word "Allow"), .list (some "local") (.word "Allow"), .list (some "port") (.word "Disallow"), .list (some "at_least_two_labels") (.word "Allow")]))], .struct (.unnamed ["String"])⟩

theorem domainWithoutPort_passes : passes true [⟨"example.com", fun _ => true⟩, ⟨"example.com.", fun _ => true⟩] domainWithoutPort = true := by decide +kernel

/-- `EmailAllowComment`. -/
def emailAllowComment : Input Toks := ⟨[attr (.list (some "email") (.metas [.list (some "comment") (.word "Allow"), .list (some "ip") (.word "Allow"), .list (some "local") (.word "Allow"), .list (some "at_least_two_labels") (.word "Allow"), .list (some "non_ascii") (.word "Allow")]))], .struct (.named [("local_part", "String"), ("need_quoted", "bool"), ("domain_part", "Host"), ("comment_before_local_part", "Option<String>"), ("comment_after_local_part", "Option<String>"), ("comment_before_domain_part", "Option<String>"), ("comment_after_domain_part", "Option<String>")])⟩

theorem emailAllowComment_passes : passes true [⟨"(john)joke@example.com", fun _ => true⟩] emailAllowComment = true := by decide +kernel

/-- `EmailWithoutComment`. -/
def emailWithoutComment : Input Toks := ⟨[attr (.list (some "email") (.metas [.list (some "comment") (.word "Disallow"), .list (some "ip") (.word "Allow"), .list (some "local") (.word "Allow"), .list (some "at_least_two_labels") (.word "Allow"), .list (some "non_ascii") (.word "Allow")]))], .struct (.named [("local_part", "String"), ("need_quoted", "bool"), ("domain_part", "Host")])⟩

theorem emailWithoutComment_passes : passes true [⟨"(john)joke@example.com", fun _ => false⟩] emailWithoutComment = true := by decide +kernel

/-- `HostMustAtLeastTwoLabelsAllowPort`. -/
def hostMustAtLeastTwoLabelsAllowPort : Input Toks := ⟨[attr (.list (some "host") (.metas [.list (some "local") (.word "Allow"), .list (some "port") (.word "Allow"), .list (some "at_least_two_labels") (.word "Must")]))], .struct (.named [("host", "Host"), ("port", "Option<u16>"), ("is_local", "bool")])⟩

theorem hostMustAtLeastTwoLabelsAllowPort_passes : passes true [⟨"example.com:8000", fun _ => true⟩, ⟨"example.com.", fun _ => false⟩, ⟨"example", fun _ => false⟩] hostMustAtLeastTwoLabelsAllowPort = true := by decide +kernel

/-- `HttpURL`. -/
def httpURL : Input Toks := ⟨[attr (.list (some "http_url") (.metas [.list (some "local") (.word "Allow")]))], .struct (.named [("url", "Url"), ("is_https", "bool")])⟩

theorem httpURL_passes : passes true [⟨"https://example.org/", fun _ => true⟩, ⟨"http://example.org/", fun _ => true⟩, ⟨"ftp://example.org/", fun _ => false⟩] httpURL = true := by decide +kernel

/-- `HttpFtpURL`. -/
def httpFtpURL : Input Toks := ⟨[attr (.list (some "http_ftp_url") (.metas [.list (some "local") (.word "Allow")]))], .struct (.named [("url", "Url"), ("protocol", "Protocol")])⟩

theorem httpFtpURL_passes : passes true [⟨"https://example.org/", fun _ => true⟩, ⟨"http://example.org/", fun _ => true⟩, ⟨"ftp://example.org/", fun _ => true⟩] httpFtpURL = true := by decide +kernel

/-- `IpAllowPort`. -/
def ipAllowPort : Input Toks := ⟨[attr (.list (some "ip") (.metas [.list (some "local") (.word "Allow"), .list (some "port") (.word "Allow")]))], .struct (.named [("ip", "IpAddr"), ("port", "Option<u16>")])⟩

theorem ipAllowPort_passes : passes true [⟨"127.0.0.1", fun _ => true⟩, ⟨"[::ffff:c000:0280]:8000", fun _ => true⟩] ipAllowPort = true := by decide +kernel

/-- `Ipv4AllowPort`. -/
def ipv4AllowPort : Input Toks := ⟨[attr (.list (some "ipv4") (.metas [.list (some "local") (.word "Allow"), .list (some "port") (.word "Allow")]))], .struct (.named [("ipv4", "Ipv4Addr"), ("port", "Option<u16>")])⟩

theorem ipv4AllowPort_passes : passes true [⟨"127.0.0.1", fun _ => true⟩] ipv4AllowPort = true := by decide +kernel

/-- `Ipv6AllowPort`. -/
def ipv6AllowPort : Input Toks := ⟨[attr (.list (some "ipv6") (.metas [.list (some "local") (.word "Allow"), .list (some "port") (.word "Allow")]))], .struct (.named [("ipv6", "Ipv6Addr"), ("port", "Option<u16>")])⟩

theorem ipv6AllowPort_passes : passes true [⟨"::ffff:c000:0280", fun _ => true⟩, ⟨"[::ffff:c000:0280]", fun _ => true⟩] ipv6AllowPort = true := by decide +kernel

/-- `NonEmptyNotTooLongVec`. -/
def nonEmptyNotTooLongVec : Input Toks := ⟨[attr (.list (some "length") (.metas [.nameValue (some "min") (.lit (.int (ascii "1"))), .nameValue (some "max") (.lit (.int (ascii "3")))]))], .struct (.unnamed ["Vec<u8>"])⟩

theorem nonEmptyNotTooLongVec_passes : passesLength [(0, false), (1, true), (4, false)] nonEmptyNotTooLongVec = true := by decide +kernel

/-- `LineNotAllowEmpty`. -/
def lineNotAllowEmpty : Input Toks := ⟨[attr (.list (some "line") (.metas [.list (some "char_length") (.metas [.nameValue (some "trimmed_min") (.lit (.int (ascii "1"))), .nameValue (some "min") (.lit (.int (ascii "1"))), .nameValue (some "max") (.lit (.int (ascii "1000")))])]))], .struct (.unnamed ["String"])⟩

theorem lineNotAllowEmpty_passes : passes true [⟨"123", fun _ => true⟩, ⟨"123\x00", fun _ => false⟩, ⟨"123\n456", fun _ => false⟩, ⟨"   ", fun _ => false⟩] lineNotAllowEmpty = true := by decide +kernel

/-- `MacAddress`. -/
def macAddress : Input Toks := ⟨[attr (.list (some "mac_address") (.metas [.list (some "case") (.word "Upper"), .list (some "separator") (.metas [.list (some "Allow") (.expr (.lit (.byte 58)))])]))], .struct (.unnamed ["u64"])⟩

theorem macAddress_passes : passes true [⟨"080027B246C3", fun _ => true⟩, ⟨"08:00:27:B2:46:C3", fun _ => true⟩] macAddress = true := by decide +kernel

/-- `InternationalPhone`. -/
def internationalPhone : Input Toks := ⟨[attr (.path (some "phone"))], .struct (.unnamed ["PhoneNumber"])⟩

theorem internationalPhone_passes : passes true [⟨"+886912345678", fun _ => true⟩, ⟨"0912345678", fun _ => false⟩, ⟨"+14155552671", fun _ => true⟩] internationalPhone = true := by decide +kernel

/-- `TWPhone`. -/
def tWPhone : Input Toks := ⟨[attr (.list (some "phone") (.metas [.list (some "countries") (.word "TW")]))], .struct (.unnamed ["PhoneNumber"])⟩

theorem tWPhone_passes : passes true [⟨"+886912345678", fun _ => true⟩, ⟨"0912345678", fun _ => true⟩, ⟨"+14155552671", fun _ => false⟩] tWPhone = true := by decide +kernel

/-- `TWorUSPhone`. -/
def tWorUSPhone : Input Toks := ⟨[attr (.list (some "phone") (.metas [.list (some "countries") (.words ["TW", "US"])]))], .struct (.unnamed ["HashMap<Id, PhoneNumber>"])⟩

theorem tWorUSPhone_passes : passes true [⟨"+886912345678", fun _ => true⟩, ⟨"0912345678", fun _ => true⟩, ⟨"+14155552671", fun _ => true⟩] tWorUSPhone = true := by decide +kernel

/-- `Score`. -/
def score : Input Toks := ⟨[attr (.list (some "signed_integer") (.metas [.list (some "range") (.metas [.list (some "Inside") (.metas [.nameValue (some "min") (.neg (.int (ascii "1"))), .nameValue (some "max") (.lit (.int (ascii "100")))])])]))], .struct (.unnamed ["i8"])⟩

theorem score_passes : passes true [⟨"0", fun _ => true⟩, ⟨"-2", fun _ => false⟩] score = true := by decide +kernel

/-- `TextNotAllowEmpty`. -/
def textNotAllowEmpty : Input Toks := ⟨[attr (.list (some "text") (.metas [.list (some "char_length") (.metas [.nameValue (some "trimmed_min") (.lit (.int (ascii "1"))), .nameValue (some "min") (.lit (.int (ascii "1"))), .nameValue (some "max") (.lit (.int (ascii "1000")))])]))], .struct (.unnamed ["String"])⟩

theorem textNotAllowEmpty_passes : passes true [⟨"123", fun _ => true⟩, ⟨"123\x00", fun _ => false⟩, ⟨"123\n456", fun _ => true⟩, ⟨"   ", fun _ => false⟩] textNotAllowEmpty = true := by decide +kernel

/-- `Count`. -/
def count : Input Toks := ⟨[attr (.list (some "unsigned_integer") (.metas [.list (some "range") (.metas [.list (some "Inside") (.metas [.nameValue (some "min") (.lit (.int (ascii "1"))), .nameValue (some "max") (.lit (.int (ascii "100")))])])]))], .struct (.unnamed ["u8"])⟩

theorem count_passes : passes true [⟨"5", fun _ => true⟩, ⟨"0", fun _ => false⟩] count = true := by decide +kernel

/-- `UUID`. -/
def uUID : Input Toks := ⟨[attr (.list (some "uuid") (.metas [.list (some "case") (.word "Upper"), .list (some "separator") (.metas [.list (some "Allow") (.expr (.lit (.byte 45)))])]))], .struct (.unnamed ["u128"])⟩

theorem uUID_passes : passes true [⟨"A866664AF9D34DDE89CB182015FA4F41", fun _ => true⟩, ⟨"A866664A-F9D3-4DDE-89CB-182015FA4F41", fun _ => true⟩] uUID = true := by decide +kernel

end Verif.Conformance.Manual
