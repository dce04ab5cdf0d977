import Verif.Model.Generated

/-!
# The texts of the errors, and the responses of `axum`

`impl Display` for the error types, and `impl IntoResponse`. Paths are relative to `validators/src/errors`.
-/

namespace Verif.Errors

open Verif.Derive Verif.Generated

/-- What is written: words of this crate, or what the error of a library says (`Display::fmt(error, f)`). -/
inductive Text where
  | words (s : String)
  | library
  deriving DecidableEq, Repr

/-- `base32.rs`, `base64.rs`, `base64_url.rs` L15-22. `Decode` is not a variant of these types. -/
def baseText (name : String) : BaseN.BaseError → Option Text
  | .invalid => some (.words ("invalid " ++ name))
  | .paddingMust => some (.words "padding not found")
  | .paddingDisallow => some (.words "padding not allowed")
  | .decode => none

/-- `base32_decoded.rs`, `base64_decoded.rs`, `base64_url_decoded.rs` L17-25. -/
def decodedText (name : String) : BaseN.BaseError → Option Text
  | .invalid => some (.words ("invalid " ++ name))
  | .paddingMust => some (.words "padding not found")
  | .paddingDisallow => some (.words "padding not allowed")
  | .decode => some (.words "decoded incorrectly")

/-- `bit.rs`, `byte.rs` L21-28. `Forbidden` is not a variant of these types. -/
def sizeText (name : String) : Size.SizeError → Option Text
  | .parse => some .library
  | .range .tooLarge => some (.words (name ++ " is too large"))
  | .range .tooSmall => some (.words (name ++ " is too small"))
  | .range .forbidden => none

/-- `domain.rs` L27-40. -/
def domainText : Domain.DomainError → Text
  | .invalid => .words "invalid domain"
  | .ipv4Must => .words "must use an IPv4"
  | .ipv4Disallow => .words "must not use an IPv4"
  | .localMust => .words "must be local"
  | .localDisallow => .words "must not be local"
  | .atLeastTwoLabelsMust => .words "must have at least two labels"
  | .atLeastTwoLabelsDisallow => .words "must have only one label"
  | .portMust => .words "port not found"
  | .portDisallow => .words "port not allowed"

/-- `email.rs` L25-37. -/
def emailText : Email.EmailError → Text
  | .invalid => .words "invalid Email"
  | .ipMust => .words "must use an IP"
  | .ipDisallow => .words "must not use an IP"
  | .localMust => .words "must be local"
  | .localDisallow => .words "must not be local"
  | .atLeastTwoLabelsMust => .words "must have at least two labels"
  | .atLeastTwoLabelsDisallow => .words "must have only one label"
  | .commentDisallow => .words "must not contain comments"

/-- `host.rs` L23-34. -/
def hostText : Host.HostError → Text
  | .invalid => .words "invalid domain or IP"
  | .localMust => .words "must be local"
  | .localDisallow => .words "must not be local"
  | .atLeastTwoLabelsMust => .words "must have at least two labels"
  | .atLeastTwoLabelsDisallow => .words "must have only one label"
  | .portMust => .words "port not found"
  | .portDisallow => .words "port not allowed"

/-- `http_url.rs` L23-31, `http_ftp_url.rs` L23-33; `protocols` is the part that differs. -/
def urlText (protocols : String) : Url.UrlError → Text
  | .parseError => .library
  | .protocolError => .words ("need to use " ++ protocols ++ " as a protocol")
  | .localMust => .words "must be local"
  | .localDisallow => .words "must not be local"

/-- `ip.rs`, `ipv4.rs`, `ipv6.rs` L19-28. -/
def ipText (name : String) : Ip.IpError → Text
  | .invalid => .words ("invalid " ++ name)
  | .localMust => .words "must be local"
  | .localDisallow => .words "must not be local"
  | .portMust => .words "port not found"
  | .portDisallow => .words "port not allowed"

/-- `line.rs`, `text.rs` L14-21. -/
def lineText (name : String) : Line.LineError → Text
  | .invalid => .words ("invalid " ++ name)
  | .tooLong => .words (name ++ " is too long")
  | .tooShort => .words (name ++ " is too short")

/-- `mac_address.rs`, `uuid.rs` L15-22. -/
def hexText (name : String) : Hex.HexError → Text
  | .invalid => .words ("invalid " ++ name)
  | .separatorMust => .words "separators not found"
  | .separatorDisallow => .words "separators not allowed"

/-- `number.rs` L25-36. -/
def numberText : Number.NumberError → Text
  | .parseFloat => .library
  | .range .tooLarge => .words "number is too large"
  | .range .tooSmall => .words "number is too small"
  | .range .forbidden => .words "number is forbidden"
  | .nanMust => .words "must be NaN"
  | .nanDisallow => .words "must not be NaN"

/-- `phone.rs` L22-29. -/
def phoneText : Phone.PhoneError → Text
  | .failure => .library
  | .invalid => .words "invalid phone number"

/-- `signed_integer.rs`, `unsigned_integer.rs` L23-32. -/
def intText : IntV.IntError → Text
  | .parseInt _ => .library
  | .range .tooLarge => .words "integer is too large"
  | .range .tooSmall => .words "integer is too small"
  | .range .forbidden => .words "integer is forbidden"

/-- `length.rs` L11-18. `Forbidden` is not a variant of this type. -/
def lengthText : Range.RangeError → Option Text
  | .tooLarge => some (.words "collection is too large")
  | .tooSmall => some (.words "collection is too small")
  | .forbidden => none

/-- `impl Display` for the error type of each validator. `none`: the error type of the validator has no such variant.
`boolean.rs` L7-12, `regex.rs` L7-12, `semver.rs` L14-19, `url.rs` L16-21, `json.rs` L18-26 (the other variant of `JsonError` is not
an error of `impl ValidateString`). -/
def errorText {ε : Type} : Validator → Error ε → Option Text
  | .base32, .base e => baseText "Base32" e
  | .base32_decoded, .base e => decodedText "Base32" e
  | .base64, .base e => baseText "Base64" e
  | .base64_decoded, .base e => decodedText "Base64" e
  | .base64_url, .base e => baseText "Base64-url" e
  | .base64_url_decoded, .base e => decodedText "Base64-url" e
  | .bit, .size e => sizeText "bit" e
  | .byte, .size e => sizeText "byte" e
  | .boolean, .boolean => some (.words "invalid boolean")
  | .domain, .domain e => some (domainText e)
  | .email, .email e => some (emailText e)
  | .host, .host e => some (hostText e)
  | .http_url, .url e => some (urlText "`http` or `https`" e)
  | .http_ftp_url, .url e => some (urlText "`http`, `https` or `ftp`" e)
  | .ip, .ip e => some (ipText "IP" e)
  | .ipv4, .ip e => some (ipText "IPv4" e)
  | .ipv6, .ip e => some (ipText "IPv6" e)
  | .line, .line e => some (lineText "line" e)
  | .text, .line e => some (lineText "text" e)
  | .mac_address, .hex e => some (hexText "mac address" e)
  | .uuid, .hex e => some (hexText "uuid" e)
  | .number, .number e => some (numberText e)
  | .phone, .phone e => some (phoneText e)
  | .regex, .regex => some (.words "invalid format")
  | .signed_integer, .int e => some (intText e)
  | .unsigned_integer, .int e => some (intText e)
  | .json, .lib _ => some .library
  | .semver, .lib _ => some .library
  | .semver_req, .lib _ => some .library
  | .url, .lib _ => some .library
  | _, _ => none

/-- A response: its status and its body. -/
structure Response where
  status : Nat
  body : Text
  deriving DecidableEq

/-- `StatusCode::BAD_REQUEST` -/
def badRequest : Nat := 400

/-- `impl IntoResponse`: `axum_traits.rs` L9-52, L54-61. `axum` makes of a pair of a status and a string a response with both. -/
def response {ε : Type} (v : Validator) (e : Error ε) : Option Response := (errorText v e).map fun t => ⟨badRequest, t⟩

end Verif.Errors
