import Verif.Spec.Features

/-!
# The feature tables, the conditional items and their uses

`validators/Cargo.toml` and `validators-derive/Cargo.toml` as rules; every item of the two crates that stands under a `cfg`, with
that `cfg`; and every use of such an item, with the `cfg`s around it.  Items without a `cfg` always exist and are left out.
A module that stands under a `cfg` passes it on to what is in it.
-/

namespace Verif.Features

/-- The `[features]` table of `validators/Cargo.toml` (L32-127): one rule for each entry of each line.  `dep:x` builds the
optional dependency `x`; `x?/y` turns the feature `y` of `x` on if `x` is built; `x/y` also turns the feature `x` on and builds
`x`.  Simplification: the default features of the dependencies and the features listed on their own lines (L16-30) are left out,
no name below depends on them. -/
def libraryRules : List Rule := [
  ⟨[.feature .default_], .feature .std⟩, -- L33, default
  ⟨[.feature .default_], .feature .allValidators⟩, -- L33, default
  ⟨[.feature .default_], .feature .derive⟩, -- L33, default
  ⟨[.feature .derive], .dep .validatorsDerive⟩, -- L35, derive
  ⟨[.feature .std, .dep .validatorsDerive], .derived .std⟩, -- L36, std
  ⟨[.feature .std, .dep .dataEncoding], .depFeature .dataEncoding .std⟩, -- L36, std
  ⟨[.feature .std, .dep .idna], .depFeature .idna .std⟩, -- L36, std
  ⟨[.feature .std, .dep .byteUnit], .depFeature .byteUnit .std⟩, -- L36, std
  ⟨[.feature .std, .dep .serdeJson], .depFeature .serdeJson .std⟩, -- L36, std
  ⟨[.feature .std, .dep .semverDep], .depFeature .semverDep .std⟩, -- L36, std
  ⟨[.feature .std, .dep .serde], .depFeature .serde .std⟩, -- L36, std
  ⟨[.feature .test, .dep .validatorsDerive], .derived .test⟩, -- L45, test
  ⟨[.feature .full, .dep .validatorsDerive], .derived .full⟩, -- L46, full
  ⟨[.feature .byteUnitU128, .dep .byteUnit], .depFeature .byteUnit .u128⟩, -- L47, byte-unit-u128
  ⟨[.feature .allValidators], .feature .base32⟩, -- L49, all-validators
  ⟨[.feature .allValidators], .feature .base32Decoded⟩, -- L49, all-validators
  ⟨[.feature .allValidators], .feature .base64⟩, -- L49, all-validators
  ⟨[.feature .allValidators], .feature .base64Decoded⟩, -- L49, all-validators
  ⟨[.feature .allValidators], .feature .base64Url⟩, -- L49, all-validators
  ⟨[.feature .allValidators], .feature .base64UrlDecoded⟩, -- L49, all-validators
  ⟨[.feature .allValidators], .feature .bit⟩, -- L49, all-validators
  ⟨[.feature .allValidators], .feature .boolean⟩, -- L49, all-validators
  ⟨[.feature .allValidators], .feature .byte⟩, -- L49, all-validators
  ⟨[.feature .allValidators], .feature .domain⟩, -- L49, all-validators
  ⟨[.feature .allValidators], .feature .email⟩, -- L49, all-validators
  ⟨[.feature .allValidators], .feature .host⟩, -- L49, all-validators
  ⟨[.feature .allValidators], .feature .httpUrl⟩, -- L49, all-validators
  ⟨[.feature .allValidators], .feature .httpFtpUrl⟩, -- L49, all-validators
  ⟨[.feature .allValidators], .feature .ip⟩, -- L49, all-validators
  ⟨[.feature .allValidators], .feature .ipv4⟩, -- L49, all-validators
  ⟨[.feature .allValidators], .feature .ipv6⟩, -- L49, all-validators
  ⟨[.feature .allValidators], .feature .json⟩, -- L49, all-validators
  ⟨[.feature .allValidators], .feature .length⟩, -- L49, all-validators
  ⟨[.feature .allValidators], .feature .line⟩, -- L49, all-validators
  ⟨[.feature .allValidators], .feature .macAddress⟩, -- L49, all-validators
  ⟨[.feature .allValidators], .feature .number⟩, -- L49, all-validators
  ⟨[.feature .allValidators], .feature .phone⟩, -- L49, all-validators
  ⟨[.feature .allValidators], .feature .regex⟩, -- L49, all-validators
  ⟨[.feature .allValidators], .feature .semver⟩, -- L49, all-validators
  ⟨[.feature .allValidators], .feature .semverReq⟩, -- L49, all-validators
  ⟨[.feature .allValidators], .feature .signedInteger⟩, -- L49, all-validators
  ⟨[.feature .allValidators], .feature .text⟩, -- L49, all-validators
  ⟨[.feature .allValidators], .feature .unsignedInteger⟩, -- L49, all-validators
  ⟨[.feature .allValidators], .feature .url⟩, -- L49, all-validators
  ⟨[.feature .allValidators], .feature .uuid⟩, -- L49, all-validators
  ⟨[.feature .base32, .dep .validatorsDerive], .derived .base32⟩, -- L83, base32
  ⟨[.feature .base32Decoded, .dep .validatorsDerive], .derived .base32Decoded⟩, -- L84, base32_decoded
  ⟨[.feature .base32Decoded], .feature .dataEncoding⟩, -- L84, base32_decoded
  ⟨[.feature .base64, .dep .validatorsDerive], .derived .base64⟩, -- L85, base64
  ⟨[.feature .base64Decoded, .dep .validatorsDerive], .derived .base64Decoded⟩, -- L86, base64_decoded
  ⟨[.feature .base64Decoded], .feature .dataEncoding⟩, -- L86, base64_decoded
  ⟨[.feature .base64Url, .dep .validatorsDerive], .derived .base64Url⟩, -- L87, base64_url
  ⟨[.feature .base64UrlDecoded, .dep .validatorsDerive], .derived .base64UrlDecoded⟩, -- L88, base64_url_decoded
  ⟨[.feature .base64UrlDecoded], .feature .dataEncoding⟩, -- L88, base64_url_decoded
  ⟨[.feature .bit, .dep .validatorsDerive], .derived .bit⟩, -- L89, bit
  ⟨[.feature .bit], .feature .byteUnit⟩, -- L89, bit
  ⟨[.feature .bit], .dep .byteUnit⟩, -- L89, bit
  ⟨[.feature .bit], .depFeature .byteUnit .bit⟩, -- L89, bit
  ⟨[.feature .boolean, .dep .validatorsDerive], .derived .boolean⟩, -- L90, boolean
  ⟨[.feature .byte, .dep .validatorsDerive], .derived .byte⟩, -- L91, byte
  ⟨[.feature .byte], .feature .byteUnit⟩, -- L91, byte
  ⟨[.feature .byte], .dep .byteUnit⟩, -- L91, byte
  ⟨[.feature .byte], .depFeature .byteUnit .byte⟩, -- L91, byte
  ⟨[.feature .domain, .dep .validatorsDerive], .derived .domain⟩, -- L92, domain
  ⟨[.feature .domain], .feature .std⟩, -- L92, domain
  ⟨[.feature .domain], .feature .idna⟩, -- L92, domain
  ⟨[.feature .email, .dep .validatorsDerive], .derived .email⟩, -- L93, email
  ⟨[.feature .email], .feature .std⟩, -- L93, email
  ⟨[.feature .email], .feature .idna⟩, -- L93, email
  ⟨[.feature .host, .dep .validatorsDerive], .derived .host⟩, -- L94, host
  ⟨[.feature .host], .feature .std⟩, -- L94, host
  ⟨[.feature .host], .feature .idna⟩, -- L94, host
  ⟨[.feature .httpUrl, .dep .validatorsDerive], .derived .httpUrl⟩, -- L95, http_url
  ⟨[.feature .httpUrl], .feature .url⟩, -- L95, http_url
  ⟨[.feature .httpUrl], .feature .strUtils⟩, -- L95, http_url
  ⟨[.feature .httpFtpUrl, .dep .validatorsDerive], .derived .httpFtpUrl⟩, -- L96, http_ftp_url
  ⟨[.feature .httpFtpUrl], .feature .url⟩, -- L96, http_ftp_url
  ⟨[.feature .httpFtpUrl], .feature .strUtils⟩, -- L96, http_ftp_url
  ⟨[.feature .ip, .dep .validatorsDerive], .derived .ip⟩, -- L97, ip
  ⟨[.feature .ip], .feature .std⟩, -- L97, ip
  ⟨[.feature .ipv4, .dep .validatorsDerive], .derived .ipv4⟩, -- L98, ipv4
  ⟨[.feature .ipv4], .feature .std⟩, -- L98, ipv4
  ⟨[.feature .ipv6, .dep .validatorsDerive], .derived .ipv6⟩, -- L99, ipv6
  ⟨[.feature .ipv6], .feature .std⟩, -- L99, ipv6
  ⟨[.feature .json, .dep .validatorsDerive], .derived .json⟩, -- L100, json
  ⟨[.feature .json], .feature .serdeJson⟩, -- L100, json
  ⟨[.feature .length, .dep .validatorsDerive], .derived .length⟩, -- L101, length
  ⟨[.feature .line, .dep .validatorsDerive], .derived .line⟩, -- L102, line
  ⟨[.feature .macAddress, .dep .validatorsDerive], .derived .macAddress⟩, -- L103, mac_address
  ⟨[.feature .number, .dep .validatorsDerive], .derived .number⟩, -- L104, number
  ⟨[.feature .phone, .dep .validatorsDerive], .derived .phone⟩, -- L105, phone
  ⟨[.feature .phone], .feature .phonenumber⟩, -- L105, phone
  ⟨[.feature .regex, .dep .validatorsDerive], .derived .regex⟩, -- L106, regex
  ⟨[.feature .regex], .feature .regexDep⟩, -- L106, regex
  ⟨[.feature .semver, .dep .validatorsDerive], .derived .semver⟩, -- L107, semver
  ⟨[.feature .semver], .feature .semverDep⟩, -- L107, semver
  ⟨[.feature .semverReq, .dep .validatorsDerive], .derived .semverReq⟩, -- L108, semver_req
  ⟨[.feature .semverReq], .feature .semverDep⟩, -- L108, semver_req
  ⟨[.feature .signedInteger, .dep .validatorsDerive], .derived .signedInteger⟩, -- L109, signed_integer
  ⟨[.feature .text, .dep .validatorsDerive], .derived .text⟩, -- L110, text
  ⟨[.feature .unsignedInteger, .dep .validatorsDerive], .derived .unsignedInteger⟩, -- L111, unsigned_integer
  ⟨[.feature .url, .dep .validatorsDerive], .derived .url⟩, -- L112, url
  ⟨[.feature .url], .feature .urlDep⟩, -- L112, url
  ⟨[.feature .uuid, .dep .validatorsDerive], .derived .uuid⟩, -- L113, uuid
  ⟨[.feature .dataEncoding], .dep .dataEncoding⟩, -- L115, data-encoding
  ⟨[.feature .idna], .dep .idna⟩, -- L116, idna
  ⟨[.feature .byteUnit], .dep .byteUnit⟩, -- L117, byte-unit
  ⟨[.feature .urlDep], .dep .urlDep⟩, -- L118, url-dep
  ⟨[.feature .urlDep], .feature .std⟩, -- L118, url-dep
  ⟨[.feature .strUtils], .dep .strUtils⟩, -- L119, str-utils
  ⟨[.feature .serdeJson], .dep .serdeJson⟩, -- L120, serde_json
  ⟨[.feature .serdeJson], .feature .serde⟩, -- L120, serde_json
  ⟨[.feature .phonenumber], .dep .phonenumber⟩, -- L121, phonenumber
  ⟨[.feature .phonenumber], .feature .std⟩, -- L121, phonenumber
  ⟨[.feature .regexDep], .dep .regexDep⟩, -- L122, regex-dep
  ⟨[.feature .regexDep], .feature .std⟩, -- L122, regex-dep
  ⟨[.feature .semverDep], .dep .semverDep⟩, -- L123, semver-dep
  ⟨[.feature .serde, .dep .validatorsDerive], .derived .serde⟩, -- L125, serde
  ⟨[.feature .serde], .dep .serde⟩, -- L125, serde
  ⟨[.feature .serde, .dep .byteUnit], .depFeature .byteUnit .serde⟩, -- L125, serde
  ⟨[.feature .serde, .dep .urlDep], .depFeature .urlDep .serde⟩, -- L125, serde
  ⟨[.feature .serde, .dep .semverDep], .depFeature .semverDep .serde⟩, -- L125, serde
  ⟨[.feature .rocket, .dep .validatorsDerive], .derived .rocket⟩, -- L126, rocket
  ⟨[.feature .rocket], .dep .rocket⟩, -- L126, rocket
  ⟨[.feature .rocket], .feature .std⟩, -- L126, rocket
  ⟨[.feature .rocket, .dep .byteUnit], .depFeature .byteUnit .rocket⟩, -- L126, rocket
  ⟨[.feature .axum], .feature .serde⟩, -- L127, axum
  ⟨[.feature .axum], .feature .std⟩, -- L127, axum
  ⟨[.feature .axum], .dep .axum⟩] -- L127, axum

/-- The `[features]` table of `validators-derive/Cargo.toml` (L29-67); lines with an empty list give no rule. -/
def macroRules : List Rule := [
  ⟨[.derived .full], .synFull⟩, -- L32, full
  ⟨[.derived .domain], .macroDep .educe⟩, -- L43, domain
  ⟨[.derived .email], .macroDep .educe⟩, -- L44, email
  ⟨[.derived .host], .macroDep .educe⟩, -- L45, host
  ⟨[.derived .ip], .macroDep .educe⟩, -- L48, ip
  ⟨[.derived .ipv4], .macroDep .educe⟩, -- L49, ipv4
  ⟨[.derived .ipv6], .macroDep .educe⟩, -- L50, ipv6
  ⟨[.derived .phone], .macroDep .phonenumber⟩, -- L56, phone
  ⟨[.derived .regex], .macroDep .regex⟩] -- L57, regex

/-- Both tables. -/
def rules : List Rule := libraryRules ++ macroRules

/-- The features of `validators-derive`: `validators-derive/Cargo.toml` L30-67. -/
def macroFeatures : List Feature := [
  .std, .test, .full, .base32, .base32Decoded, .base64, .base64Decoded, .base64Url,
  .base64UrlDecoded, .bit, .boolean, .byte, .domain, .email, .host, .httpUrl,
  .httpFtpUrl, .ip, .ipv4, .ipv6, .json, .length, .line, .macAddress,
  .number, .phone, .regex, .semver, .semverReq, .signedInteger, .text, .unsignedInteger,
  .url, .uuid, .serde, .rocket]

/-- The features that stand for a validator: `validators/Cargo.toml` L49-81, `validators-derive/src/supported_validators.rs` L1-33. -/
def validators : List Feature := [
  .base32, .base32Decoded, .base64, .base64Decoded, .base64Url, .base64UrlDecoded, .bit, .boolean,
  .byte, .domain, .email, .host, .httpUrl, .httpFtpUrl, .ip, .ipv4,
  .ipv6, .json, .length, .line, .macAddress, .number, .phone, .regex,
  .semver, .semverReq, .signedInteger, .text, .unsignedInteger, .url, .uuid]

/-- What code can name, and only exists under a condition. -/
inductive Item where
  /-- the standard library, seen from `validators`: `validators/src/lib.rs` L935. -/
  | std
  /-- the standard library and its prelude (`String`, `format!`), seen from the crate that derives. -/
  | userStd
  /-- the crate `validators-derive`: `validators/Cargo.toml` L16. -/
  | builtValidatorsDerive
  /-- the crate `data-encoding`: `validators/Cargo.toml` L18. -/
  | builtDataEncoding
  /-- the crate `idna`: `validators/Cargo.toml` L19. -/
  | builtIdna
  /-- the crate `byte-unit`: `validators/Cargo.toml` L20. -/
  | builtByteUnit
  /-- the crate `url-dep`: `validators/Cargo.toml` L21. -/
  | builtUrlDep
  /-- the crate `str-utils`: `validators/Cargo.toml` L22. -/
  | builtStrUtils
  /-- the crate `serde_json`: `validators/Cargo.toml` L23. -/
  | builtSerdeJson
  /-- the crate `phonenumber`: `validators/Cargo.toml` L24. -/
  | builtPhonenumber
  /-- the crate `regex-dep`: `validators/Cargo.toml` L25. -/
  | builtRegexDep
  /-- the crate `semver-dep`: `validators/Cargo.toml` L26. -/
  | builtSemverDep
  /-- the crate `serde`: `validators/Cargo.toml` L28. -/
  | builtSerde
  /-- the crate `rocket`: `validators/Cargo.toml` L29. -/
  | builtRocket
  /-- the crate `axum`: `validators/Cargo.toml` L30. -/
  | builtAxum
  /-- the crate `educe`, seen from `validators-derive`. -/
  | macroEduce
  /-- the crate `phonenumber`, seen from `validators-derive`. -/
  | macroPhonenumber
  /-- the crate `regex`, seen from `validators-derive`. -/
  | macroRegex
  /-- the part of `syn` behind its feature `full`. -/
  | synFull
  /-- external: byte_unit::Bit. -/
  | bitType
  /-- external: byte_unit::Byte. -/
  | byteType
  /-- external: `Serialize` and `Deserialize` for `byte_unit::Bit`. -/
  | bitSerde
  /-- external: `Serialize` and `Deserialize` for `byte_unit::Byte`. -/
  | byteSerde
  /-- external: `Serialize` for `url::Url`. -/
  | urlSerde
  /-- external: `Serialize` for `semver::Version` and `semver::VersionReq`. -/
  | semverSerde
  /-- external: `Serialize` for `std::collections::HashMap`. -/
  | mapSerde
  /-- `axum` at the root of `validators`: `validators/src/lib.rs` L941. -/
  | crateAxum
  /-- `byte_unit` at the root of `validators`: `validators/src/lib.rs` L943. -/
  | crateByteUnit
  /-- `data_encoding` at the root of `validators`: `validators/src/lib.rs` L946. -/
  | crateDataEncoding
  /-- `idna` at the root of `validators`: `validators/src/lib.rs` L948. -/
  | crateIdna
  /-- `phonenumber` at the root of `validators`: `validators/src/lib.rs` L950. -/
  | cratePhonenumber
  /-- `regex` at the root of `validators`: `validators/src/lib.rs` L952. -/
  | crateRegex
  /-- `rocket` at the root of `validators`: `validators/src/lib.rs` L954. -/
  | crateRocket
  /-- `semver` at the root of `validators`: `validators/src/lib.rs` L956. -/
  | crateSemver
  /-- `serde` at the root of `validators`: `validators/src/lib.rs` L958. -/
  | crateSerde
  /-- `serde_json` at the root of `validators`: `validators/src/lib.rs` L960. -/
  | crateSerdeJson
  /-- `str_utils` at the root of `validators`: `validators/src/lib.rs` L962. -/
  | crateStrUtils
  /-- `url` at the root of `validators`: `validators/src/lib.rs` L964. -/
  | crateUrl
  /-- `validators::Validator`: `validators/src/lib.rs` L982. -/
  | crateValidator
  /-- module `errors::axum_traits`: `validators/src/errors/mod.rs` L2. -/
  | modErrorsAxumTraits
  /-- module `errors::base32`: `validators/src/errors/mod.rs` L5. -/
  | modErrorsBase32
  /-- module `errors::base32_decoded`: `validators/src/errors/mod.rs` L10. -/
  | modErrorsBase32Decoded
  /-- module `errors::base64`: `validators/src/errors/mod.rs` L15. -/
  | modErrorsBase64
  /-- module `errors::base64_decoded`: `validators/src/errors/mod.rs` L20. -/
  | modErrorsBase64Decoded
  /-- module `errors::base64_url`: `validators/src/errors/mod.rs` L25. -/
  | modErrorsBase64Url
  /-- module `errors::base64_url_decoded`: `validators/src/errors/mod.rs` L30. -/
  | modErrorsBase64UrlDecoded
  /-- module `errors::bit`: `validators/src/errors/mod.rs` L35. -/
  | modErrorsBit
  /-- module `errors::boolean`: `validators/src/errors/mod.rs` L40. -/
  | modErrorsBoolean
  /-- module `errors::byte`: `validators/src/errors/mod.rs` L45. -/
  | modErrorsByte
  /-- module `errors::domain`: `validators/src/errors/mod.rs` L50. -/
  | modErrorsDomain
  /-- module `errors::email`: `validators/src/errors/mod.rs` L55. -/
  | modErrorsEmail
  /-- module `errors::host`: `validators/src/errors/mod.rs` L60. -/
  | modErrorsHost
  /-- module `errors::http_url`: `validators/src/errors/mod.rs` L65. -/
  | modErrorsHttpUrl
  /-- module `errors::http_ftp_url`: `validators/src/errors/mod.rs` L70. -/
  | modErrorsHttpFtpUrl
  /-- module `errors::ip`: `validators/src/errors/mod.rs` L75. -/
  | modErrorsIp
  /-- module `errors::ipv4`: `validators/src/errors/mod.rs` L80. -/
  | modErrorsIpv4
  /-- module `errors::ipv6`: `validators/src/errors/mod.rs` L85. -/
  | modErrorsIpv6
  /-- module `errors::json`: `validators/src/errors/mod.rs` L90. -/
  | modErrorsJson
  /-- module `errors::length`: `validators/src/errors/mod.rs` L95. -/
  | modErrorsLength
  /-- module `errors::line`: `validators/src/errors/mod.rs` L100. -/
  | modErrorsLine
  /-- module `errors::mac_address`: `validators/src/errors/mod.rs` L105. -/
  | modErrorsMacAddress
  /-- module `errors::number`: `validators/src/errors/mod.rs` L110. -/
  | modErrorsNumber
  /-- module `errors::phone`: `validators/src/errors/mod.rs` L115. -/
  | modErrorsPhone
  /-- module `errors::regex`: `validators/src/errors/mod.rs` L120. -/
  | modErrorsRegex
  /-- module `errors::semver`: `validators/src/errors/mod.rs` L125. -/
  | modErrorsSemver
  /-- module `errors::signed_integer`: `validators/src/errors/mod.rs` L130. -/
  | modErrorsSignedInteger
  /-- module `errors::text`: `validators/src/errors/mod.rs` L135. -/
  | modErrorsText
  /-- module `errors::unsigned_integer`: `validators/src/errors/mod.rs` L140. -/
  | modErrorsUnsignedInteger
  /-- module `errors::url`: `validators/src/errors/mod.rs` L145. -/
  | modErrorsUrl
  /-- module `errors::uuid`: `validators/src/errors/mod.rs` L150. -/
  | modErrorsUuid
  /-- `Base32Error`: `validators/src/errors/base32.rs` L5, exported by `errors/mod.rs` L7. -/
  | errorBase32Error
  /-- `Base32DecodedError`: `validators/src/errors/base32_decoded.rs` L5, exported by `errors/mod.rs` L12. -/
  | errorBase32DecodedError
  /-- `Base64Error`: `validators/src/errors/base64.rs` L5, exported by `errors/mod.rs` L17. -/
  | errorBase64Error
  /-- `Base64DecodedError`: `validators/src/errors/base64_decoded.rs` L5, exported by `errors/mod.rs` L22. -/
  | errorBase64DecodedError
  /-- `Base64UrlError`: `validators/src/errors/base64_url.rs` L5, exported by `errors/mod.rs` L27. -/
  | errorBase64UrlError
  /-- `Base64UrlDecodedError`: `validators/src/errors/base64_url_decoded.rs` L5, exported by `errors/mod.rs` L32. -/
  | errorBase64UrlDecodedError
  /-- `BitError`: `validators/src/errors/bit.rs` L7, exported by `errors/mod.rs` L37. -/
  | errorBitError
  /-- `BooleanError`: `validators/src/errors/boolean.rs` L5, exported by `errors/mod.rs` L42. -/
  | errorBooleanError
  /-- `ByteError`: `validators/src/errors/byte.rs` L7, exported by `errors/mod.rs` L47. -/
  | errorByteError
  /-- `DomainError`: `validators/src/errors/domain.rs` L5, exported by `errors/mod.rs` L52. -/
  | errorDomainError
  /-- `EmailError`: `validators/src/errors/email.rs` L5, exported by `errors/mod.rs` L57. -/
  | errorEmailError
  /-- `HostError`: `validators/src/errors/host.rs` L5, exported by `errors/mod.rs` L62. -/
  | errorHostError
  /-- `HttpURLError`: `validators/src/errors/http_url.rs` L7, exported by `errors/mod.rs` L67. -/
  | errorHttpURLError
  /-- `HttpFtpURLError`: `validators/src/errors/http_ftp_url.rs` L7, exported by `errors/mod.rs` L72. -/
  | errorHttpFtpURLError
  /-- `IpError`: `validators/src/errors/ip.rs` L5, exported by `errors/mod.rs` L77. -/
  | errorIpError
  /-- `Ipv4Error`: `validators/src/errors/ipv4.rs` L5, exported by `errors/mod.rs` L82. -/
  | errorIpv4Error
  /-- `Ipv6Error`: `validators/src/errors/ipv6.rs` L5, exported by `errors/mod.rs` L87. -/
  | errorIpv6Error
  /-- `JsonError`: `validators/src/errors/json.rs` L5, exported by `errors/mod.rs` L92. -/
  | errorJsonError
  /-- `LengthError`: `validators/src/errors/length.rs` L5, exported by `errors/mod.rs` L97. -/
  | errorLengthError
  /-- `LineError`: `validators/src/errors/line.rs` L5, exported by `errors/mod.rs` L102. -/
  | errorLineError
  /-- `MacAddressError`: `validators/src/errors/mac_address.rs` L5, exported by `errors/mod.rs` L107. -/
  | errorMacAddressError
  /-- `NumberError`: `validators/src/errors/number.rs` L8, exported by `errors/mod.rs` L112. -/
  | errorNumberError
  /-- `PhoneError`: `validators/src/errors/phone.rs` L7, exported by `errors/mod.rs` L117. -/
  | errorPhoneError
  /-- `RegexError`: `validators/src/errors/regex.rs` L5, exported by `errors/mod.rs` L122. -/
  | errorRegexError
  /-- `SemverError`: `validators/src/errors/semver.rs` L5, exported by `errors/mod.rs` L127. -/
  | errorSemverError
  /-- `SignedIntegerError`: `validators/src/errors/signed_integer.rs` L8, exported by `errors/mod.rs` L132. -/
  | errorSignedIntegerError
  /-- `TextError`: `validators/src/errors/text.rs` L5, exported by `errors/mod.rs` L137. -/
  | errorTextError
  /-- `UnsignedIntegerError`: `validators/src/errors/unsigned_integer.rs` L8, exported by `errors/mod.rs` L142. -/
  | errorUnsignedIntegerError
  /-- `UrlError`: `validators/src/errors/url.rs` L7, exported by `errors/mod.rs` L147. -/
  | errorUrlError
  /-- `UuidError`: `validators/src/errors/uuid.rs` L5, exported by `errors/mod.rs` L152. -/
  | errorUuidError
  /-- module `functions::ipv4`: `validators/src/functions/mod.rs` L11. -/
  | modFunctionsIpv4
  /-- module `functions::ipv6`: `validators/src/functions/mod.rs` L32. -/
  | modFunctionsIpv6
  /-- module `functions::ip`: `validators/src/functions/mod.rs` L44. -/
  | modFunctionsIp
  /-- module `functions::domain`: `validators/src/functions/mod.rs` L55. -/
  | modFunctionsDomain
  /-- `is_local_ipv4`: `validators/src/functions/ipv4.rs` L6, exported by `functions/mod.rs` L22. -/
  | functionIsLocalIpv4
  /-- `parse_ipv4_allow_an_ended_dot`: `validators/src/functions/ipv4.rs` L17, exported by `functions/mod.rs` L22. -/
  | functionParseIpv4AllowAnEndedDot
  /-- `is_local_ipv6`: `validators/src/functions/ipv6.rs` L7, exported by `functions/mod.rs` L41. -/
  | functionIsLocalIpv6
  /-- `is_local_ip`: `validators/src/functions/ip.rs` L7, exported by `functions/mod.rs` L46. -/
  | functionIsLocalIp
  /-- `is_local_domain`: `validators/src/functions/domain.rs` L3, exported by `functions/mod.rs` L63. -/
  | functionIsLocalDomain
  /-- `is_at_least_two_labels_domain`: `validators/src/functions/domain.rs` L11, exported by `functions/mod.rs` L63. -/
  | functionIsAtLeastTwoLabelsDomain
  /-- module `models::host`: `validators/src/models/mod.rs` L2. -/
  | modModelsHost
  /-- module `models::protocol`: `validators/src/models/mod.rs` L7. -/
  | modModelsProtocol
  /-- `Host`: `validators/src/models/host.rs` L7, exported by `models/mod.rs` L4. -/
  | modelHost
  /-- `Protocol`: `validators/src/models/protocol.rs` L2, exported by `models/mod.rs` L9. -/
  | modelProtocol
  /-- module `traits::validate_json_value`: `validators/src/traits/mod.rs` L22. -/
  | modTraitsValidateJsonValue
  /-- module `traits::qualify_domain`: `validators/src/traits/mod.rs` L27. -/
  | modTraitsQualifyDomain
  /-- module `traits::to_uri_authority_string`: `validators/src/traits/mod.rs` L38. -/
  | modTraitsToUriAuthorityString
  /-- module `traits::to_email_string`: `validators/src/traits/mod.rs` L49. -/
  | modTraitsToEmailString
  /-- module `traits::to_json_string`: `validators/src/traits/mod.rs` L54. -/
  | modTraitsToJsonString
  /-- module `traits::to_mac_address_string`: `validators/src/traits/mod.rs` L59. -/
  | modTraitsToMacAddressString
  /-- module `traits::to_uuid_string`: `validators/src/traits/mod.rs` L64. -/
  | modTraitsToUuidString
  /-- `ValidateJsonValue`: `validators/src/traits/validate_json_value.rs` L4, exported by `traits/mod.rs` L24. -/
  | traitValidateJsonValue
  /-- `QualifyDomain`: `validators/src/traits/qualify_domain.rs` L2, exported by `traits/mod.rs` L29. -/
  | traitQualifyDomain
  /-- `ToUriAuthorityString`: `validators/src/traits/to_uri_authority_string.rs` L4, exported by `traits/mod.rs` L46. -/
  | traitToUriAuthorityString
  /-- `ToEmailString`: `validators/src/traits/to_email_string.rs` L4, exported by `traits/mod.rs` L51. -/
  | traitToEmailString
  /-- `ToJsonString`: `validators/src/traits/to_json_string.rs` L4, exported by `traits/mod.rs` L56. -/
  | traitToJsonString
  /-- `ToMacAddressString`: `validators/src/traits/to_mac_address_string.rs` L4, exported by `traits/mod.rs` L61. -/
  | traitToMacAddressString
  /-- `ToUuidString`: `validators/src/traits/to_uuid_string.rs` L4, exported by `traits/mod.rs` L66. -/
  | traitToUuidString
  /-- module `test::case_option`: `validators/src/test/mod.rs` L1. -/
  | modTestCaseOption
  /-- module `test::range_option`: `validators/src/test/mod.rs` L2. -/
  | modTestRangeOption
  /-- module `test::separator_option`: `validators/src/test/mod.rs` L3. -/
  | modTestSeparatorOption
  /-- module `test::tri_allow`: `validators/src/test/mod.rs` L4. -/
  | modTestTriAllow
  /-- `CaseOption`: `validators/src/test/case_option.rs` L2, exported by `test/mod.rs` L6. -/
  | testCaseOption
  /-- `RangeOption`: `validators/src/test/range_option.rs` L2, exported by `test/mod.rs` L7. -/
  | testRangeOption
  /-- `SeparatorOption`: `validators/src/test/separator_option.rs` L2, exported by `test/mod.rs` L8. -/
  | testSeparatorOption
  /-- `TriAllow`: `validators/src/test/tri_allow.rs` L2, exported by `test/mod.rs` L9. -/
  | testTriAllow
  /-- `validators_prelude::byte_unit`: `validators/src/lib.rs` L997. -/
  | preludeByteUnit
  /-- `validators_prelude::data_encoding`: `validators/src/lib.rs` L999. -/
  | preludeDataEncoding
  /-- `validators_prelude::idna`: `validators/src/lib.rs` L1002. -/
  | preludeIdna
  /-- `validators_prelude::phonenumber`: `validators/src/lib.rs` L1004. -/
  | preludePhonenumber
  /-- `validators_prelude::regex`: `validators/src/lib.rs` L1006. -/
  | preludeRegex
  /-- `validators_prelude::rocket`: `validators/src/lib.rs` L1008. -/
  | preludeRocket
  /-- `validators_prelude::semver`: `validators/src/lib.rs` L1010. -/
  | preludeSemver
  /-- `validators_prelude::serde`: `validators/src/lib.rs` L1012. -/
  | preludeSerde
  /-- `validators_prelude::serde_json`: `validators/src/lib.rs` L1014. -/
  | preludeSerdeJson
  /-- `validators_prelude::str_utils`: `validators/src/lib.rs` L1016. -/
  | preludeStrUtils
  /-- `validators_prelude::url`: `validators/src/lib.rs` L1020. -/
  | preludeUrl
  /-- module `allow` of `validators-derive`: `validators-derive/src/common/mod.rs` L21. -/
  | macroModAllow
  /-- module `boolean` of `validators-derive`: `validators-derive/src/common/mod.rs` L31. -/
  | macroModBoolean
  /-- module `case_option` of `validators-derive`: `validators-derive/src/common/mod.rs` L34. -/
  | macroModCaseOption
  /-- module `length` of `validators-derive`: `validators-derive/src/common/mod.rs` L37. -/
  | macroModLength
  /-- module `number` of `validators-derive`: `validators-derive/src/common/mod.rs` L50. -/
  | macroModNumber
  /-- module `range` of `validators-derive`: `validators-derive/src/common/mod.rs` L60. -/
  | macroModRange
  /-- module `range_option` of `validators-derive`: `validators-derive/src/common/mod.rs` L68. -/
  | macroModRangeOption
  /-- module `separator_option` of `validators-derive`: `validators-derive/src/common/mod.rs` L71. -/
  | macroModSeparatorOption
  /-- module `tri_allow` of `validators-derive`: `validators-derive/src/common/mod.rs` L93. -/
  | macroModTriAllow
  /-- module `rocket` of `validators-derive`: `validators-derive/src/common/mod.rs` L97. -/
  | macroModRocket
  /-- module `test` of `validators-derive`: `validators-derive/src/common/mod.rs` L100. -/
  | macroModTest
  /-- module `base_xx_attribute` of `validators-derive`: `validators-derive/src/common/attributes/mod.rs` L9. -/
  | macroModBaseXxAttribute
  /-- module `basic_attribute` of `validators-derive`: `validators-derive/src/common/attributes/mod.rs` L17. -/
  | macroModBasicAttribute
  /-- module `http_xx_url_attribute` of `validators-derive`: `validators-derive/src/common/attributes/mod.rs` L19. -/
  | macroModHttpXxUrlAttribute
  /-- module `ip_xx_attribute` of `validators-derive`: `validators-derive/src/common/attributes/mod.rs` L21. -/
  | macroModIpXxAttribute
  /-- module `range_attribute` of `validators-derive`: `validators-derive/src/common/attributes/mod.rs` L23. -/
  | macroModRangeAttribute
  /-- module `utf8_attribute` of `validators-derive`: `validators-derive/src/common/attributes/mod.rs` L25. -/
  | macroModUtf8Attribute
  /-- module `base32` of `validators-derive`: `validators-derive/src/validator_handlers/mod.rs` L4. -/
  | macroHandlerBase32
  /-- module `base32_decoded` of `validators-derive`: `validators-derive/src/validator_handlers/mod.rs` L7. -/
  | macroHandlerBase32Decoded
  /-- module `base64` of `validators-derive`: `validators-derive/src/validator_handlers/mod.rs` L10. -/
  | macroHandlerBase64
  /-- module `base64_decoded` of `validators-derive`: `validators-derive/src/validator_handlers/mod.rs` L13. -/
  | macroHandlerBase64Decoded
  /-- module `base64_url` of `validators-derive`: `validators-derive/src/validator_handlers/mod.rs` L16. -/
  | macroHandlerBase64Url
  /-- module `base64_url_decoded` of `validators-derive`: `validators-derive/src/validator_handlers/mod.rs` L19. -/
  | macroHandlerBase64UrlDecoded
  /-- module `bit` of `validators-derive`: `validators-derive/src/validator_handlers/mod.rs` L22. -/
  | macroHandlerBit
  /-- module `boolean` of `validators-derive`: `validators-derive/src/validator_handlers/mod.rs` L25. -/
  | macroHandlerBoolean
  /-- module `byte` of `validators-derive`: `validators-derive/src/validator_handlers/mod.rs` L28. -/
  | macroHandlerByte
  /-- module `domain` of `validators-derive`: `validators-derive/src/validator_handlers/mod.rs` L31. -/
  | macroHandlerDomain
  /-- module `email` of `validators-derive`: `validators-derive/src/validator_handlers/mod.rs` L34. -/
  | macroHandlerEmail
  /-- module `host` of `validators-derive`: `validators-derive/src/validator_handlers/mod.rs` L37. -/
  | macroHandlerHost
  /-- module `http_url` of `validators-derive`: `validators-derive/src/validator_handlers/mod.rs` L40. -/
  | macroHandlerHttpUrl
  /-- module `http_ftp_url` of `validators-derive`: `validators-derive/src/validator_handlers/mod.rs` L43. -/
  | macroHandlerHttpFtpUrl
  /-- module `ip` of `validators-derive`: `validators-derive/src/validator_handlers/mod.rs` L46. -/
  | macroHandlerIp
  /-- module `ipv4` of `validators-derive`: `validators-derive/src/validator_handlers/mod.rs` L49. -/
  | macroHandlerIpv4
  /-- module `ipv6` of `validators-derive`: `validators-derive/src/validator_handlers/mod.rs` L52. -/
  | macroHandlerIpv6
  /-- module `json` of `validators-derive`: `validators-derive/src/validator_handlers/mod.rs` L55. -/
  | macroHandlerJson
  /-- module `length` of `validators-derive`: `validators-derive/src/validator_handlers/mod.rs` L58. -/
  | macroHandlerLength
  /-- module `line` of `validators-derive`: `validators-derive/src/validator_handlers/mod.rs` L61. -/
  | macroHandlerLine
  /-- module `mac_address` of `validators-derive`: `validators-derive/src/validator_handlers/mod.rs` L64. -/
  | macroHandlerMacAddress
  /-- module `number` of `validators-derive`: `validators-derive/src/validator_handlers/mod.rs` L67. -/
  | macroHandlerNumber
  /-- module `phone` of `validators-derive`: `validators-derive/src/validator_handlers/mod.rs` L70. -/
  | macroHandlerPhone
  /-- module `regex` of `validators-derive`: `validators-derive/src/validator_handlers/mod.rs` L73. -/
  | macroHandlerRegex
  /-- module `semver` of `validators-derive`: `validators-derive/src/validator_handlers/mod.rs` L76. -/
  | macroHandlerSemver
  /-- module `semver_req` of `validators-derive`: `validators-derive/src/validator_handlers/mod.rs` L79. -/
  | macroHandlerSemverReq
  /-- module `signed_integer` of `validators-derive`: `validators-derive/src/validator_handlers/mod.rs` L82. -/
  | macroHandlerSignedInteger
  /-- module `text` of `validators-derive`: `validators-derive/src/validator_handlers/mod.rs` L85. -/
  | macroHandlerText
  /-- module `unsigned_integer` of `validators-derive`: `validators-derive/src/validator_handlers/mod.rs` L88. -/
  | macroHandlerUnsignedInteger
  /-- module `url` of `validators-derive`: `validators-derive/src/validator_handlers/mod.rs` L91. -/
  | macroHandlerUrl
  /-- module `uuid` of `validators-derive`: `validators-derive/src/validator_handlers/mod.rs` L94. -/
  | macroHandlerUuid
  /-- `Validator::base32`: `validators-derive/src/supported_validators.rs` L45. -/
  | macroVariantBase32
  /-- `Validator::base32_decoded`: `validators-derive/src/supported_validators.rs` L47. -/
  | macroVariantBase32Decoded
  /-- `Validator::base64`: `validators-derive/src/supported_validators.rs` L49. -/
  | macroVariantBase64
  /-- `Validator::base64_decoded`: `validators-derive/src/supported_validators.rs` L51. -/
  | macroVariantBase64Decoded
  /-- `Validator::base64_url`: `validators-derive/src/supported_validators.rs` L53. -/
  | macroVariantBase64Url
  /-- `Validator::base64_url_decoded`: `validators-derive/src/supported_validators.rs` L55. -/
  | macroVariantBase64UrlDecoded
  /-- `Validator::bit`: `validators-derive/src/supported_validators.rs` L57. -/
  | macroVariantBit
  /-- `Validator::boolean`: `validators-derive/src/supported_validators.rs` L59. -/
  | macroVariantBoolean
  /-- `Validator::byte`: `validators-derive/src/supported_validators.rs` L61. -/
  | macroVariantByte
  /-- `Validator::domain`: `validators-derive/src/supported_validators.rs` L63. -/
  | macroVariantDomain
  /-- `Validator::email`: `validators-derive/src/supported_validators.rs` L65. -/
  | macroVariantEmail
  /-- `Validator::host`: `validators-derive/src/supported_validators.rs` L67. -/
  | macroVariantHost
  /-- `Validator::http_url`: `validators-derive/src/supported_validators.rs` L69. -/
  | macroVariantHttpUrl
  /-- `Validator::http_ftp_url`: `validators-derive/src/supported_validators.rs` L71. -/
  | macroVariantHttpFtpUrl
  /-- `Validator::ip`: `validators-derive/src/supported_validators.rs` L73. -/
  | macroVariantIp
  /-- `Validator::ipv4`: `validators-derive/src/supported_validators.rs` L75. -/
  | macroVariantIpv4
  /-- `Validator::ipv6`: `validators-derive/src/supported_validators.rs` L77. -/
  | macroVariantIpv6
  /-- `Validator::json`: `validators-derive/src/supported_validators.rs` L79. -/
  | macroVariantJson
  /-- `Validator::length`: `validators-derive/src/supported_validators.rs` L81. -/
  | macroVariantLength
  /-- `Validator::line`: `validators-derive/src/supported_validators.rs` L83. -/
  | macroVariantLine
  /-- `Validator::mac_address`: `validators-derive/src/supported_validators.rs` L85. -/
  | macroVariantMacAddress
  /-- `Validator::number`: `validators-derive/src/supported_validators.rs` L87. -/
  | macroVariantNumber
  /-- `Validator::phone`: `validators-derive/src/supported_validators.rs` L89. -/
  | macroVariantPhone
  /-- `Validator::regex`: `validators-derive/src/supported_validators.rs` L91. -/
  | macroVariantRegex
  /-- `Validator::semver`: `validators-derive/src/supported_validators.rs` L93. -/
  | macroVariantSemver
  /-- `Validator::semver_req`: `validators-derive/src/supported_validators.rs` L95. -/
  | macroVariantSemverReq
  /-- `Validator::signed_integer`: `validators-derive/src/supported_validators.rs` L97. -/
  | macroVariantSignedInteger
  /-- `Validator::text`: `validators-derive/src/supported_validators.rs` L99. -/
  | macroVariantText
  /-- `Validator::unsigned_integer`: `validators-derive/src/supported_validators.rs` L101. -/
  | macroVariantUnsignedInteger
  /-- `Validator::url`: `validators-derive/src/supported_validators.rs` L103. -/
  | macroVariantUrl
  /-- `Validator::uuid`: `validators-derive/src/supported_validators.rs` L105. -/
  | macroVariantUuid
  deriving DecidableEq, Repr

/-- Where each of them exists: the `cfg` of its definition, and for the parts of other crates the feature those crates put them
behind (an assumption on these crates). -/
def existsWhen : Item → Cond
  | .std => [[.feature .std]]
  | .userStd => [[.userStd]]
  | .builtValidatorsDerive => [[.dep .validatorsDerive]]
  | .builtDataEncoding => [[.dep .dataEncoding]]
  | .builtIdna => [[.dep .idna]]
  | .builtByteUnit => [[.dep .byteUnit]]
  | .builtUrlDep => [[.dep .urlDep]]
  | .builtStrUtils => [[.dep .strUtils]]
  | .builtSerdeJson => [[.dep .serdeJson]]
  | .builtPhonenumber => [[.dep .phonenumber]]
  | .builtRegexDep => [[.dep .regexDep]]
  | .builtSemverDep => [[.dep .semverDep]]
  | .builtSerde => [[.dep .serde]]
  | .builtRocket => [[.dep .rocket]]
  | .builtAxum => [[.dep .axum]]
  | .macroEduce => [[.macroDep .educe]]
  | .macroPhonenumber => [[.macroDep .phonenumber]]
  | .macroRegex => [[.macroDep .regex]]
  | .synFull => [[.synFull]]
  | .bitType => [[.depFeature .byteUnit .bit]]
  | .byteType => [[.depFeature .byteUnit .byte]]
  | .bitSerde => [[.depFeature .byteUnit .bit, .depFeature .byteUnit .serde]]
  | .byteSerde => [[.depFeature .byteUnit .byte, .depFeature .byteUnit .serde]]
  | .urlSerde => [[.depFeature .urlDep .serde]]
  | .semverSerde => [[.depFeature .semverDep .serde]]
  | .mapSerde => [[.depFeature .serde .std]]
  | .crateAxum => [[.feature .axum]]
  | .crateByteUnit => [[.feature .byteUnit]]
  | .crateDataEncoding => [[.feature .dataEncoding]]
  | .crateIdna => [[.feature .idna]]
  | .cratePhonenumber => [[.feature .phonenumber]]
  | .crateRegex => [[.feature .regexDep]]
  | .crateRocket => [[.feature .rocket]]
  | .crateSemver => [[.feature .semverDep]]
  | .crateSerde => [[.feature .serde]]
  | .crateSerdeJson => [[.feature .serdeJson]]
  | .crateStrUtils => [[.feature .strUtils]]
  | .crateUrl => [[.feature .urlDep]]
  | .crateValidator => [[.feature .derive]]
  | .modErrorsAxumTraits => [[.feature .axum]]
  | .modErrorsBase32 => [[.feature .base32]]
  | .modErrorsBase32Decoded => [[.feature .base32Decoded]]
  | .modErrorsBase64 => [[.feature .base64]]
  | .modErrorsBase64Decoded => [[.feature .base64Decoded]]
  | .modErrorsBase64Url => [[.feature .base64Url]]
  | .modErrorsBase64UrlDecoded => [[.feature .base64UrlDecoded]]
  | .modErrorsBit => [[.feature .bit]]
  | .modErrorsBoolean => [[.feature .boolean]]
  | .modErrorsByte => [[.feature .byte]]
  | .modErrorsDomain => [[.feature .domain]]
  | .modErrorsEmail => [[.feature .email]]
  | .modErrorsHost => [[.feature .host]]
  | .modErrorsHttpUrl => [[.feature .httpUrl]]
  | .modErrorsHttpFtpUrl => [[.feature .httpFtpUrl]]
  | .modErrorsIp => [[.feature .ip]]
  | .modErrorsIpv4 => [[.feature .ipv4]]
  | .modErrorsIpv6 => [[.feature .ipv6]]
  | .modErrorsJson => [[.feature .json]]
  | .modErrorsLength => [[.feature .length]]
  | .modErrorsLine => [[.feature .line]]
  | .modErrorsMacAddress => [[.feature .macAddress]]
  | .modErrorsNumber => [[.feature .number]]
  | .modErrorsPhone => [[.feature .phone]]
  | .modErrorsRegex => [[.feature .regex]]
  | .modErrorsSemver => [[.feature .semver], [.feature .semverReq]]
  | .modErrorsSignedInteger => [[.feature .signedInteger]]
  | .modErrorsText => [[.feature .text]]
  | .modErrorsUnsignedInteger => [[.feature .unsignedInteger]]
  | .modErrorsUrl => [[.feature .url]]
  | .modErrorsUuid => [[.feature .uuid]]
  | .errorBase32Error => [[.feature .base32]]
  | .errorBase32DecodedError => [[.feature .base32Decoded]]
  | .errorBase64Error => [[.feature .base64]]
  | .errorBase64DecodedError => [[.feature .base64Decoded]]
  | .errorBase64UrlError => [[.feature .base64Url]]
  | .errorBase64UrlDecodedError => [[.feature .base64UrlDecoded]]
  | .errorBitError => [[.feature .bit]]
  | .errorBooleanError => [[.feature .boolean]]
  | .errorByteError => [[.feature .byte]]
  | .errorDomainError => [[.feature .domain]]
  | .errorEmailError => [[.feature .email]]
  | .errorHostError => [[.feature .host]]
  | .errorHttpURLError => [[.feature .httpUrl]]
  | .errorHttpFtpURLError => [[.feature .httpFtpUrl]]
  | .errorIpError => [[.feature .ip]]
  | .errorIpv4Error => [[.feature .ipv4]]
  | .errorIpv6Error => [[.feature .ipv6]]
  | .errorJsonError => [[.feature .json]]
  | .errorLengthError => [[.feature .length]]
  | .errorLineError => [[.feature .line]]
  | .errorMacAddressError => [[.feature .macAddress]]
  | .errorNumberError => [[.feature .number]]
  | .errorPhoneError => [[.feature .phone]]
  | .errorRegexError => [[.feature .regex]]
  | .errorSemverError => [[.feature .semver], [.feature .semverReq]]
  | .errorSignedIntegerError => [[.feature .signedInteger]]
  | .errorTextError => [[.feature .text]]
  | .errorUnsignedIntegerError => [[.feature .unsignedInteger]]
  | .errorUrlError => [[.feature .url]]
  | .errorUuidError => [[.feature .uuid]]
  | .modFunctionsIpv4 =>
    [[.feature .domain], [.feature .email], [.feature .host], [.feature .httpUrl], [.feature .httpFtpUrl], [.feature .ip],
     [.feature .ipv4], [.feature .ipv6]]
  | .modFunctionsIpv6 =>
    [[.feature .email], [.feature .host], [.feature .httpUrl], [.feature .httpFtpUrl], [.feature .ip], [.feature .ipv6]]
  | .modFunctionsIp => [[.feature .ip]]
  | .modFunctionsDomain =>
    [[.feature .domain], [.feature .email], [.feature .host], [.feature .httpUrl], [.feature .httpFtpUrl]]
  | .functionIsLocalIpv4 =>
    [[.feature .domain], [.feature .email], [.feature .host], [.feature .httpUrl], [.feature .httpFtpUrl], [.feature .ip],
     [.feature .ipv4], [.feature .ipv6]]
  | .functionParseIpv4AllowAnEndedDot =>
    [[.feature .domain], [.feature .email], [.feature .host], [.feature .httpUrl], [.feature .httpFtpUrl], [.feature .ip],
     [.feature .ipv4], [.feature .ipv6]]
  | .functionIsLocalIpv6 =>
    [[.feature .email], [.feature .host], [.feature .httpUrl], [.feature .httpFtpUrl], [.feature .ip], [.feature .ipv6]]
  | .functionIsLocalIp => [[.feature .ip]]
  | .functionIsLocalDomain =>
    [[.feature .domain], [.feature .email], [.feature .host], [.feature .httpUrl], [.feature .httpFtpUrl]]
  | .functionIsAtLeastTwoLabelsDomain =>
    [[.feature .domain], [.feature .email], [.feature .host], [.feature .httpUrl], [.feature .httpFtpUrl]]
  | .modModelsHost => [[.feature .email], [.feature .host]]
  | .modModelsProtocol => [[.feature .httpFtpUrl]]
  | .modelHost => [[.feature .email], [.feature .host]]
  | .modelProtocol => [[.feature .httpFtpUrl]]
  | .modTraitsValidateJsonValue => [[.feature .serdeJson]]
  | .modTraitsQualifyDomain => [[.feature .domain]]
  | .modTraitsToUriAuthorityString => [[.feature .domain], [.feature .host], [.feature .ip], [.feature .ipv4], [.feature .ipv6]]
  | .modTraitsToEmailString => [[.feature .email]]
  | .modTraitsToJsonString => [[.feature .json]]
  | .modTraitsToMacAddressString => [[.feature .macAddress]]
  | .modTraitsToUuidString => [[.feature .uuid]]
  | .traitValidateJsonValue => [[.feature .serdeJson]]
  | .traitQualifyDomain => [[.feature .domain]]
  | .traitToUriAuthorityString => [[.feature .domain], [.feature .host], [.feature .ip], [.feature .ipv4], [.feature .ipv6]]
  | .traitToEmailString => [[.feature .email]]
  | .traitToJsonString => [[.feature .json]]
  | .traitToMacAddressString => [[.feature .macAddress]]
  | .traitToUuidString => [[.feature .uuid]]
  | .modTestCaseOption => [[.feature .test]]
  | .modTestRangeOption => [[.feature .test]]
  | .modTestSeparatorOption => [[.feature .test]]
  | .modTestTriAllow => [[.feature .test]]
  | .testCaseOption => [[.feature .test]]
  | .testRangeOption => [[.feature .test]]
  | .testSeparatorOption => [[.feature .test]]
  | .testTriAllow => [[.feature .test]]
  | .preludeByteUnit => [[.feature .byteUnit]]
  | .preludeDataEncoding => [[.feature .dataEncoding]]
  | .preludeIdna => [[.feature .idna]]
  | .preludePhonenumber => [[.feature .phonenumber]]
  | .preludeRegex => [[.feature .regex]]
  | .preludeRocket => [[.feature .rocket]]
  | .preludeSemver => [[.feature .semverDep]]
  | .preludeSerde => [[.feature .serde]]
  | .preludeSerdeJson => [[.feature .serdeJson]]
  | .preludeStrUtils => [[.feature .strUtils]]
  | .preludeUrl => [[.feature .url]]
  | .macroModAllow =>
    [[.derived .test], [.derived .domain], [.derived .email], [.derived .number], [.derived .signedInteger],
     [.derived .unsignedInteger]]
  | .macroModBoolean =>
    [[.derived .test], [.derived .bit], [.derived .byte], [.derived .number], [.derived .signedInteger],
     [.derived .unsignedInteger]]
  | .macroModCaseOption => [[.derived .test], [.derived .macAddress], [.derived .uuid]]
  | .macroModLength => [[.derived .line], [.derived .text]]
  | .macroModNumber =>
    [[.derived .test], [.derived .bit], [.derived .byte], [.derived .length], [.derived .line], [.derived .number],
     [.derived .signedInteger], [.derived .unsignedInteger], [.derived .text]]
  | .macroModRange =>
    [[.derived .test], [.derived .bit], [.derived .byte], [.derived .number], [.derived .signedInteger],
     [.derived .unsignedInteger]]
  | .macroModRangeOption => [[.derived .test], [.derived .number], [.derived .signedInteger], [.derived .unsignedInteger]]
  | .macroModSeparatorOption => [[.derived .test], [.derived .macAddress], [.derived .uuid]]
  | .macroModTriAllow =>
    [[.derived .test], [.derived .base32], [.derived .base32Decoded], [.derived .base64], [.derived .base64Decoded],
     [.derived .base64Url], [.derived .base64UrlDecoded], [.derived .domain], [.derived .email], [.derived .host],
     [.derived .httpUrl], [.derived .httpFtpUrl], [.derived .ip], [.derived .ipv4], [.derived .ipv6], [.derived .number],
     [.derived .signedInteger], [.derived .unsignedInteger]]
  | .macroModRocket => [[.derived .rocket]]
  | .macroModTest => [[.derived .test]]
  | .macroModBaseXxAttribute =>
    [[.derived .base32], [.derived .base32Decoded], [.derived .base64], [.derived .base64Decoded], [.derived .base64Url],
     [.derived .base64UrlDecoded]]
  | .macroModBasicAttribute => [[.derived .boolean], [.derived .json], [.derived .semver], [.derived .semverReq], [.derived .url]]
  | .macroModHttpXxUrlAttribute => [[.derived .httpUrl], [.derived .httpFtpUrl]]
  | .macroModIpXxAttribute => [[.derived .ip], [.derived .ipv4], [.derived .ipv6]]
  | .macroModRangeAttribute => [[.derived .signedInteger], [.derived .unsignedInteger]]
  | .macroModUtf8Attribute => [[.derived .line], [.derived .text]]
  | .macroHandlerBase32 => [[.derived .base32]]
  | .macroHandlerBase32Decoded => [[.derived .base32Decoded]]
  | .macroHandlerBase64 => [[.derived .base64]]
  | .macroHandlerBase64Decoded => [[.derived .base64Decoded]]
  | .macroHandlerBase64Url => [[.derived .base64Url]]
  | .macroHandlerBase64UrlDecoded => [[.derived .base64UrlDecoded]]
  | .macroHandlerBit => [[.derived .bit]]
  | .macroHandlerBoolean => [[.derived .boolean]]
  | .macroHandlerByte => [[.derived .byte]]
  | .macroHandlerDomain => [[.derived .domain]]
  | .macroHandlerEmail => [[.derived .email]]
  | .macroHandlerHost => [[.derived .host]]
  | .macroHandlerHttpUrl => [[.derived .httpUrl]]
  | .macroHandlerHttpFtpUrl => [[.derived .httpFtpUrl]]
  | .macroHandlerIp => [[.derived .ip]]
  | .macroHandlerIpv4 => [[.derived .ipv4]]
  | .macroHandlerIpv6 => [[.derived .ipv6]]
  | .macroHandlerJson => [[.derived .json]]
  | .macroHandlerLength => [[.derived .length]]
  | .macroHandlerLine => [[.derived .line]]
  | .macroHandlerMacAddress => [[.derived .macAddress]]
  | .macroHandlerNumber => [[.derived .number]]
  | .macroHandlerPhone => [[.derived .phone]]
  | .macroHandlerRegex => [[.derived .regex]]
  | .macroHandlerSemver => [[.derived .semver]]
  | .macroHandlerSemverReq => [[.derived .semverReq]]
  | .macroHandlerSignedInteger => [[.derived .signedInteger]]
  | .macroHandlerText => [[.derived .text]]
  | .macroHandlerUnsignedInteger => [[.derived .unsignedInteger]]
  | .macroHandlerUrl => [[.derived .url]]
  | .macroHandlerUuid => [[.derived .uuid]]
  | .macroVariantBase32 => [[.derived .base32]]
  | .macroVariantBase32Decoded => [[.derived .base32Decoded]]
  | .macroVariantBase64 => [[.derived .base64]]
  | .macroVariantBase64Decoded => [[.derived .base64Decoded]]
  | .macroVariantBase64Url => [[.derived .base64Url]]
  | .macroVariantBase64UrlDecoded => [[.derived .base64UrlDecoded]]
  | .macroVariantBit => [[.derived .bit]]
  | .macroVariantBoolean => [[.derived .boolean]]
  | .macroVariantByte => [[.derived .byte]]
  | .macroVariantDomain => [[.derived .domain]]
  | .macroVariantEmail => [[.derived .email]]
  | .macroVariantHost => [[.derived .host]]
  | .macroVariantHttpUrl => [[.derived .httpUrl]]
  | .macroVariantHttpFtpUrl => [[.derived .httpFtpUrl]]
  | .macroVariantIp => [[.derived .ip]]
  | .macroVariantIpv4 => [[.derived .ipv4]]
  | .macroVariantIpv6 => [[.derived .ipv6]]
  | .macroVariantJson => [[.derived .json]]
  | .macroVariantLength => [[.derived .length]]
  | .macroVariantLine => [[.derived .line]]
  | .macroVariantMacAddress => [[.derived .macAddress]]
  | .macroVariantNumber => [[.derived .number]]
  | .macroVariantPhone => [[.derived .phone]]
  | .macroVariantRegex => [[.derived .regex]]
  | .macroVariantSemver => [[.derived .semver]]
  | .macroVariantSemverReq => [[.derived .semverReq]]
  | .macroVariantSignedInteger => [[.derived .signedInteger]]
  | .macroVariantText => [[.derived .text]]
  | .macroVariantUnsignedInteger => [[.derived .unsignedInteger]]
  | .macroVariantUrl => [[.derived .url]]
  | .macroVariantUuid => [[.derived .uuid]]

/-- The names the sources of `validators` use under a `cfg`, each with the conjunction of the `cfg`s around it. -/
def libraryUses : List (Use Item) := [
  -- validators/src/lib.rs
  ⟨[[.feature .axum]], .builtAxum⟩, -- L941
  ⟨[[.feature .byteUnit]], .builtByteUnit⟩, -- L943
  ⟨[[.feature .dataEncoding]], .builtDataEncoding⟩, -- L946
  ⟨[[.feature .idna]], .builtIdna⟩, -- L948
  ⟨[[.feature .phonenumber]], .builtPhonenumber⟩, -- L950
  ⟨[[.feature .regexDep]], .builtRegexDep⟩, -- L952
  ⟨[[.feature .rocket]], .builtRocket⟩, -- L954
  ⟨[[.feature .semverDep]], .builtSemverDep⟩, -- L956
  ⟨[[.feature .serde]], .builtSerde⟩, -- L958
  ⟨[[.feature .serdeJson]], .builtSerdeJson⟩, -- L960
  ⟨[[.feature .strUtils]], .builtStrUtils⟩, -- L962
  ⟨[[.feature .urlDep]], .builtUrlDep⟩, -- L964
  ⟨[[.feature .derive]], .builtValidatorsDerive⟩, -- L982
  -- validators/src/errors/mod.rs
  ⟨[[.feature .base32]], .modErrorsBase32⟩, -- L7
  ⟨[[.feature .base32Decoded]], .modErrorsBase32Decoded⟩, -- L12
  ⟨[[.feature .base64]], .modErrorsBase64⟩, -- L17
  ⟨[[.feature .base64Decoded]], .modErrorsBase64Decoded⟩, -- L22
  ⟨[[.feature .base64Url]], .modErrorsBase64Url⟩, -- L27
  ⟨[[.feature .base64UrlDecoded]], .modErrorsBase64UrlDecoded⟩, -- L32
  ⟨[[.feature .bit]], .modErrorsBit⟩, -- L37
  ⟨[[.feature .boolean]], .modErrorsBoolean⟩, -- L42
  ⟨[[.feature .byte]], .modErrorsByte⟩, -- L47
  ⟨[[.feature .domain]], .modErrorsDomain⟩, -- L52
  ⟨[[.feature .email]], .modErrorsEmail⟩, -- L57
  ⟨[[.feature .host]], .modErrorsHost⟩, -- L62
  ⟨[[.feature .httpUrl]], .modErrorsHttpUrl⟩, -- L67
  ⟨[[.feature .httpFtpUrl]], .modErrorsHttpFtpUrl⟩, -- L72
  ⟨[[.feature .ip]], .modErrorsIp⟩, -- L77
  ⟨[[.feature .ipv4]], .modErrorsIpv4⟩, -- L82
  ⟨[[.feature .ipv6]], .modErrorsIpv6⟩, -- L87
  ⟨[[.feature .json]], .modErrorsJson⟩, -- L92
  ⟨[[.feature .length]], .modErrorsLength⟩, -- L97
  ⟨[[.feature .line]], .modErrorsLine⟩, -- L102
  ⟨[[.feature .macAddress]], .modErrorsMacAddress⟩, -- L107
  ⟨[[.feature .number]], .modErrorsNumber⟩, -- L112
  ⟨[[.feature .phone]], .modErrorsPhone⟩, -- L117
  ⟨[[.feature .regex]], .modErrorsRegex⟩, -- L122
  ⟨[[.feature .semver], [.feature .semverReq]], .modErrorsSemver⟩, -- L127
  ⟨[[.feature .signedInteger]], .modErrorsSignedInteger⟩, -- L132
  ⟨[[.feature .text]], .modErrorsText⟩, -- L137
  ⟨[[.feature .unsignedInteger]], .modErrorsUnsignedInteger⟩, -- L142
  ⟨[[.feature .url]], .modErrorsUrl⟩, -- L147
  ⟨[[.feature .uuid]], .modErrorsUuid⟩, -- L152
  -- validators/src/functions/mod.rs
  ⟨[[.feature .domain], [.feature .email], [.feature .host], [.feature .httpUrl], [.feature .httpFtpUrl],
    [.feature .ip], [.feature .ipv4], [.feature .ipv6]], .modFunctionsIpv4⟩, -- L22
  ⟨[[.feature .email], [.feature .host], [.feature .httpUrl], [.feature .httpFtpUrl], [.feature .ip],
    [.feature .ipv6]], .modFunctionsIpv6⟩, -- L41
  ⟨[[.feature .ip]], .modFunctionsIp⟩, -- L46
  ⟨[[.feature .domain], [.feature .email], [.feature .host], [.feature .httpUrl], [.feature .httpFtpUrl]], .modFunctionsDomain⟩, -- L63
  -- validators/src/models/mod.rs
  ⟨[[.feature .email], [.feature .host]], .modModelsHost⟩, -- L4
  ⟨[[.feature .httpFtpUrl]], .modModelsProtocol⟩, -- L9
  -- validators/src/traits/mod.rs
  ⟨[[.feature .serdeJson]], .modTraitsValidateJsonValue⟩, -- L24
  ⟨[[.feature .domain]], .modTraitsQualifyDomain⟩, -- L29
  ⟨[[.feature .domain], [.feature .host], [.feature .ip], [.feature .ipv4], [.feature .ipv6]], .modTraitsToUriAuthorityString⟩, -- L46
  ⟨[[.feature .email]], .modTraitsToEmailString⟩, -- L51
  ⟨[[.feature .json]], .modTraitsToJsonString⟩, -- L56
  ⟨[[.feature .macAddress]], .modTraitsToMacAddressString⟩, -- L61
  ⟨[[.feature .uuid]], .modTraitsToUuidString⟩, -- L66
  -- validators/src/test/mod.rs
  ⟨[[.feature .test]], .modTestCaseOption⟩, -- L6
  ⟨[[.feature .test]], .modTestRangeOption⟩, -- L7
  ⟨[[.feature .test]], .modTestSeparatorOption⟩, -- L8
  ⟨[[.feature .test]], .modTestTriAllow⟩, -- L9
  -- validators/src/errors/axum_traits.rs
  ⟨[[.feature .axum]], .crateAxum⟩, -- L1
  -- validators/src/errors/bit.rs
  ⟨[[.feature .bit]], .crateByteUnit⟩, -- L3
  -- validators/src/errors/byte.rs
  ⟨[[.feature .byte]], .crateByteUnit⟩, -- L3
  -- validators/src/errors/http_url.rs
  ⟨[[.feature .httpUrl]], .crateUrl⟩, -- L3
  -- validators/src/errors/http_ftp_url.rs
  ⟨[[.feature .httpFtpUrl]], .crateUrl⟩, -- L3
  -- validators/src/errors/json.rs
  ⟨[[.feature .json]], .crateSerdeJson⟩, -- L6
  -- validators/src/errors/phone.rs
  ⟨[[.feature .phone]], .cratePhonenumber⟩, -- L3
  -- validators/src/errors/semver.rs
  ⟨[[.feature .semver], [.feature .semverReq]], .crateSemver⟩, -- L5
  -- validators/src/errors/url.rs
  ⟨[[.feature .url]], .crateUrl⟩, -- L3
  -- validators/src/functions/ipv4.rs
  ⟨[[.feature .domain], [.feature .email], [.feature .host], [.feature .httpUrl], [.feature .httpFtpUrl],
    [.feature .ip], [.feature .ipv4], [.feature .ipv6]], .std⟩, -- L2
  -- validators/src/functions/ipv6.rs
  ⟨[[.feature .email], [.feature .host], [.feature .httpUrl], [.feature .httpFtpUrl], [.feature .ip],
    [.feature .ipv6]], .std⟩, -- L1
  ⟨[[.feature .email], [.feature .host], [.feature .httpUrl], [.feature .httpFtpUrl], [.feature .ip],
    [.feature .ipv6]], .functionIsLocalIpv4⟩, -- L3
  -- validators/src/functions/ip.rs
  ⟨[[.feature .ip]], .std⟩, -- L1
  ⟨[[.feature .ip]], .functionIsLocalIpv4⟩, -- L3
  ⟨[[.feature .ip]], .functionIsLocalIpv6⟩, -- L3
  -- validators/src/models/host.rs
  ⟨[[.feature .email], [.feature .host]], .std⟩, -- L3
  -- validators/src/traits/collection_length.rs
  ⟨[[.feature .std]], .std⟩, -- L8
  ⟨[[.feature .serdeJson]], .crateSerdeJson⟩, -- L11
  -- validators/src/traits/validate_json_value.rs
  ⟨[[.feature .serdeJson]], .crateSerdeJson⟩, -- L1
  -- validators/src/traits/collection_length.rs
  ⟨[[.feature .std]], .std⟩, -- L52
  ⟨[[.feature .std]], .std⟩, -- L60
  ⟨[[.feature .serdeJson]], .crateSerdeJson⟩, -- L68
  -- validators/src/errors/axum_traits.rs
  ⟨[[.feature .axum]], .std⟩, -- L16 (`to_string`)
  ⟨[[.feature .axum, .feature .base32]], .errorBase32Error⟩, -- L24
  ⟨[[.feature .axum, .feature .base32Decoded]], .errorBase32DecodedError⟩, -- L25
  ⟨[[.feature .axum, .feature .base64]], .errorBase64Error⟩, -- L26
  ⟨[[.feature .axum, .feature .base64Decoded]], .errorBase64DecodedError⟩, -- L27
  ⟨[[.feature .axum, .feature .base64Url]], .errorBase64UrlError⟩, -- L28
  ⟨[[.feature .axum, .feature .base64UrlDecoded]], .errorBase64UrlDecodedError⟩, -- L29
  ⟨[[.feature .axum, .feature .bit]], .errorBitError⟩, -- L30
  ⟨[[.feature .axum, .feature .boolean]], .errorBooleanError⟩, -- L31
  ⟨[[.feature .axum, .feature .byte]], .errorByteError⟩, -- L32
  ⟨[[.feature .axum, .feature .domain]], .errorDomainError⟩, -- L33
  ⟨[[.feature .axum, .feature .email]], .errorEmailError⟩, -- L34
  ⟨[[.feature .axum, .feature .host]], .errorHostError⟩, -- L35
  ⟨[[.feature .axum, .feature .httpUrl]], .errorHttpURLError⟩, -- L36
  ⟨[[.feature .axum, .feature .httpFtpUrl]], .errorHttpFtpURLError⟩, -- L37
  ⟨[[.feature .axum, .feature .ip]], .errorIpError⟩, -- L38
  ⟨[[.feature .axum, .feature .ipv4]], .errorIpv4Error⟩, -- L39
  ⟨[[.feature .axum, .feature .ipv6]], .errorIpv6Error⟩, -- L40
  ⟨[[.feature .axum, .feature .json]], .errorJsonError⟩, -- L41
  ⟨[[.feature .axum, .feature .length]], .errorLengthError⟩, -- L42
  ⟨[[.feature .axum, .feature .line]], .errorLineError⟩, -- L43
  ⟨[[.feature .axum, .feature .macAddress]], .errorMacAddressError⟩, -- L44
  ⟨[[.feature .axum, .feature .number]], .errorNumberError⟩, -- L45
  ⟨[[.feature .axum, .feature .phone]], .errorPhoneError⟩, -- L46
  ⟨[[.feature .axum, .feature .regex]], .errorRegexError⟩, -- L47
  ⟨[[.feature .axum, .feature .signedInteger]], .errorSignedIntegerError⟩, -- L48
  ⟨[[.feature .axum, .feature .text]], .errorTextError⟩, -- L49
  ⟨[[.feature .axum, .feature .unsignedInteger]], .errorUnsignedIntegerError⟩, -- L50
  ⟨[[.feature .axum, .feature .url]], .errorUrlError⟩, -- L51
  ⟨[[.feature .axum, .feature .uuid]], .errorUuidError⟩, -- L52
  ⟨[[.feature .axum, .feature .semver], [.feature .axum, .feature .semverReq]], .errorSemverError⟩, -- L57
  -- validators/src/result/rocket_traits.rs
  ⟨[[.feature .rocket]], .crateRocket⟩, -- L3
  -- validators/src/result/built_in_traits.rs
  ⟨[[.feature .serdeJson]], .crateSerdeJson⟩, -- L102
  ⟨[[.feature .serdeJson]], .traitValidateJsonValue⟩, -- L102
  -- validators/src/result/serde_traits.rs
  ⟨[[.feature .serde]], .crateSerde⟩, -- L10
  ⟨[[.feature .serde, .feature .base32]], .errorBase32Error⟩, -- L18
  ⟨[[.feature .serde, .feature .base32Decoded]], .errorBase32DecodedError⟩, -- L71
  ⟨[[.feature .serde, .feature .base64]], .errorBase64Error⟩, -- L126
  ⟨[[.feature .serde, .feature .base64Decoded]], .errorBase64DecodedError⟩, -- L179
  ⟨[[.feature .serde, .feature .base64Url]], .errorBase64UrlError⟩, -- L234
  ⟨[[.feature .serde, .feature .base64UrlDecoded]], .errorBase64UrlDecodedError⟩, -- L289
  ⟨[[.feature .serde, .feature .bit]], .errorBitError⟩, -- L345
  ⟨[[.feature .serde, .feature .boolean]], .errorBooleanError⟩, -- L367
  ⟨[[.feature .serde, .feature .byte]], .errorByteError⟩, -- L457
  ⟨[[.feature .serde, .feature .domain]], .errorDomainError⟩, -- L477
  ⟨[[.feature .serde, .feature .email]], .errorEmailError⟩, -- L514
  ⟨[[.feature .serde, .feature .host]], .errorHostError⟩, -- L542
  ⟨[[.feature .serde, .feature .httpUrl]], .errorHttpURLError⟩, -- L570
  ⟨[[.feature .serde, .feature .httpFtpUrl]], .errorHttpFtpURLError⟩, -- L600
  ⟨[[.feature .serde, .feature .ip]], .errorIpError⟩, -- L630
  ⟨[[.feature .serde, .feature .ipv4]], .errorIpv4Error⟩, -- L658
  ⟨[[.feature .serde, .feature .ipv6]], .errorIpv6Error⟩, -- L686
  ⟨[[.feature .serde, .feature .json]], .errorJsonError⟩, -- L716
  ⟨[[.feature .serde, .feature .json]], .traitValidateJsonValue⟩, -- L721
  ⟨[[.feature .serde, .feature .json]], .crateSerdeJson⟩, -- L728
  ⟨[[.feature .serde, .feature .length]], .errorLengthError⟩, -- L736
  ⟨[[.feature .serde, .feature .line]], .errorLineError⟩, -- L748
  ⟨[[.feature .serde, .feature .macAddress]], .errorMacAddressError⟩, -- L783
  ⟨[[.feature .serde, .feature .number]], .errorNumberError⟩, -- L813
  ⟨[[.feature .serde, .feature .phone]], .errorPhoneError⟩, -- L866
  ⟨[[.feature .serde, .feature .regex]], .errorRegexError⟩, -- L894
  ⟨[[.feature .serde, .feature .semver], [.feature .serde, .feature .semverReq]], .errorSemverError⟩, -- L929
  ⟨[[.feature .serde, .feature .signedInteger]], .errorSignedIntegerError⟩, -- L961
  ⟨[[.feature .serde, .feature .text]], .errorTextError⟩, -- L1038
  ⟨[[.feature .serde, .feature .unsignedInteger]], .errorUnsignedIntegerError⟩, -- L1075
  ⟨[[.feature .serde, .feature .url]], .errorUrlError⟩, -- L1153
  ⟨[[.feature .serde, .feature .uuid]], .errorUuidError⟩, -- L1181
  -- validators/src/lib.rs
  ⟨[[.feature .byteUnit]], .crateByteUnit⟩, -- L997
  ⟨[[.feature .dataEncoding]], .crateDataEncoding⟩, -- L999
  ⟨[[.feature .idna]], .crateIdna⟩, -- L1002
  ⟨[[.feature .phonenumber]], .cratePhonenumber⟩, -- L1004
  ⟨[[.feature .regex]], .crateRegex⟩, -- L1006
  ⟨[[.feature .rocket]], .crateRocket⟩, -- L1008
  ⟨[[.feature .semverDep]], .crateSemver⟩, -- L1010
  ⟨[[.feature .serde]], .crateSerde⟩, -- L1012
  ⟨[[.feature .serdeJson]], .crateSerdeJson⟩, -- L1014
  ⟨[[.feature .strUtils]], .crateStrUtils⟩, -- L1016
  ⟨[[.feature .url]], .crateUrl⟩, -- L1020
  ⟨[[.feature .derive]], .crateValidator⟩] -- L1026

/-- The names the sources of `validators-derive` use under a `cfg`, each with the conjunction of the `cfg`s around it. -/
def macroUses : List (Use Item) := [
  -- validators-derive/src/lib.rs
  ⟨[[.derived .base32]], .macroVariantBase32⟩, -- L56
  ⟨[[.derived .base32]], .macroHandlerBase32⟩, -- L57
  ⟨[[.derived .base32Decoded]], .macroVariantBase32Decoded⟩, -- L60
  ⟨[[.derived .base32Decoded]], .macroHandlerBase32Decoded⟩, -- L61
  ⟨[[.derived .base64]], .macroVariantBase64⟩, -- L66
  ⟨[[.derived .base64]], .macroHandlerBase64⟩, -- L67
  ⟨[[.derived .base64Decoded]], .macroVariantBase64Decoded⟩, -- L70
  ⟨[[.derived .base64Decoded]], .macroHandlerBase64Decoded⟩, -- L71
  ⟨[[.derived .base64Url]], .macroVariantBase64Url⟩, -- L76
  ⟨[[.derived .base64Url]], .macroHandlerBase64Url⟩, -- L77
  ⟨[[.derived .base64UrlDecoded]], .macroVariantBase64UrlDecoded⟩, -- L80
  ⟨[[.derived .base64UrlDecoded]], .macroHandlerBase64UrlDecoded⟩, -- L81
  ⟨[[.derived .bit]], .macroVariantBit⟩, -- L86
  ⟨[[.derived .bit]], .macroHandlerBit⟩, -- L87
  ⟨[[.derived .boolean]], .macroVariantBoolean⟩, -- L90
  ⟨[[.derived .boolean]], .macroHandlerBoolean⟩, -- L91
  ⟨[[.derived .byte]], .macroVariantByte⟩, -- L94
  ⟨[[.derived .byte]], .macroHandlerByte⟩, -- L95
  ⟨[[.derived .domain]], .macroVariantDomain⟩, -- L98
  ⟨[[.derived .domain]], .macroHandlerDomain⟩, -- L99
  ⟨[[.derived .email]], .macroVariantEmail⟩, -- L102
  ⟨[[.derived .email]], .macroHandlerEmail⟩, -- L103
  ⟨[[.derived .host]], .macroVariantHost⟩, -- L106
  ⟨[[.derived .host]], .macroHandlerHost⟩, -- L107
  ⟨[[.derived .httpUrl]], .macroVariantHttpUrl⟩, -- L110
  ⟨[[.derived .httpUrl]], .macroHandlerHttpUrl⟩, -- L111
  ⟨[[.derived .httpFtpUrl]], .macroVariantHttpFtpUrl⟩, -- L114
  ⟨[[.derived .httpFtpUrl]], .macroHandlerHttpFtpUrl⟩, -- L115
  ⟨[[.derived .ip]], .macroVariantIp⟩, -- L120
  ⟨[[.derived .ip]], .macroHandlerIp⟩, -- L121
  ⟨[[.derived .ipv4]], .macroVariantIpv4⟩, -- L124
  ⟨[[.derived .ipv4]], .macroHandlerIpv4⟩, -- L125
  ⟨[[.derived .ipv6]], .macroVariantIpv6⟩, -- L128
  ⟨[[.derived .ipv6]], .macroHandlerIpv6⟩, -- L129
  ⟨[[.derived .json]], .macroVariantJson⟩, -- L132
  ⟨[[.derived .json]], .macroHandlerJson⟩, -- L133
  ⟨[[.derived .length]], .macroVariantLength⟩, -- L136
  ⟨[[.derived .length]], .macroHandlerLength⟩, -- L137
  ⟨[[.derived .line]], .macroVariantLine⟩, -- L140
  ⟨[[.derived .line]], .macroHandlerLine⟩, -- L141
  ⟨[[.derived .macAddress]], .macroVariantMacAddress⟩, -- L144
  ⟨[[.derived .macAddress]], .macroHandlerMacAddress⟩, -- L145
  ⟨[[.derived .number]], .macroVariantNumber⟩, -- L148
  ⟨[[.derived .number]], .macroHandlerNumber⟩, -- L149
  ⟨[[.derived .phone]], .macroVariantPhone⟩, -- L152
  ⟨[[.derived .phone]], .macroHandlerPhone⟩, -- L153
  ⟨[[.derived .regex]], .macroVariantRegex⟩, -- L156
  ⟨[[.derived .regex]], .macroHandlerRegex⟩, -- L157
  ⟨[[.derived .semver]], .macroVariantSemver⟩, -- L160
  ⟨[[.derived .semver]], .macroHandlerSemver⟩, -- L161
  ⟨[[.derived .semverReq]], .macroVariantSemverReq⟩, -- L164
  ⟨[[.derived .semverReq]], .macroHandlerSemverReq⟩, -- L165
  ⟨[[.derived .signedInteger]], .macroVariantSignedInteger⟩, -- L168
  ⟨[[.derived .signedInteger]], .macroHandlerSignedInteger⟩, -- L169
  ⟨[[.derived .text]], .macroVariantText⟩, -- L174
  ⟨[[.derived .text]], .macroHandlerText⟩, -- L175
  ⟨[[.derived .unsignedInteger]], .macroVariantUnsignedInteger⟩, -- L178
  ⟨[[.derived .unsignedInteger]], .macroHandlerUnsignedInteger⟩, -- L179
  ⟨[[.derived .url]], .macroVariantUrl⟩, -- L184
  ⟨[[.derived .url]], .macroHandlerUrl⟩, -- L185
  ⟨[[.derived .uuid]], .macroVariantUuid⟩, -- L188
  ⟨[[.derived .uuid]], .macroHandlerUuid⟩, -- L189
  -- validators-derive/src/common/attributes/base_xx_attribute.rs
  ⟨[[.derived .base32], [.derived .base32Decoded], [.derived .base64], [.derived .base64Decoded],
    [.derived .base64Url], [.derived .base64UrlDecoded]], .macroModTriAllow⟩, -- L3
  -- validators-derive/src/common/attributes/http_xx_url_attribute.rs
  ⟨[[.derived .httpUrl], [.derived .httpFtpUrl]], .macroModTriAllow⟩, -- L3
  -- validators-derive/src/common/attributes/ip_xx_attribute.rs
  ⟨[[.derived .ip], [.derived .ipv4], [.derived .ipv6]], .macroModTriAllow⟩, -- L3
  -- validators-derive/src/common/attributes/range_attribute.rs
  ⟨[[.derived .signedInteger], [.derived .unsignedInteger]], .macroModRange⟩, -- L5
  ⟨[[.derived .signedInteger], [.derived .unsignedInteger]], .macroModRangeOption⟩, -- L5
  -- validators-derive/src/common/attributes/utf8_attribute.rs
  ⟨[[.derived .line], [.derived .text]], .macroModLength⟩, -- L3
  -- validators-derive/src/common/length.rs
  ⟨[[.derived .line], [.derived .text]], .macroModNumber⟩, -- L3
  -- validators-derive/src/common/range.rs
  ⟨[[.derived .test, .derived .full], [.derived .bit, .derived .full], [.derived .byte, .derived .full],
    [.derived .number, .derived .full], [.derived .signedInteger, .derived .full],
    [.derived .unsignedInteger, .derived .full]], .macroModNumber⟩, -- L9
  ⟨[[.derived .test], [.derived .bit], [.derived .byte], [.derived .number], [.derived .signedInteger],
    [.derived .unsignedInteger]], .macroModBoolean⟩, -- L10
  ⟨[[.derived .test], [.derived .bit], [.derived .byte], [.derived .number], [.derived .signedInteger],
    [.derived .unsignedInteger]], .macroModNumber⟩, -- L10
  ⟨[[.derived .test, .derived .full], [.derived .bit, .derived .full], [.derived .byte, .derived .full],
    [.derived .number, .derived .full], [.derived .signedInteger, .derived .full],
    [.derived .unsignedInteger, .derived .full]], .synFull⟩, -- L5
  ⟨[[.derived .test, .derived .full], [.derived .bit, .derived .full], [.derived .byte, .derived .full],
    [.derived .number, .derived .full], [.derived .signedInteger, .derived .full],
    [.derived .unsignedInteger, .derived .full]], .synFull⟩, -- L82
  ⟨[[.derived .test, .derived .full], [.derived .bit, .derived .full], [.derived .byte, .derived .full],
    [.derived .number, .derived .full], [.derived .signedInteger, .derived .full],
    [.derived .unsignedInteger, .derived .full]], .synFull⟩, -- L128
  ⟨[[.derived .test, .derived .full], [.derived .bit, .derived .full], [.derived .byte, .derived .full],
    [.derived .number, .derived .full], [.derived .signedInteger, .derived .full],
    [.derived .unsignedInteger, .derived .full]], .synFull⟩, -- L138
  -- validators-derive/src/common/range_option.rs
  ⟨[[.derived .test], [.derived .number], [.derived .signedInteger], [.derived .unsignedInteger]], .macroModRange⟩, -- L5
  -- validators-derive/src/common/test.rs
  ⟨[[.derived .test]], .macroModAllow⟩, -- L3
  ⟨[[.derived .test]], .macroModCaseOption⟩, -- L3
  ⟨[[.derived .test]], .macroModRange⟩, -- L3
  ⟨[[.derived .test]], .macroModRangeOption⟩, -- L3
  ⟨[[.derived .test]], .macroModSeparatorOption⟩, -- L3
  ⟨[[.derived .test]], .macroModTriAllow⟩, -- L3
  -- validators-derive/src/validator_handlers/base32/mod.rs
  ⟨[[.derived .base32]], .macroModBaseXxAttribute⟩, -- L5
  ⟨[[.derived .base32]], .macroModTriAllow⟩, -- L217
  ⟨[[.derived .base32, .derived .rocket]], .macroModRocket⟩, -- L280
  -- validators-derive/src/validator_handlers/base32_decoded/mod.rs
  ⟨[[.derived .base32Decoded]], .macroModTriAllow⟩, -- L5
  ⟨[[.derived .base32Decoded]], .macroModBaseXxAttribute⟩, -- L5
  ⟨[[.derived .base32Decoded, .derived .rocket]], .macroModRocket⟩, -- L307
  -- validators-derive/src/validator_handlers/base64/mod.rs
  ⟨[[.derived .base64]], .macroModBaseXxAttribute⟩, -- L5
  ⟨[[.derived .base64]], .macroModTriAllow⟩, -- L217
  ⟨[[.derived .base64, .derived .rocket]], .macroModRocket⟩, -- L280
  -- validators-derive/src/validator_handlers/base64_decoded/mod.rs
  ⟨[[.derived .base64Decoded]], .macroModTriAllow⟩, -- L5
  ⟨[[.derived .base64Decoded]], .macroModBaseXxAttribute⟩, -- L5
  ⟨[[.derived .base64Decoded, .derived .rocket]], .macroModRocket⟩, -- L307
  -- validators-derive/src/validator_handlers/base64_url/mod.rs
  ⟨[[.derived .base64Url]], .macroModBaseXxAttribute⟩, -- L5
  ⟨[[.derived .base64Url]], .macroModTriAllow⟩, -- L218
  ⟨[[.derived .base64Url, .derived .rocket]], .macroModRocket⟩, -- L281
  -- validators-derive/src/validator_handlers/base64_url_decoded/mod.rs
  ⟨[[.derived .base64UrlDecoded]], .macroModTriAllow⟩, -- L5
  ⟨[[.derived .base64UrlDecoded]], .macroModBaseXxAttribute⟩, -- L5
  ⟨[[.derived .base64UrlDecoded, .derived .rocket]], .macroModRocket⟩, -- L307
  -- validators-derive/src/validator_handlers/bit/bit_attribute.rs
  ⟨[[.derived .bit]], .macroModRange⟩, -- L3
  -- validators-derive/src/validator_handlers/bit/mod.rs
  ⟨[[.derived .bit]], .macroModRange⟩, -- L8
  ⟨[[.derived .bit, .derived .rocket]], .macroModRocket⟩, -- L212
  -- validators-derive/src/validator_handlers/boolean/mod.rs
  ⟨[[.derived .boolean]], .macroModBasicAttribute⟩, -- L5
  ⟨[[.derived .boolean, .derived .rocket]], .macroModRocket⟩, -- L406
  -- validators-derive/src/validator_handlers/byte/byte_attribute.rs
  ⟨[[.derived .byte]], .macroModBoolean⟩, -- L3
  ⟨[[.derived .byte]], .macroModRange⟩, -- L3
  -- validators-derive/src/validator_handlers/byte/mod.rs
  ⟨[[.derived .byte]], .macroModRange⟩, -- L8
  ⟨[[.derived .byte, .derived .rocket]], .macroModRocket⟩, -- L243
  -- validators-derive/src/validator_handlers/domain/domain_attribute.rs
  ⟨[[.derived .domain]], .macroModAllow⟩, -- L3
  ⟨[[.derived .domain]], .macroModTriAllow⟩, -- L3
  -- validators-derive/src/validator_handlers/domain/mod.rs
  ⟨[[.derived .domain]], .macroEduce⟩, -- L4
  ⟨[[.derived .domain]], .macroModTriAllow⟩, -- L9
  ⟨[[.derived .domain, .derived .rocket]], .macroModRocket⟩, -- L1111
  -- validators-derive/src/validator_handlers/email/email_attribute.rs
  ⟨[[.derived .email]], .macroModAllow⟩, -- L3
  ⟨[[.derived .email]], .macroModTriAllow⟩, -- L3
  -- validators-derive/src/validator_handlers/email/mod.rs
  ⟨[[.derived .email]], .macroEduce⟩, -- L3
  ⟨[[.derived .email]], .macroModTriAllow⟩, -- L9
  ⟨[[.derived .email, .derived .rocket]], .macroModRocket⟩, -- L1767
  -- validators-derive/src/validator_handlers/host/host_attribute.rs
  ⟨[[.derived .host]], .macroModTriAllow⟩, -- L3
  -- validators-derive/src/validator_handlers/host/mod.rs
  ⟨[[.derived .host]], .macroEduce⟩, -- L3
  ⟨[[.derived .host]], .macroModTriAllow⟩, -- L9
  ⟨[[.derived .host, .derived .rocket]], .macroModRocket⟩, -- L839
  -- validators-derive/src/validator_handlers/http_ftp_url/mod.rs
  ⟨[[.derived .httpFtpUrl]], .macroModTriAllow⟩, -- L5
  ⟨[[.derived .httpFtpUrl]], .macroModHttpXxUrlAttribute⟩, -- L5
  ⟨[[.derived .httpFtpUrl, .derived .rocket]], .macroModRocket⟩, -- L213
  -- validators-derive/src/validator_handlers/http_url/mod.rs
  ⟨[[.derived .httpUrl]], .macroModTriAllow⟩, -- L5
  ⟨[[.derived .httpUrl]], .macroModHttpXxUrlAttribute⟩, -- L5
  ⟨[[.derived .httpUrl, .derived .rocket]], .macroModRocket⟩, -- L212
  -- validators-derive/src/validator_handlers/ip/mod.rs
  ⟨[[.derived .ip]], .macroEduce⟩, -- L1
  ⟨[[.derived .ip]], .macroModTriAllow⟩, -- L6
  ⟨[[.derived .ip]], .macroModIpXxAttribute⟩, -- L6
  ⟨[[.derived .ip, .derived .rocket]], .macroModRocket⟩, -- L540
  -- validators-derive/src/validator_handlers/ipv4/mod.rs
  ⟨[[.derived .ipv4]], .macroEduce⟩, -- L1
  ⟨[[.derived .ipv4]], .macroModTriAllow⟩, -- L6
  ⟨[[.derived .ipv4]], .macroModIpXxAttribute⟩, -- L6
  ⟨[[.derived .ipv4, .derived .rocket]], .macroModRocket⟩, -- L428
  -- validators-derive/src/validator_handlers/ipv6/mod.rs
  ⟨[[.derived .ipv6]], .macroEduce⟩, -- L1
  ⟨[[.derived .ipv6]], .macroModTriAllow⟩, -- L6
  ⟨[[.derived .ipv6]], .macroModIpXxAttribute⟩, -- L6
  ⟨[[.derived .ipv6, .derived .rocket]], .macroModRocket⟩, -- L460
  -- validators-derive/src/validator_handlers/json/mod.rs
  ⟨[[.derived .json]], .macroModBasicAttribute⟩, -- L5
  ⟨[[.derived .json, .derived .rocket]], .macroModRocket⟩, -- L263
  -- validators-derive/src/validator_handlers/length/length_attribute.rs
  ⟨[[.derived .length]], .macroModNumber⟩, -- L3
  -- validators-derive/src/validator_handlers/line/mod.rs
  ⟨[[.derived .line]], .macroModLength⟩, -- L5
  ⟨[[.derived .line]], .macroModUtf8Attribute⟩, -- L5
  ⟨[[.derived .line, .derived .test]], .macroModTest⟩, -- L48
  ⟨[[.derived .line, .derived .rocket]], .macroModRocket⟩, -- L846
  -- validators-derive/src/validator_handlers/mac_address/mac_address_attribute.rs
  ⟨[[.derived .macAddress]], .macroModCaseOption⟩, -- L3
  ⟨[[.derived .macAddress]], .macroModSeparatorOption⟩, -- L3
  -- validators-derive/src/validator_handlers/mac_address/mod.rs
  ⟨[[.derived .macAddress]], .macroModCaseOption⟩, -- L8
  ⟨[[.derived .macAddress]], .macroModSeparatorOption⟩, -- L8
  ⟨[[.derived .macAddress, .derived .rocket]], .macroModRocket⟩, -- L419
  -- validators-derive/src/validator_handlers/number/mod.rs
  ⟨[[.derived .number]], .macroModRangeOption⟩, -- L8
  ⟨[[.derived .number]], .macroModTriAllow⟩, -- L8
  ⟨[[.derived .number, .derived .rocket]], .macroModRocket⟩, -- L448
  -- validators-derive/src/validator_handlers/number/number_attribute.rs
  ⟨[[.derived .number]], .macroModAllow⟩, -- L5
  ⟨[[.derived .number]], .macroModRange⟩, -- L5
  ⟨[[.derived .number]], .macroModRangeOption⟩, -- L5
  ⟨[[.derived .number]], .macroModTriAllow⟩, -- L5
  -- validators-derive/src/validator_handlers/phone/mod.rs
  ⟨[[.derived .phone, .derived .rocket]], .macroModRocket⟩, -- L213
  -- validators-derive/src/validator_handlers/phone/phone_attribute.rs
  ⟨[[.derived .phone]], .macroPhonenumber⟩, -- L3
  -- validators-derive/src/validator_handlers/regex/mod.rs
  ⟨[[.derived .regex, .derived .rocket]], .macroModRocket⟩, -- L137
  -- validators-derive/src/validator_handlers/regex/regex_attribute.rs
  ⟨[[.derived .regex]], .macroRegex⟩, -- L2
  -- validators-derive/src/validator_handlers/semver/mod.rs
  ⟨[[.derived .semver]], .macroModBasicAttribute⟩, -- L5
  ⟨[[.derived .semver, .derived .rocket]], .macroModRocket⟩, -- L97
  -- validators-derive/src/validator_handlers/semver_req/mod.rs
  ⟨[[.derived .semverReq]], .macroModBasicAttribute⟩, -- L5
  ⟨[[.derived .semverReq, .derived .rocket]], .macroModRocket⟩, -- L97
  -- validators-derive/src/validator_handlers/signed_integer/mod.rs
  ⟨[[.derived .signedInteger]], .macroModRangeOption⟩, -- L5
  ⟨[[.derived .signedInteger]], .macroModRangeAttribute⟩, -- L5
  ⟨[[.derived .signedInteger, .derived .rocket]], .macroModRocket⟩, -- L656
  -- validators-derive/src/validator_handlers/text/mod.rs
  ⟨[[.derived .text]], .macroModLength⟩, -- L5
  ⟨[[.derived .text]], .macroModUtf8Attribute⟩, -- L5
  ⟨[[.derived .text, .derived .test]], .macroModTest⟩, -- L48
  ⟨[[.derived .text, .derived .rocket]], .macroModRocket⟩, -- L846
  -- validators-derive/src/validator_handlers/unsigned_integer/mod.rs
  ⟨[[.derived .unsignedInteger]], .macroModRangeOption⟩, -- L5
  ⟨[[.derived .unsignedInteger]], .macroModRangeAttribute⟩, -- L5
  ⟨[[.derived .unsignedInteger, .derived .rocket]], .macroModRocket⟩, -- L639
  -- validators-derive/src/validator_handlers/url/mod.rs
  ⟨[[.derived .url]], .macroModBasicAttribute⟩, -- L5
  ⟨[[.derived .url, .derived .rocket]], .macroModRocket⟩, -- L97
  -- validators-derive/src/validator_handlers/uuid/mod.rs
  ⟨[[.derived .uuid]], .macroModCaseOption⟩, -- L8
  ⟨[[.derived .uuid]], .macroModSeparatorOption⟩, -- L8
  ⟨[[.derived .uuid, .derived .rocket]], .macroModRocket⟩, -- L439
  -- validators-derive/src/validator_handlers/uuid/uuid_attribute.rs
  ⟨[[.derived .uuid]], .macroModCaseOption⟩, -- L3
  ⟨[[.derived .uuid]], .macroModSeparatorOption⟩] -- L3

/-- The names the code that `#[derive(Validator)]` generates uses: for each validator, the names in its `quote!` templates, with the
`cfg`s around the template.  `Serialize` and the like of a foreign type stand where the template calls them. -/
def generatedUses : List (Feature × Use Item) := [
  -- validators-derive/src/validator_handlers/base32/mod.rs
  (.base32, ⟨[[.derived .base32]], .errorBase32Error⟩), -- L30
  (.base32, ⟨[[.derived .base32, .derived .test]], .testTriAllow⟩), -- L38
  (.base32, ⟨[[.derived .base32, .derived .serde]], .preludeSerde⟩), -- L205
  -- validators-derive/src/validator_handlers/base32_decoded/mod.rs
  (.base32Decoded, ⟨[[.derived .base32Decoded]], .errorBase32DecodedError⟩), -- L33
  (.base32Decoded, ⟨[[.derived .base32Decoded, .derived .test]], .testTriAllow⟩), -- L41
  (.base32Decoded, ⟨[[.derived .base32Decoded]], .preludeDataEncoding⟩), -- L86
  (.base32Decoded, ⟨[[.derived .base32Decoded, .derived .serde]], .preludeSerde⟩), -- L234
  -- validators-derive/src/validator_handlers/base64/mod.rs
  (.base64, ⟨[[.derived .base64]], .errorBase64Error⟩), -- L30
  (.base64, ⟨[[.derived .base64, .derived .test]], .testTriAllow⟩), -- L38
  (.base64, ⟨[[.derived .base64, .derived .serde]], .preludeSerde⟩), -- L205
  -- validators-derive/src/validator_handlers/base64_decoded/mod.rs
  (.base64Decoded, ⟨[[.derived .base64Decoded]], .errorBase64DecodedError⟩), -- L33
  (.base64Decoded, ⟨[[.derived .base64Decoded, .derived .test]], .testTriAllow⟩), -- L41
  (.base64Decoded, ⟨[[.derived .base64Decoded]], .preludeDataEncoding⟩), -- L86
  (.base64Decoded, ⟨[[.derived .base64Decoded, .derived .serde]], .preludeSerde⟩), -- L234
  -- validators-derive/src/validator_handlers/base64_url/mod.rs
  (.base64Url, ⟨[[.derived .base64Url]], .errorBase64UrlError⟩), -- L31
  (.base64Url, ⟨[[.derived .base64Url, .derived .test]], .testTriAllow⟩), -- L39
  (.base64Url, ⟨[[.derived .base64Url, .derived .serde]], .preludeSerde⟩), -- L206
  -- validators-derive/src/validator_handlers/base64_url_decoded/mod.rs
  (.base64UrlDecoded, ⟨[[.derived .base64UrlDecoded]], .errorBase64UrlDecodedError⟩), -- L33
  (.base64UrlDecoded, ⟨[[.derived .base64UrlDecoded, .derived .test]], .testTriAllow⟩), -- L41
  (.base64UrlDecoded, ⟨[[.derived .base64UrlDecoded]], .preludeDataEncoding⟩), -- L86
  (.base64UrlDecoded, ⟨[[.derived .base64UrlDecoded, .derived .serde]], .preludeSerde⟩), -- L234
  -- validators-derive/src/validator_handlers/bit/mod.rs
  (.bit, ⟨[[.derived .bit]], .errorBitError⟩), -- L33
  (.bit, ⟨[[.derived .bit, .derived .test]], .testRangeOption⟩), -- L41
  (.bit, ⟨[[.derived .bit]], .preludeByteUnit⟩), -- L95
  (.bit, ⟨[[.derived .bit]], .bitType⟩), -- L95
  (.bit, ⟨[[.derived .bit, .derived .serde]], .preludeSerde⟩), -- L180
  (.bit, ⟨[[.derived .bit, .derived .serde]], .bitSerde⟩), -- L185
  (.bit, ⟨[[.derived .bit, .derived .serde]], .preludeByteUnit⟩), -- L198
  (.bit, ⟨[[.derived .bit, .derived .serde]], .bitType⟩), -- L198
  -- validators-derive/src/validator_handlers/boolean/mod.rs
  (.boolean, ⟨[[.derived .boolean]], .errorBooleanError⟩), -- L32
  (.boolean, ⟨[[.derived .boolean, .derived .serde]], .preludeSerde⟩), -- L307
  -- validators-derive/src/validator_handlers/byte/mod.rs
  (.byte, ⟨[[.derived .byte]], .errorByteError⟩), -- L33
  (.byte, ⟨[[.derived .byte, .derived .test]], .testRangeOption⟩), -- L42
  (.byte, ⟨[[.derived .byte]], .preludeByteUnit⟩), -- L99
  (.byte, ⟨[[.derived .byte]], .byteType⟩), -- L99
  (.byte, ⟨[[.derived .byte, .derived .serde]], .preludeSerde⟩), -- L184
  (.byte, ⟨[[.derived .byte, .derived .serde]], .byteSerde⟩), -- L189
  -- validators-derive/src/validator_handlers/domain/mod.rs
  (.domain, ⟨[[.derived .domain]], .errorDomainError⟩), -- L501
  (.domain, ⟨[[.derived .domain, .derived .test]], .testTriAllow⟩), -- L512
  (.domain, ⟨[[.derived .domain]], .preludeIdna⟩), -- L591
  (.domain, ⟨[[.derived .domain]], .functionIsLocalIpv4⟩), -- L627
  (.domain, ⟨[[.derived .domain]], .functionIsLocalDomain⟩), -- L657
  (.domain, ⟨[[.derived .domain]], .functionIsAtLeastTwoLabelsDomain⟩), -- L666
  (.domain, ⟨[[.derived .domain]], .functionParseIpv4AllowAnEndedDot⟩), -- L705
  (.domain, ⟨[[.derived .domain]], .traitQualifyDomain⟩), -- L902
  (.domain, ⟨[[.derived .domain]], .traitToUriAuthorityString⟩), -- L942
  (.domain, ⟨[[.derived .domain, .derived .serde]], .preludeSerde⟩), -- L986
  (.domain, ⟨[[.derived .domain, .derived .serde]], .traitToUriAuthorityString⟩), -- L991
  -- validators-derive/src/validator_handlers/email/mod.rs
  (.email, ⟨[[.derived .email]], .errorEmailError⟩), -- L586
  (.email, ⟨[[.derived .email, .derived .test]], .testTriAllow⟩), -- L598
  (.email, ⟨[[.derived .email]], .functionIsLocalIpv6⟩), -- L699
  (.email, ⟨[[.derived .email]], .functionIsLocalIpv4⟩), -- L711
  (.email, ⟨[[.derived .email]], .userStd⟩), -- L740
  (.email, ⟨[[.derived .email]], .modelHost⟩), -- L744
  (.email, ⟨[[.derived .email]], .functionIsLocalDomain⟩), -- L792
  (.email, ⟨[[.derived .email]], .functionIsAtLeastTwoLabelsDomain⟩), -- L801
  (.email, ⟨[[.derived .email]], .preludeIdna⟩), -- L831
  (.email, ⟨[[.derived .email]], .traitToEmailString⟩), -- L1530
  (.email, ⟨[[.derived .email, .derived .serde]], .preludeSerde⟩), -- L1683
  (.email, ⟨[[.derived .email, .derived .serde]], .traitToEmailString⟩), -- L1688
  -- validators-derive/src/validator_handlers/host/mod.rs
  (.host, ⟨[[.derived .host]], .errorHostError⟩), -- L242
  (.host, ⟨[[.derived .host, .derived .test]], .testTriAllow⟩), -- L252
  (.host, ⟨[[.derived .host]], .functionIsLocalIpv6⟩), -- L287
  (.host, ⟨[[.derived .host]], .modelHost⟩), -- L305
  (.host, ⟨[[.derived .host]], .userStd⟩), -- L299
  (.host, ⟨[[.derived .host]], .functionIsLocalIpv4⟩), -- L442
  (.host, ⟨[[.derived .host]], .functionIsAtLeastTwoLabelsDomain⟩), -- L472
  (.host, ⟨[[.derived .host]], .functionIsLocalDomain⟩), -- L495
  (.host, ⟨[[.derived .host]], .preludeIdna⟩), -- L500
  (.host, ⟨[[.derived .host]], .traitToUriAuthorityString⟩), -- L655
  (.host, ⟨[[.derived .host, .derived .serde]], .preludeSerde⟩), -- L735
  (.host, ⟨[[.derived .host, .derived .serde]], .traitToUriAuthorityString⟩), -- L740
  -- validators-derive/src/validator_handlers/http_url/mod.rs
  (.httpUrl, ⟨[[.derived .httpUrl]], .errorHttpURLError⟩), -- L39
  (.httpUrl, ⟨[[.derived .httpUrl, .derived .test]], .testTriAllow⟩), -- L47
  (.httpUrl, ⟨[[.derived .httpUrl]], .preludeUrl⟩), -- L75
  (.httpUrl, ⟨[[.derived .httpUrl]], .functionIsLocalDomain⟩), -- L75
  (.httpUrl, ⟨[[.derived .httpUrl]], .functionIsLocalIpv4⟩), -- L76
  (.httpUrl, ⟨[[.derived .httpUrl]], .functionIsLocalIpv6⟩), -- L77
  (.httpUrl, ⟨[[.derived .httpUrl]], .preludeStrUtils⟩), -- L91
  (.httpUrl, ⟨[[.derived .httpUrl, .derived .serde]], .preludeSerde⟩), -- L150
  (.httpUrl, ⟨[[.derived .httpUrl, .derived .serde]], .urlSerde⟩), -- L155
  -- validators-derive/src/validator_handlers/http_ftp_url/mod.rs
  (.httpFtpUrl, ⟨[[.derived .httpFtpUrl]], .errorHttpFtpURLError⟩), -- L39
  (.httpFtpUrl, ⟨[[.derived .httpFtpUrl, .derived .test]], .testTriAllow⟩), -- L47
  (.httpFtpUrl, ⟨[[.derived .httpFtpUrl]], .preludeUrl⟩), -- L75
  (.httpFtpUrl, ⟨[[.derived .httpFtpUrl]], .functionIsLocalDomain⟩), -- L75
  (.httpFtpUrl, ⟨[[.derived .httpFtpUrl]], .functionIsLocalIpv4⟩), -- L76
  (.httpFtpUrl, ⟨[[.derived .httpFtpUrl]], .functionIsLocalIpv6⟩), -- L77
  (.httpFtpUrl, ⟨[[.derived .httpFtpUrl]], .modelProtocol⟩), -- L89
  (.httpFtpUrl, ⟨[[.derived .httpFtpUrl]], .preludeStrUtils⟩), -- L91
  (.httpFtpUrl, ⟨[[.derived .httpFtpUrl, .derived .serde]], .preludeSerde⟩), -- L151
  (.httpFtpUrl, ⟨[[.derived .httpFtpUrl, .derived .serde]], .urlSerde⟩), -- L156
  -- validators-derive/src/validator_handlers/ip/mod.rs
  (.ip, ⟨[[.derived .ip]], .errorIpError⟩), -- L118
  (.ip, ⟨[[.derived .ip, .derived .test]], .testTriAllow⟩), -- L127
  (.ip, ⟨[[.derived .ip]], .functionIsLocalIpv6⟩), -- L159
  (.ip, ⟨[[.derived .ip]], .userStd⟩), -- L171
  (.ip, ⟨[[.derived .ip]], .functionIsLocalIpv4⟩), -- L245
  (.ip, ⟨[[.derived .ip]], .traitToUriAuthorityString⟩), -- L393
  (.ip, ⟨[[.derived .ip, .derived .serde]], .preludeSerde⟩), -- L448
  (.ip, ⟨[[.derived .ip, .derived .serde]], .traitToUriAuthorityString⟩), -- L453
  -- validators-derive/src/validator_handlers/ipv4/mod.rs
  (.ipv4, ⟨[[.derived .ipv4]], .errorIpv4Error⟩), -- L118
  (.ipv4, ⟨[[.derived .ipv4, .derived .test]], .testTriAllow⟩), -- L127
  (.ipv4, ⟨[[.derived .ipv4]], .functionIsLocalIpv4⟩), -- L159
  (.ipv4, ⟨[[.derived .ipv4]], .userStd⟩), -- L174
  (.ipv4, ⟨[[.derived .ipv4]], .traitToUriAuthorityString⟩), -- L292
  (.ipv4, ⟨[[.derived .ipv4, .derived .serde]], .preludeSerde⟩), -- L336
  (.ipv4, ⟨[[.derived .ipv4, .derived .serde]], .traitToUriAuthorityString⟩), -- L341
  -- validators-derive/src/validator_handlers/ipv6/mod.rs
  (.ipv6, ⟨[[.derived .ipv6]], .errorIpv6Error⟩), -- L118
  (.ipv6, ⟨[[.derived .ipv6, .derived .test]], .testTriAllow⟩), -- L127
  (.ipv6, ⟨[[.derived .ipv6]], .functionIsLocalIpv6⟩), -- L159
  (.ipv6, ⟨[[.derived .ipv6]], .userStd⟩), -- L174
  (.ipv6, ⟨[[.derived .ipv6]], .traitToUriAuthorityString⟩), -- L324
  (.ipv6, ⟨[[.derived .ipv6, .derived .serde]], .preludeSerde⟩), -- L368
  (.ipv6, ⟨[[.derived .ipv6, .derived .serde]], .traitToUriAuthorityString⟩), -- L373
  -- validators-derive/src/validator_handlers/json/mod.rs
  (.json, ⟨[[.derived .json]], .errorJsonError⟩), -- L33
  (.json, ⟨[[.derived .json]], .preludeSerdeJson⟩), -- L38
  (.json, ⟨[[.derived .json]], .traitValidateJsonValue⟩), -- L200
  (.json, ⟨[[.derived .json]], .traitToJsonString⟩), -- L218
  (.json, ⟨[[.derived .json]], .userStd⟩), -- L219
  (.json, ⟨[[.derived .json, .derived .serde]], .preludeSerde⟩), -- L233
  (.json, ⟨[[.derived .json, .derived .serde]], .traitToJsonString⟩), -- L238
  (.json, ⟨[[.derived .json, .derived .serde]], .preludeSerdeJson⟩), -- L253
  -- validators-derive/src/validator_handlers/length/mod.rs
  (.length, ⟨[[.derived .length]], .errorLengthError⟩), -- L32
  (.length, ⟨[[.derived .length, .derived .serde]], .preludeSerde⟩), -- L163
  -- validators-derive/src/validator_handlers/line/mod.rs
  (.line, ⟨[[.derived .line]], .errorLineError⟩), -- L30
  (.line, ⟨[[.derived .line, .derived .serde]], .preludeSerde⟩), -- L767
  -- validators-derive/src/validator_handlers/mac_address/mod.rs
  (.macAddress, ⟨[[.derived .macAddress]], .errorMacAddressError⟩), -- L34
  (.macAddress, ⟨[[.derived .macAddress, .derived .test]], .testCaseOption⟩), -- L43
  (.macAddress, ⟨[[.derived .macAddress, .derived .test]], .testSeparatorOption⟩), -- L44
  (.macAddress, ⟨[[.derived .macAddress]], .traitToMacAddressString⟩), -- L287
  (.macAddress, ⟨[[.derived .macAddress, .derived .serde]], .preludeSerde⟩), -- L338
  (.macAddress, ⟨[[.derived .macAddress, .derived .serde]], .traitToMacAddressString⟩), -- L343
  -- validators-derive/src/validator_handlers/number/mod.rs
  (.number, ⟨[[.derived .number]], .errorNumberError⟩), -- L65
  (.number, ⟨[[.derived .number, .derived .test]], .testTriAllow⟩), -- L74
  (.number, ⟨[[.derived .number, .derived .test]], .testRangeOption⟩), -- L75
  (.number, ⟨[[.derived .number, .derived .serde]], .preludeSerde⟩), -- L315
  -- validators-derive/src/validator_handlers/phone/mod.rs
  (.phone, ⟨[[.derived .phone]], .errorPhoneError⟩), -- L33
  (.phone, ⟨[[.derived .phone, .derived .test]], .preludePhonenumber⟩), -- L46
  (.phone, ⟨[[.derived .phone]], .preludePhonenumber⟩), -- L56
  (.phone, ⟨[[.derived .phone]], .userStd⟩), -- L100
  (.phone, ⟨[[.derived .phone, .derived .serde]], .preludeSerde⟩), -- L151
  (.phone, ⟨[[.derived .phone, .derived .serde]], .mapSerde⟩), -- L156
  -- validators-derive/src/validator_handlers/regex/mod.rs
  (.regex, ⟨[[.derived .regex]], .errorRegexError⟩), -- L30
  (.regex, ⟨[[.derived .regex, .derived .serde]], .preludeSerde⟩), -- L82
  -- validators-derive/src/validator_handlers/regex/regex_attribute.rs
  (.regex, ⟨[[.derived .regex]], .preludeRegex⟩), -- L120
  -- validators-derive/src/validator_handlers/semver/mod.rs
  (.semver, ⟨[[.derived .semver]], .errorSemverError⟩), -- L31
  (.semver, ⟨[[.derived .semver]], .preludeSemver⟩), -- L36
  (.semver, ⟨[[.derived .semver, .derived .serde]], .preludeSerde⟩), -- L69
  (.semver, ⟨[[.derived .semver, .derived .serde]], .semverSerde⟩), -- L74
  -- validators-derive/src/validator_handlers/semver_req/mod.rs
  (.semverReq, ⟨[[.derived .semverReq]], .errorSemverError⟩), -- L31
  (.semverReq, ⟨[[.derived .semverReq]], .preludeSemver⟩), -- L36
  (.semverReq, ⟨[[.derived .semverReq, .derived .serde]], .preludeSerde⟩), -- L69
  (.semverReq, ⟨[[.derived .semverReq, .derived .serde]], .semverSerde⟩), -- L74
  -- validators-derive/src/validator_handlers/signed_integer/mod.rs
  (.signedInteger, ⟨[[.derived .signedInteger]], .errorSignedIntegerError⟩), -- L68
  (.signedInteger, ⟨[[.derived .signedInteger, .derived .test]], .testRangeOption⟩), -- L76
  (.signedInteger, ⟨[[.derived .signedInteger, .derived .serde]], .preludeSerde⟩), -- L513
  -- validators-derive/src/validator_handlers/text/mod.rs
  (.text, ⟨[[.derived .text]], .errorTextError⟩), -- L30
  (.text, ⟨[[.derived .text, .derived .serde]], .preludeSerde⟩), -- L767
  -- validators-derive/src/validator_handlers/unsigned_integer/mod.rs
  (.unsignedInteger, ⟨[[.derived .unsignedInteger]], .errorUnsignedIntegerError⟩), -- L68
  (.unsignedInteger, ⟨[[.derived .unsignedInteger, .derived .test]], .testRangeOption⟩), -- L76
  (.unsignedInteger, ⟨[[.derived .unsignedInteger, .derived .serde]], .preludeSerde⟩), -- L496
  -- validators-derive/src/validator_handlers/url/mod.rs
  (.url, ⟨[[.derived .url]], .errorUrlError⟩), -- L31
  (.url, ⟨[[.derived .url]], .preludeUrl⟩), -- L36
  (.url, ⟨[[.derived .url, .derived .serde]], .preludeSerde⟩), -- L69
  (.url, ⟨[[.derived .url, .derived .serde]], .urlSerde⟩), -- L74
  -- validators-derive/src/validator_handlers/uuid/mod.rs
  (.uuid, ⟨[[.derived .uuid]], .errorUuidError⟩), -- L33
  (.uuid, ⟨[[.derived .uuid, .derived .test]], .testCaseOption⟩), -- L42
  (.uuid, ⟨[[.derived .uuid, .derived .test]], .testSeparatorOption⟩), -- L43
  (.uuid, ⟨[[.derived .uuid]], .traitToUuidString⟩), -- L275
  (.uuid, ⟨[[.derived .uuid, .derived .serde]], .preludeSerde⟩), -- L358
  (.uuid, ⟨[[.derived .uuid, .derived .serde]], .traitToUuidString⟩), -- L363
  -- validators-derive/src/common/rocket.rs
  (.base32, ⟨[[.derived .base32, .derived .rocket]], .preludeRocket⟩), -- L7, called from validator_handlers/base32/mod.rs L280
  (.base32Decoded, ⟨[[.derived .base32Decoded, .derived .rocket]], .preludeRocket⟩), -- L7, called from validator_handlers/base32_decoded/mod.rs L307
  (.base64, ⟨[[.derived .base64, .derived .rocket]], .preludeRocket⟩), -- L7, called from validator_handlers/base64/mod.rs L280
  (.base64Decoded, ⟨[[.derived .base64Decoded, .derived .rocket]], .preludeRocket⟩), -- L7, called from validator_handlers/base64_decoded/mod.rs L307
  (.base64Url, ⟨[[.derived .base64Url, .derived .rocket]], .preludeRocket⟩), -- L7, called from validator_handlers/base64_url/mod.rs L281
  (.base64UrlDecoded, ⟨[[.derived .base64UrlDecoded, .derived .rocket]], .preludeRocket⟩), -- L7, called from validator_handlers/base64_url_decoded/mod.rs L307
  (.bit, ⟨[[.derived .bit, .derived .rocket]], .preludeRocket⟩), -- L7, called from validator_handlers/bit/mod.rs L212
  (.boolean, ⟨[[.derived .boolean, .derived .rocket]], .preludeRocket⟩), -- L7, called from validator_handlers/boolean/mod.rs L406
  (.byte, ⟨[[.derived .byte, .derived .rocket]], .preludeRocket⟩), -- L7, called from validator_handlers/byte/mod.rs L243
  (.domain, ⟨[[.derived .domain, .derived .rocket]], .preludeRocket⟩), -- L7, called from validator_handlers/domain/mod.rs L1111
  (.email, ⟨[[.derived .email, .derived .rocket]], .preludeRocket⟩), -- L7, called from validator_handlers/email/mod.rs L1767
  (.host, ⟨[[.derived .host, .derived .rocket]], .preludeRocket⟩), -- L7, called from validator_handlers/host/mod.rs L839
  (.httpUrl, ⟨[[.derived .httpUrl, .derived .rocket]], .preludeRocket⟩), -- L7, called from validator_handlers/http_url/mod.rs L212
  (.httpFtpUrl, ⟨[[.derived .httpFtpUrl, .derived .rocket]], .preludeRocket⟩), -- L7, called from validator_handlers/http_ftp_url/mod.rs L213
  (.ip, ⟨[[.derived .ip, .derived .rocket]], .preludeRocket⟩), -- L7, called from validator_handlers/ip/mod.rs L540
  (.ipv4, ⟨[[.derived .ipv4, .derived .rocket]], .preludeRocket⟩), -- L7, called from validator_handlers/ipv4/mod.rs L428
  (.ipv6, ⟨[[.derived .ipv6, .derived .rocket]], .preludeRocket⟩), -- L7, called from validator_handlers/ipv6/mod.rs L460
  (.json, ⟨[[.derived .json, .derived .rocket]], .preludeRocket⟩), -- L7, called from validator_handlers/json/mod.rs L263
  (.line, ⟨[[.derived .line, .derived .rocket]], .preludeRocket⟩), -- L7, called from validator_handlers/line/mod.rs L846
  (.macAddress, ⟨[[.derived .macAddress, .derived .rocket]], .preludeRocket⟩), -- L7, called from validator_handlers/mac_address/mod.rs L419
  (.number, ⟨[[.derived .number, .derived .rocket]], .preludeRocket⟩), -- L7, called from validator_handlers/number/mod.rs L448
  (.phone, ⟨[[.derived .phone, .derived .rocket]], .preludeRocket⟩), -- L7, called from validator_handlers/phone/mod.rs L213
  (.regex, ⟨[[.derived .regex, .derived .rocket]], .preludeRocket⟩), -- L7, called from validator_handlers/regex/mod.rs L137
  (.semver, ⟨[[.derived .semver, .derived .rocket]], .preludeRocket⟩), -- L7, called from validator_handlers/semver/mod.rs L97
  (.semverReq, ⟨[[.derived .semverReq, .derived .rocket]], .preludeRocket⟩), -- L7, called from validator_handlers/semver_req/mod.rs L97
  (.signedInteger, ⟨[[.derived .signedInteger, .derived .rocket]], .preludeRocket⟩), -- L7, called from validator_handlers/signed_integer/mod.rs L656
  (.text, ⟨[[.derived .text, .derived .rocket]], .preludeRocket⟩), -- L7, called from validator_handlers/text/mod.rs L846
  (.unsignedInteger, ⟨[[.derived .unsignedInteger, .derived .rocket]], .preludeRocket⟩), -- L7, called from validator_handlers/unsigned_integer/mod.rs L639
  (.url, ⟨[[.derived .url, .derived .rocket]], .preludeRocket⟩), -- L7, called from validator_handlers/url/mod.rs L97
  (.uuid, ⟨[[.derived .uuid, .derived .rocket]], .preludeRocket⟩)] -- L7, called from validator_handlers/uuid/mod.rs L439

/-- The features of which `validators-derive/src/supported_validators.rs` L1-34 wants at least one, else `compile_error!`. -/
def oneOf : List Feature := [
  .base32, .base32Decoded, .base64, .base64Decoded, .base64Url, .base64UrlDecoded, .bit, .boolean,
  .byte, .domain, .email, .host, .httpUrl, .httpFtpUrl, .ip, .ipv4,
  .ipv6, .json, .length, .line, .macAddress, .number, .phone, .regex,
  .semver, .semverReq, .signedInteger, .text, .unsignedInteger, .url, .uuid]

/-- Names for the validators in `#[validator(…)]`: `validators-derive/src/supported_validators.rs` L43-106. -/
def variant : Feature → Option Item
  | .base32 => some .macroVariantBase32
  | .base32Decoded => some .macroVariantBase32Decoded
  | .base64 => some .macroVariantBase64
  | .base64Decoded => some .macroVariantBase64Decoded
  | .base64Url => some .macroVariantBase64Url
  | .base64UrlDecoded => some .macroVariantBase64UrlDecoded
  | .bit => some .macroVariantBit
  | .boolean => some .macroVariantBoolean
  | .byte => some .macroVariantByte
  | .domain => some .macroVariantDomain
  | .email => some .macroVariantEmail
  | .host => some .macroVariantHost
  | .httpUrl => some .macroVariantHttpUrl
  | .httpFtpUrl => some .macroVariantHttpFtpUrl
  | .ip => some .macroVariantIp
  | .ipv4 => some .macroVariantIpv4
  | .ipv6 => some .macroVariantIpv6
  | .json => some .macroVariantJson
  | .length => some .macroVariantLength
  | .line => some .macroVariantLine
  | .macAddress => some .macroVariantMacAddress
  | .number => some .macroVariantNumber
  | .phone => some .macroVariantPhone
  | .regex => some .macroVariantRegex
  | .semver => some .macroVariantSemver
  | .semverReq => some .macroVariantSemverReq
  | .signedInteger => some .macroVariantSignedInteger
  | .text => some .macroVariantText
  | .unsignedInteger => some .macroVariantUnsignedInteger
  | .url => some .macroVariantUrl
  | .uuid => some .macroVariantUuid
  | _ => none

end Verif.Features
