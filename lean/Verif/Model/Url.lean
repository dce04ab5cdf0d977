import Verif.Model.Host

/-!
# The `http_url` and `http_ftp_url` handlers

The URL library (`url` crate) is a parameter: what `Url::parse` returns and the host of the parsed URL.
-/

namespace Verif.Url

open Verif.Host (Host)
open Verif.Ip (isLocalV4 isLocalV6)
open Verif.Domain (toLower isLocalDomain)

/-- What the handlers use of the `url` crate: `Url::parse` (`none` is any error) and `Url::host`. -/
structure Lib (U : Type) where
  parse : List UInt8 → Option U
  host : U → Option Host

/-- `HttpURLError` / `HttpFtpURLError`: `validators/src/errors/http_url.rs`, `http_ftp_url.rs`. -/
inductive UrlError where
  | parseError
  | protocolError
  | localMust
  | localDisallow
  deriving DecidableEq, Repr

/-- `str_utils`' `starts_with_ignore_ascii_case_with_lowercase`: the prefix is given in lowercase. -/
def startsWithLower (s prefix' : List UInt8) : Bool :=
  decide (prefix'.length ≤ s.length) && (s.take prefix'.length).map toLower == prefix'

/-- `str_utils`' `starts_with_ignore_ascii_case_with_lowercase_multiple`: the index of the first prefix that fits. -/
def startsWithLowerMultiple (s : List UInt8) (prefixes : List (List UInt8)) : Option Nat :=
  prefixes.findIdx? (startsWithLower s)

/-- The `is_local` block of `handle_local`: `http_url/mod.rs` L73-79, `http_ftp_url/mod.rs` L73-79. `host().unwrap()`
panics if there is no host. -/
def isLocal {U : Type} (lib : Lib U) (url : U) : Out UrlError Bool :=
  match lib.host url with
  | none => .panic
  | some (.domain d) => .ok (isLocalDomain d)
  | some (.ipv4 ip) => .ok (isLocalV4 ip)
  | some (.ipv6 ip) => .ok (isLocalV6 ip)

/-- `handle_local`: `http_url/mod.rs` L52-85, `http_ftp_url/mod.rs` L52-85. Nothing is generated for `local(Allow)`. -/
def handleLocal {U : Type} (lib : Lib U) (loc : TriAllow) (url : U) : Out UrlError Unit :=
  match loc with
  | .allow => .ok ()
  | .disallow => (isLocal lib url).bind fun l => if l then .err .localDisallow else .ok ()
  | .must => (isLocal lib url).bind fun l => if !l then .err .localMust else .ok ()

/-- `v_parse_str` of `http_url`: `http_url/mod.rs` L87-112. The flag is `is_https`. -/
def parseHttp {U : Type} (lib : Lib U) (loc : TriAllow) (s : List UInt8) : Out UrlError (U × Bool) :=
  match startsWithLowerMultiple s [ascii "http:", ascii "https:"] with
  | none => .err .protocolError
  | some index =>
    (match index with
      | 0 => .ok false
      | 1 => .ok true
      | _ => .panic : Out UrlError Bool).bind fun isHttps =>
    match lib.parse s with
    | none => .err .parseError
    | some url => (handleLocal lib loc url).bind fun _ => .ok (url, isHttps)

/-- `Protocol`: `validators/src/models/protocol.rs` L1-6. -/
inductive Protocol where
  | http
  | https
  | ftp
  deriving DecidableEq, Repr

/-- `v_parse_str` of `http_ftp_url`: `http_ftp_url/mod.rs` L87-113. -/
def parseHttpFtp {U : Type} (lib : Lib U) (loc : TriAllow) (s : List UInt8) : Out UrlError (U × Protocol) :=
  match startsWithLowerMultiple s [ascii "http:", ascii "https:", ascii "ftp:"] with
  | none => .err .protocolError
  | some index =>
    (match index with
      | 0 => .ok .http
      | 1 => .ok .https
      | 2 => .ok .ftp
      | _ => .panic : Out UrlError Protocol).bind fun protocol =>
    match lib.parse s with
    | none => .err .parseError
    | some url => (handleLocal lib loc url).bind fun _ => .ok (url, protocol)

/-- `parse_string` and `parse_str`: the fields of the value are the pair. `http_url/mod.rs` L117-135,
`http_ftp_url/mod.rs` L118-136. -/
def parseHttpStr {U : Type} (lib : Lib U) (loc : TriAllow) (s : List UInt8) : Out UrlError (U × Bool) :=
  (parseHttp lib loc s).bind fun p => .ok (p.1, p.2)

/-- `validate_str`: `http_url/mod.rs` L137-142. -/
def validateHttpStr {U : Type} (lib : Lib U) (loc : TriAllow) (s : List UInt8) : Out UrlError Unit :=
  (parseHttp lib loc s).bind fun _ => .ok ()

/-- As above for `http_ftp_url`. -/
def parseHttpFtpStr {U : Type} (lib : Lib U) (loc : TriAllow) (s : List UInt8) : Out UrlError (U × Protocol) :=
  (parseHttpFtp lib loc s).bind fun p => .ok (p.1, p.2)

/-- `validate_str`: `http_ftp_url/mod.rs` L138-143. -/
def validateHttpFtpStr {U : Type} (lib : Lib U) (loc : TriAllow) (s : List UInt8) : Out UrlError Unit :=
  (parseHttpFtp lib loc s).bind fun _ => .ok ()

end Verif.Url
