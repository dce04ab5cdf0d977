import Verif.Model.Derive

/-!
# What `Deserialize` says it expects

The handlers compose the text that `Visitor::expecting` writes: the part of a deserialization error that says what should have been
there ("invalid type: integer `5`, expected an IPv4 string without ports"). Paths are relative to
`validators-derive/src/validator_handlers`. Simplification: the text is the list of the pieces that are pushed, so that how numbers,
characters and countries are printed (`Display` of tokens, `Debug`) is left open.
-/

namespace Verif.Expect

open Verif.Attr Verif.Derive
open Verif.Range (Bounds RangeOption)

/-- What is pushed. -/
inductive Piece (φ κ : Type) where
  /-- `push_str`, or the words of a format string -/
  | words (s : String)
  /-- `{min}`, `{max}` of a `number` -/
  | float (x : φ)
  /-- the same of an integer, and of lengths -/
  | int (i : Int)
  /-- `{:?}` of `e as char` -/
  | char (b : UInt8)
  /-- `{:?}` of the countries -/
  | countries (cs : List κ)
  deriving DecidableEq

variable {φ κ : Type}

/-- `base64/mod.rs` L219-223 and the five siblings (`base32`, `base64_url` at the same place, the decoding ones at L246-250). -/
def baseExpect (name : String) (padding : TriAllow) : List (Piece φ κ) :=
  match padding with
  | .allow => [.words ("a " ++ name ++ " string or data")]
  | .must => [.words ("a " ++ name ++ " string or data with padding")]
  | .disallow => [.words ("a " ++ name ++ " string or data without padding")]

/-- The end that addresses, hosts and domains share: `ipv4/mod.rs` L351-391, `ipv6/mod.rs` L383-423, `ip/mod.rs` L463-503,
`host/mod.rs` L761-801, `domain/mod.rs` L1028-1068. -/
def localPort (loc port : TriAllow) : List (Piece φ κ) :=
  match loc with
  | .allow => match port with
    | .allow => [.words " with an optional port"]
    | .must => [.words " with a port"]
    | .disallow => [.words " without ports"]
  | .must => .words " which must be local" :: match port with
    | .allow => []
    | .must => [.words " and with a port"]
    | .disallow => [.words " and without ports"]
  | .disallow => .words " which must not be local" :: match port with
    | .allow => []
    | .must => [.words " and must be with a port"]
    | .disallow => [.words " and must be without ports"]

/-- `domain/mod.rs` L998-1070. -/
def domainExpect (a : DomainAttribute) : List (Piece φ κ) :=
  .words "a correct " ::
    (match a.ipv4 with
    | .allow => (match a.atl with
        | .allow => []
        | .must => [.words "at-least-two-labels "]
        | .disallow => [.words "one-label "]) ++ [.words "domain name"]
    | .must => [.words "IPv4 string"]
    | .disallow => (if a.atl = .must then [.words "at-least-two-labels and "] else []) ++ [.words "non-IPv4 domain name"]) ++
    localPort a.loc a.port

/-- `host/mod.rs` L747-803. -/
def hostExpect (a : HostAttribute) : List (Piece φ κ) :=
  .words "a non-fully-qualified " ::
    (match a.atl with
    | .allow => []
    | .must => [.words "and at-least-two-labels "]
    | .disallow => [.words "and one-label "]) ++
    .words "domain name or an IP string" :: localPort a.loc a.port

/-- `email/mod.rs` L1695-1732. -/
def emailExpect (a : EmailAttribute) : List (Piece φ κ) :=
  (if a.nonAscii = .disallow then .words "an ASCII email" else .words "an email") ::
    match a.ip with
    | .allow => (match a.atl with
        | .allow => []
        | .must => [.words " whose domain part must be at-least-two-labels"]
        | .disallow => [.words " whose domain part must be one-label"])
    | .must => [.words " whose domain part must be an IP"]
    | .disallow => .words " whose domain part must be non-IP" :: match a.atl with
        | .allow => []
        | .must => [.words " and at-least-two-labels"]
        | .disallow => [.words " and one-label"]

/-- `http_url/mod.rs` L162-176, `http_ftp_url/mod.rs` L163-177. -/
def urlExpect (name : String) (loc : TriAllow) : List (Piece φ κ) :=
  .words ("a " ++ name ++ " url") :: match loc with
    | .allow => []
    | .must => [.words " which must be local"]
    | .disallow => [.words " which must not be local"]

/-- `mac_address/mod.rs` L352-384, `uuid/mod.rs` L372-404. -/
def hexExpect (name : String) (a : HexAttribute) : List (Piece φ κ) :=
  .words "a valid " ::
    (match a.case with
    | .any => []
    | .upper => [.words "upper-case "]
    | .lower => [.words "lower-case "]) ++
    .words (name ++ " string") :: match a.separator with
    | .must b => [.words " with separators ", .char b]
    | .allow b => [.words " with optional separators ", .char b]
    | .disallow => [.words " without separators"]

/-- The bounds: `signed_integer/mod.rs` L539-553, L561-575, `unsigned_integer/mod.rs` L522-534, L544-556, `number/mod.rs` L341-353,
L363-375. -/
def boundsExpect {α : Type} (num : α → Piece φ κ) (b : Bounds α) : List (Piece φ κ) :=
  (match b.min with
    | some m => [num m]
    | none => []) ++
  .words ".." :: match b.max with
    | some m => (if b.inclusive then [.words "="] else []) ++ [num m]
    | none => []

/-- The range: the same functions, around. -/
def rangeExpect {α : Type} (num : α → Piece φ κ) : RangeOption α → List (Piece φ κ)
  | .inside b => .words " in " :: boundsExpect num b
  | .outside b => .words " not in " :: boundsExpect num b
  | .unlimited => []

/-- `number/mod.rs` L329-389. -/
def numberExpect (a : NumberAttribute φ) : List (Piece φ κ) :=
  .words "a number" :: rangeExpect .float a.range ++ match a.nan with
    | .allow => []
    | .must => [.words " which must be NaN"]
    | .disallow => [.words " which must not be NaN"]

/-- `line/mod.rs` L781-803; `text/mod.rs` L781-803 word for word, `"a line"` included. Without `char_length` and `byte_length`
there is no bound (L31-43). -/
def utf8Expect (l : Option (Bool × Length)) : List (Piece φ κ) :=
  .words "a line" :: match l with
    | none => []
    | some (_, l) =>
      if l.min.isSome || l.max.isSome || l.trimmedMin.isSome then
        .words " in " :: (match l.min with
          | some m => [.int m]
          | none => []) ++ (match l.trimmedMin with
          | some m => [.words "(", .int m, .words ")"]
          | none => []) ++ .words ".." :: match l.max with
          | some m => [.words "=", .int m]
          | none => []
      else []

/-- `phone/mod.rs` L165-177. -/
def phoneExpect (cs : List κ) : List (Piece φ κ) :=
  if cs.isEmpty then [.words "an international phone number"] else [.words "a phone number in ", .countries cs]

/-- The text for each validator. `none`: `Deserialize` goes through another type (`bit`, `length`, `json`, `url`, `semver`,
`semver_req`), so this crate has no text. -/
def expect : Plan φ κ → Option (List (Piece φ κ))
  | .base v a => match v with
    | .base32 => some (baseExpect "Base32" a.padding)
    | .base32_decoded => some (baseExpect "Base32" a.padding)
    | .base64 => some (baseExpect "Base64" a.padding)
    | .base64_decoded => some (baseExpect "Base64" a.padding)
    | .base64_url => some (baseExpect "Base64-url" a.padding)
    | .base64_url_decoded => some (baseExpect "Base64-url" a.padding)
    | _ => none
  | .basic v _ => match v with
    -- `boolean/mod.rs` L319-320
    | .boolean => some [.words "a boolean, a boolean string like \"true\", \"false\", \"0\", \"1\", \"on\", \"off\", \"yes\", \"no\", or a number `0` or `1`"]
    | _ => none
  | .bit _ => none
  -- `byte/mod.rs` L196-197
  | .byte _ => some [.words "a string such as \"123\", \"123Kib\", \"50.84 Mb\", or a positive integer"]
  | .domain a => some (domainExpect a)
  | .email a => some (emailExpect a)
  | .host a => some (hostExpect a)
  | .url v a => match v with
    | .http_url => some (urlExpect "http/https" a.loc)
    | .http_ftp_url => some (urlExpect "http/https/ftp" a.loc)
    | _ => none
  | .ip v a => match v with
    | .ip => some (.words "an IP string" :: localPort a.loc a.port)
    | .ipv4 => some (.words "an IPv4 string" :: localPort a.loc a.port)
    | .ipv6 => some (.words "an IPv6 string" :: localPort a.loc a.port)
    | _ => none
  | .length _ => none
  | .utf8 v a => match v with
    | .line => some (utf8Expect a.length)
    | .text => some (utf8Expect a.length)
    | _ => none
  | .hex v a => match v with
    | .mac_address => some (hexExpect "MacAddress" a)
    | .uuid => some (hexExpect "UUID" a)
    | _ => none
  | .number _ a => some (numberExpect a)
  | .phone a => some (phoneExpect a.countries)
  -- `regex/mod.rs` L94
  | .regex _ => some [.words "a string matched by a regular expression"]
  | .int signed _ a => some (.words (if signed then "a signed integer" else "a unsigned integer") :: rangeExpect .int a.range)

end Verif.Expect
