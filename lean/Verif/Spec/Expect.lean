import Verif.Model.Expect
import Verif.Spec.Generated

/-!
# Specification of what the texts of expectation say

Of the model, only the types of pieces, options, values and libraries are used.
-/

namespace Verif.Spec.Expect

open Verif Verif.Generated Verif.Attr Verif.Derive Verif.Expect Verif.Spec.Generated
open Verif.Range (Bounds RangeOption)
open Verif.BaseN (strBytes)

variable {φ κ N U V ε : Type}

/-! ## Looking at a value -/

/-- The port. -/
def portOf : Value φ κ N U V → Option Nat
  | .domain y => y.port
  | .host y => y.port
  | .ip _ n => n
  | .ipv4 _ n => n
  | .ipv6 _ n => n
  | _ => none

/-- The host of a host or an email. -/
def hostOf : Value φ κ N U V → Option Host.Host
  | .host y => some y.host
  | .email y => some y.host
  | _ => none

/-- The name of a domain, a host or an email. -/
def NameOf (x : Value φ κ N U V) (a : List UInt8) : Prop := (∃ y, x = .domain y ∧ y.domain = a) ∨ hostOf x = some (.domain a)

/-- The value is local. A domain is local as a name or as an address. -/
def LocalValue (L : Libs φ κ N U V ε) (s : List Char) : Value φ κ N U V → Prop
  | .domain y => Spec.Domain.LocalName y.domain ∨ ∃ d v4, Spec.Domain.HostPort (strBytes s) d y.port ∧ Spec.Domain.QuadDot d v4 ∧ Spec.Ip.Local4 v4.number
  | .host y => Spec.Host.LocalHost y.host
  | .email y => Spec.Host.LocalHost y.host
  | .http u _ => Spec.Url.LocalUrl L.url u
  | .httpFtp u _ => Spec.Url.LocalUrl L.url u
  | .ip y _ => Spec.Ip.LocalIp y
  | .ipv4 y _ => Spec.Ip.Local4 y.number
  | .ipv6 y _ => Spec.Ip.Local6 y.number
  | _ => False

/-! ## Phrases -/

/-- The text has one of these phrases. -/
def Has (t : List (Piece φ κ)) (ws : List String) : Prop := ∃ w ∈ ws, .words w ∈ t

def withPort : List String := [" with a port", " and with a port", " and must be with a port"]
def withoutPort : List String := [" without ports", " and without ports", " and must be without ports"]
def twoLabels : List String :=
  ["at-least-two-labels ", "at-least-two-labels and ", "and at-least-two-labels ", " whose domain part must be at-least-two-labels", " and at-least-two-labels"]
def oneLabel : List String := ["one-label ", "and one-label ", " whose domain part must be one-label", " and one-label"]

/-- The notations, by name. -/
def notations : List (String × Spec.BaseN.Notation) :=
  [("Base32", Spec.BaseN.base32), ("Base64", Spec.BaseN.base64), ("Base64-url", Spec.BaseN.base64Url)]

/-- How separators are announced. -/
def separatorText : SeparatorOption → List (Piece φ κ)
  | .must b => [.words " with separators ", .char b]
  | .allow b => [.words " with optional separators ", .char b]
  | .disallow => [.words " without separators"]

/-- The sizes of the groups of digits, by name. -/
def groups : List (String × List Nat) := [("MacAddress string", Spec.Hex.macSizes), ("UUID string", Spec.Hex.uuidSizes)]

/-- Bounds in the notation of Rust: `1..5`, `1..=5`, `..5`, `1..`. -/
def boundsText {α : Type} (num : α → Piece φ κ) : Bounds α → List (Piece φ κ)
  | ⟨none, none, _⟩ => [.words ".."]
  | ⟨some m, none, _⟩ => [num m, .words ".."]
  | ⟨none, some n, false⟩ => [.words "..", num n]
  | ⟨none, some n, true⟩ => [.words "..", .words "=", num n]
  | ⟨some m, some n, false⟩ => [num m, .words "..", num n]
  | ⟨some m, some n, true⟩ => [num m, .words "..", .words "=", num n]

/-- How a range is announced. -/
def rangeText {α : Type} (num : α → Piece φ κ) : RangeOption α → List (Piece φ κ)
  | .inside b => .words " in " :: boundsText num b
  | .outside b => .words " not in " :: boundsText num b
  | .unlimited => []

/-- How NaN is announced. -/
def nanText : TriAllow → List (Piece φ κ)
  | .allow => []
  | .must => [.words " which must be NaN"]
  | .disallow => [.words " which must not be NaN"]

/-- How lengths are announced: ` in 3(1)..=5` where `1` is the length without the surrounding white space. -/
def lengthText (min trimmedMin max : Option Nat) : List (Piece φ κ) :=
  .words " in " :: (min.toList.map fun m => .int m) ++ (trimmedMin.toList.flatMap fun m => [.words "(", .int m, .words ")"]) ++
    .words ".." :: max.toList.flatMap fun m => [.words "=", .int m]

/-! ## What the text says -/

/-- What the text `t` says of the string `s` and its value `x` is true. -/
structure Truthful [LinearOrder φ] (L : Libs φ κ N U V ε) (t : List (Piece φ κ)) (s : List Char) (x : Value φ κ N U V) : Prop where
  -- ports and local hosts
  port : Has t withPort → portOf x ≠ none
  noPort : Has t withoutPort → portOf x = none
  loc : Has t [" which must be local"] → LocalValue L s x
  notLoc : Has t [" which must not be local"] → ¬ LocalValue L s x
  -- labels: local names are exempt
  two : Has t twoLabels → ∀ a, NameOf x a → Spec.Domain.ManyLabels a ∨ Spec.Domain.LocalName a
  one : Has t oneLabel → ∃ a, NameOf x a ∧ ¬ Spec.Domain.ManyLabels a
  -- what kind of host
  ipv4 : Has t ["an IPv4 string", "IPv4 string"] → ∃ d v4, Spec.Domain.HostPort (strBytes s) d (portOf x) ∧ Spec.Domain.QuadDot d v4
  notIpv4 : Has t ["non-IPv4 domain name"] → ∃ d, Spec.Domain.HostPort (strBytes s) d (portOf x) ∧ ∀ v4, ¬ Spec.Domain.QuadDot d v4
  ipv6 : Has t ["an IPv6 string"] → ∃ v6, Spec.Ip.V6Input (strBytes s) v6 (portOf x)
  ip : Has t ["an IP string"] → ∃ i, Spec.Ip.IpInput (strBytes s) i (portOf x)
  nameOrIp : Has t ["domain name or an IP string"] → (∃ i, Spec.Ip.IpInput (strBytes s) i (portOf x)) ∨ ∃ a, NameOf x a
  notQualified : Has t ["a non-fully-qualified "] → ∀ a, NameOf x a → ∃ d, Spec.Domain.HostPort (strBytes s) d (portOf x) ∧ ¬ ∃ c, d = c ++ ascii "."
  hostIp : Has t [" whose domain part must be an IP"] → ∀ a, ¬ NameOf x a
  hostName : Has t [" whose domain part must be non-IP"] → ∃ a, NameOf x a
  -- what is said of the whole email holds of its local part
  asciiEmail : Has t ["an ASCII email"] → ∃ y, x = .email y ∧ ∀ b ∈ y.text, b.toNat < 128
  -- encodings
  symbols : ∀ n ∈ notations, Has t ["a " ++ n.1 ++ " string or data", "a " ++ n.1 ++ " string or data with padding", "a " ++ n.1 ++ " string or data without padding"] →
    ∀ b ∈ strBytes s, b ∈ n.2.alphabet ∨ b = asc '='
  padding : ∀ n ∈ notations, Has t ["a " ++ n.1 ++ " string or data with padding"] → (strBytes s).length % n.2.block = 0
  noPadding : ∀ n ∈ notations, Has t ["a " ++ n.1 ++ " string or data without padding"] → asc '=' ∉ strBytes s
  -- digits and separators
  digits : ∀ g ∈ groups, ∀ sep, Has t [g.1] → separatorText sep <:+: t → ∃ ds, Spec.Hex.Grouped sep g.2 ds (strBytes s) ∧
    (∀ b ∈ ds, b ∈ Spec.Hex.symbols .any) ∧ (Has t ["upper-case "] → ∀ b ∈ ds, b ∈ Spec.Hex.symbols .upper) ∧
    (Has t ["lower-case "] → ∀ b ∈ ds, b ∈ Spec.Hex.symbols .lower)
  -- protocols
  http : Has t ["a http/https url"] → ∃ p ∈ ["http", "https"], Spec.Url.HasScheme (ascii p) (strBytes s)
  httpFtp : Has t ["a http/https/ftp url"] → ∃ p ∈ ["http", "https", "ftp"], Spec.Url.HasScheme (ascii p) (strBytes s)
  -- numbers
  signed : ∀ r, t = .words "a signed integer" :: rangeText .int r → ∃ i, x = .int i ∧ Spec.IntV.Numeral true (strBytes s) i ∧ Spec.Range.Satisfies r i
  unsigned : ∀ r, t = .words "a unsigned integer" :: rangeText .int r → ∃ i, x = .int i ∧ Spec.IntV.Numeral false (strBytes s) i ∧ Spec.Range.Satisfies r i
  number : ∀ r nan, t = .words "a number" :: rangeText .float r ++ nanText nan → ∃ f, x = .number f ∧
    (∀ y, f = some y → Spec.Range.Satisfies r y ∧ nan ≠ .must) ∧ (f = none → nan ≠ .disallow)
  -- lengths, in characters or in bytes
  lengths : ∀ min trimmedMin max, t = .words "a line" :: lengthText min trimmedMin max → ∃ isByte,
    Spec.Line.SizeOk isByte min max s ∧ Spec.Line.TrimmedOk isByte trimmedMin s
  -- phone numbers
  phone : ∀ cs, .countries cs ∈ t → ∃ c ∈ cs, ∃ n, Spec.Phone.NumberOf L.phone c (strBytes s) n
  international : Has t ["an international phone number"] → ∃ n, L.phone.parse none (strBytes s) = some n ∧ L.phone.isValid n = true

/-! ## What the text leaves out -/

/-- The same validator, for the same type of number. -/
def SameKind : Plan φ κ → Plan φ κ → Prop
  | .base v _, .base w _ => v = w
  | .basic v _, .basic w _ => v = w
  | .byte _, .byte _ => True
  | .domain _, .domain _ => True
  | .email _, .email _ => True
  | .host _, .host _ => True
  | .url v _, .url w _ => v = w
  | .ip v _, .ip w _ => v = w
  | .utf8 v _, .utf8 w _ => v = w
  | .hex v _, .hex w _ => v = w
  | .number d _, .number e _ => d = e
  | .phone _, .phone _ => True
  | .regex _, .regex _ => True
  | .int b v _, .int c w _ => b = c ∧ v = w
  | _, _ => False

/-- The options that the texts never mention are the same: for `domain` and `email`, whether they ask for one label; for `email`
whether they allow comments, and locality; for `line` and `text` whether lengths are in bytes; the range and the case of `byte`; the
regular expression. -/
def SameUnsaid : Plan φ κ → Plan φ κ → Prop
  | .domain a, .domain b => a.atl = .disallow ↔ b.atl = .disallow
  | .email a, .email b => (a.atl = .disallow ↔ b.atl = .disallow) ∧ a.comment = b.comment ∧ a.loc = b.loc
  | .utf8 _ a, .utf8 _ b => ∀ i l j m, a.length = some (i, l) → b.length = some (j, m) → i = j
  | .byte a, .byte b => a.range = b.range ∧ a.ignoreCase = b.ignoreCase
  | .regex a, .regex b => a.regex = b.regex
  | _, _ => True

end Verif.Spec.Expect
