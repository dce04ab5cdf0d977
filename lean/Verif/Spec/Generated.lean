import Verif.Model.Generated
import Verif.Spec.Attr
import Verif.Spec.BaseN
import Verif.Spec.Boolean
import Verif.Spec.Derive
import Verif.Spec.Email
import Verif.Spec.Hex
import Verif.Spec.Int
import Verif.Spec.IpAddr
import Verif.Spec.Line
import Verif.Spec.Phone
import Verif.Spec.Url
import Mathlib.Order.Defs.LinearOrder
import Mathlib.Algebra.Order.Group.Unbundled.Int

/-!
# Specification of a whole validator: from the attribute to the strings it accepts

Of the model, only the types of options, values and libraries are used.
-/

namespace Verif.Spec.Generated

open Verif.Generated Verif.Attr Verif.Derive
open Verif.Range (Bounds RangeOption)
open Verif.BaseN (strBytes)
open Verif.Spec.Attr

variable {τ φ κ N U V ε : Type}

/-! ## What is written -/

/-- The parameters `serde` and `rocket` say these flags. -/
def Integrations (M : Macro τ φ κ) (ps : List (Meta τ)) (serde rocket : Flags) : Prop :=
  Set ps "serde" (SaysFlags M.syn M.serde "Serialize" "Deserialize") ⟨true, true⟩ serde ∧
  Set ps "rocket" (SaysFlags M.syn M.rocket "FromFormField" "FromParam") ⟨true, true⟩ rocket

/-- The options of the validator `v` are what its parameters `ps` say, each with its default. `ty` is the type of the field of
validators of numbers. -/
def Options (M : Macro τ φ κ) (v : Validator) (ps : List (Meta τ)) : Plan φ κ → Prop
  | .base w a => w = v ∧ v ∈ [.base32, .base32_decoded, .base64, .base64_decoded, .base64_url, .base64_url_decoded] ∧
      WellFormed ["padding", "serde", "rocket"] ps ∧ Set ps "padding" (SaysTri M.syn) .allow a.padding ∧ Integrations M ps a.serde a.rocket
  | .basic w a => w = v ∧ v ∈ [.boolean, .json, .semver, .semver_req, .url] ∧ WellFormed ["serde", "rocket"] ps ∧
      Integrations M ps a.serde a.rocket
  | .bit a => v = .bit ∧ WellFormed ["range", "serde", "rocket"] ps ∧
      Set ps "range" (SaysRange M.syn M.full (intTy false 128)) ⟨none, none, false⟩ a.range ∧ Integrations M ps a.serde a.rocket
  | .byte a => v = .byte ∧ WellFormed ["range", "ignore_case", "serde", "rocket"] ps ∧
      Set ps "range" (SaysRange M.syn M.full (intTy false 128)) ⟨none, none, false⟩ a.range ∧
      Set ps "ignore_case" (SaysBool M.syn) true a.ignoreCase ∧ Integrations M ps a.serde a.rocket
  | .domain a => v = .domain ∧ WellFormed ["ipv4", "local", "port", "at_least_two_labels", "conflict", "serde", "rocket"] ps ∧
      Set ps "ipv4" (SaysTri M.syn) .allow a.ipv4 ∧ Set ps "local" (SaysTri M.syn) .allow a.loc ∧
      Set ps "port" (SaysTri M.syn) .allow a.port ∧ Set ps "at_least_two_labels" (SaysTri M.syn) .allow a.atl ∧
      Set ps "conflict" (SaysAllow M.syn) .disallow a.conflict ∧ Integrations M ps a.serde a.rocket
  | .email a => v = .email ∧
      WellFormed ["comment", "ip", "local", "at_least_two_labels", "non_ascii", "conflict", "serde", "rocket"] ps ∧
      Set ps "comment" (SaysAllow M.syn) .allow a.comment ∧ Set ps "ip" (SaysTri M.syn) .allow a.ip ∧
      Set ps "local" (SaysTri M.syn) .allow a.loc ∧ Set ps "at_least_two_labels" (SaysTri M.syn) .allow a.atl ∧
      Set ps "non_ascii" (SaysAllow M.syn) .allow a.nonAscii ∧ Set ps "conflict" (SaysAllow M.syn) .disallow a.conflict ∧
      Integrations M ps a.serde a.rocket
  | .host a => v = .host ∧ WellFormed ["local", "port", "at_least_two_labels", "serde", "rocket"] ps ∧
      Set ps "local" (SaysTri M.syn) .allow a.loc ∧ Set ps "port" (SaysTri M.syn) .allow a.port ∧
      Set ps "at_least_two_labels" (SaysTri M.syn) .allow a.atl ∧ Integrations M ps a.serde a.rocket
  | .url w a => w = v ∧ v ∈ [.http_url, .http_ftp_url] ∧ WellFormed ["local", "serde", "rocket"] ps ∧
      Set ps "local" (SaysTri M.syn) .allow a.loc ∧ Integrations M ps a.serde a.rocket
  | .ip w a => w = v ∧ v ∈ [.ip, .ipv4, .ipv6] ∧ WellFormed ["local", "port", "serde", "rocket"] ps ∧
      Set ps "local" (SaysTri M.syn) .allow a.loc ∧ Set ps "port" (SaysTri M.syn) .allow a.port ∧ Integrations M ps a.serde a.rocket
  | .length a => v = .length ∧ WellFormed ["min", "max", "serde"] ps ∧ SetOpt ps "min" (SaysNumber M.syn M.usize) a.min ∧
      SetOpt ps "max" (SaysNumber M.syn M.usize) a.max ∧
      Set ps "serde" (SaysFlags M.syn M.serde "Serialize" "Deserialize") ⟨true, true⟩ a.serde ∧ NotAbove a.min a.max
  | .utf8 w a => w = v ∧ v ∈ [.line, .text] ∧ WellFormed ["char_length", "byte_length", "serde", "rocket"] ps ∧
      SaysText M.syn M.usize ps a.length ∧ Integrations M ps a.serde a.rocket
  | .hex w a => w = v ∧ v ∈ [.mac_address, .uuid] ∧ WellFormed ["case", "separator", "serde", "rocket"] ps ∧
      Set ps "case" (SaysCase M.syn) .any a.case ∧
      Set ps "separator" (SaysSeparator M.syn) (.allow (asc (if v = .uuid then '-' else ':'))) a.separator ∧
      Integrations M ps a.serde a.rocket
  | .number double a => v = .number ∧ WellFormed ["range", "nan", "conflict", "serde", "rocket"] ps ∧
      Set ps "range" (SaysFinite M.syn M.full (if double then M.f64 else M.f32)) .unlimited a.range ∧
      Set ps "nan" (SaysTri M.syn) .allow a.nan ∧ Set ps "conflict" (SaysAllow M.syn) .disallow a.conflict ∧
      Integrations M ps a.serde a.rocket
  | .phone a => v = .phone ∧ WellFormed ["countries", "serde", "rocket"] ps ∧
      Set ps "countries" (SaysCountries M.syn M.country M.order) [] a.countries ∧ Integrations M ps a.serde a.rocket
  | .regex a => v = .regex ∧ WellFormed ["regex", "serde", "rocket"] ps ∧
      SetOpt ps "regex" (SaysRegex M.syn M.regexOk) (some a.regex) ∧ Integrations M ps a.serde a.rocket
  | .int signed w a => v = (if signed then .signed_integer else .unsigned_integer) ∧ WellFormed ["range", "serde", "rocket"] ps ∧
      Set ps "range" (SaysFinite M.syn M.full (intTy signed (IntV.bits M.ptr w))) .unlimited a.range ∧
      Integrations M ps a.serde a.rocket

/-- Numbers: the type of the field. -/
def FieldType (d : Data) : Plan φ κ → Prop
  | .number double _ => d = .struct (.unnamed [if double then "f64" else "f32"])
  | .int signed w _ => d = .struct (.unnamed [Spec.Derive.intName signed w])
  | _ => True

/-- The item asks for the validator with these options: one attribute `#[validator(..)]`, which names `v`. -/
def Written (M : Macro τ φ κ) (ast : Input τ) (v : Validator) (p : Plan φ κ) : Prop :=
  ∃ a m ps, Spec.Derive.Only Spec.Derive.Ours ast.attrs a ∧ Spec.Derive.Requests M.syn M.enabled a v m ∧ Gives M.syn m ps ∧
    Options M v ps p ∧ FieldType ast.data p

/-! ## What is accepted -/

/-- The notation of a base-N validator. -/
def notationOf : Validator → Spec.BaseN.Notation
  | .base32 => Spec.BaseN.base32
  | .base32_decoded => Spec.BaseN.base32
  | .base64_url => Spec.BaseN.base64Url
  | .base64_url_decoded => Spec.BaseN.base64Url
  | _ => Spec.BaseN.base64

/-- Within the bounds of a length. -/
def LengthOk (k : Line.Kind) (l : Option (Bool × Length)) (s : List Char) : Prop :=
  match l with
  | none => Spec.Line.Clean k s
  | some (isByte, l) => Spec.Line.SizeOk isByte l.min l.max s ∧ Spec.Line.TrimmedOk isByte l.trimmedMin s ∧
      -- C24: with `trimmed_min` the leading white space is not looked at
      Spec.Line.Clean k (if l.trimmedMin = none then s else Spec.Line.trimStart s)

/-- Which values a float validator takes. -/
def FloatOk [LinearOrder φ] (range : RangeOption φ) (nan : TriAllow) : Number.Fl φ → Prop
  | none => nan ≠ .disallow
  | some x => Spec.Range.Satisfies range x ∧ nan ≠ .must

/-- What a `phone` validator takes for these countries. -/
def PhoneOk (lib : Phone.Lib κ N) (s : List UInt8) : List κ → Phone.Value κ N → Prop
  | [], .number n => lib.parse none s = some n ∧ lib.isValid n = true
  | [c], .number n => Spec.Phone.NumberOf lib c s n
  | c :: d :: cs, .numbers m => (∀ x ∈ c :: d :: cs, Spec.Phone.Readable lib x s) ∧ m ≠ [] ∧
      Spec.Phone.MapsExactly lib (c :: d :: cs) s m ∧ (m.map (·.1)).Nodup
  | _, _ => False

/-- The options of the network validators. -/
def domainOpts (a : DomainAttribute) : Domain.Opts := ⟨a.ipv4, a.loc, a.port, a.atl⟩
def hostOpts (a : HostAttribute) : Host.Opts := ⟨a.loc, a.port, a.atl⟩
def emailOpts (checked : Bool) (a : EmailAttribute) : Email.Opts := ⟨a.comment, a.ip, a.loc, a.atl, a.nonAscii, checked⟩

/-- A validator with the options `p` accepts the string `s` as `x`. -/
def Means [LinearOrder φ] (L : Libs φ κ N U V ε) (p : Plan φ κ) (s : List Char) (x : Value φ κ N U V) : Prop :=
  match p, x with
  | .base v a, .text t => v ∈ [.base32, .base64, .base64_url] ∧ t = s ∧ Spec.BaseN.Accepts (notationOf v) a.padding (strBytes s)
  | .base v a, .bytes d => v ∈ [.base32_decoded, .base64_decoded, .base64_url_decoded] ∧
      Spec.BaseN.Decodes (notationOf v) a.padding (strBytes s) d
  | .basic v _, .bool b => v = .boolean ∧
      (strBytes s).map Spec.Boolean.lower ∈ (if b then Spec.Boolean.trueWords else Spec.Boolean.falseWords)
  | .basic v _, .object y => v ≠ .boolean ∧ L.lib v (strBytes s) = .ok y
  | .bit a, .size n => L.bit (strBytes s) = some n ∧ Spec.Range.Contains a.range (n : Int)
  | .byte a, .size n => L.byte a.ignoreCase (strBytes s) = some n ∧ Spec.Range.Contains a.range (n : Int)
  | .domain a, .domain y => strBytes s ≠ [] ∧ ∃ d, Spec.Domain.HostPort (strBytes s) d y.port ∧ Spec.Ip.PortOk a.port y.port ∧
      (y.domain = strBytes s ∧ (∃ x, Spec.Domain.AsIpv4 (domainOpts a) d x y) ∨ Spec.Domain.AsName (domainOpts a) L.idna d y)
  | .email a, .email y => ∃ q t h tail, Spec.Email.Denotes (emailOpts L.checked a) L.idna (strBytes s) y q t h tail
  | .host a, .host y => Spec.Ip.PortOk a.port y.port ∧ (Spec.Host.AsIpv6 (hostOpts a) (strBytes s) y ∨
      Spec.Host.AsIpv4 (hostOpts a) (strBytes s) y ∨ Spec.Host.AsName (hostOpts a) L.idna (strBytes s) y)
  | .url v a, .http u https => v = .http_url ∧ Spec.Url.HasScheme (ascii (if https then "https" else "http")) (strBytes s) ∧
      L.url.parse (strBytes s) = some u ∧ Spec.Ip.LocalOk a.loc (Spec.Url.LocalUrl L.url u)
  | .url v a, .httpFtp u p => v = .http_ftp_url ∧ Spec.Url.HasScheme (Spec.Url.schemeOf p) (strBytes s) ∧
      L.url.parse (strBytes s) = some u ∧ Spec.Ip.LocalOk a.loc (Spec.Url.LocalUrl L.url u)
  | .ip v a, .ip y port => v = .ip ∧ Spec.Ip.IpInput (strBytes s) y port ∧ Spec.Ip.PortOk a.port port ∧
      Spec.Ip.LocalOk a.loc (Spec.Ip.LocalIp y)
  | .ip v a, .ipv4 y port => v = .ipv4 ∧ Spec.Ip.V4Input (strBytes s) y port ∧ Spec.Ip.PortOk a.port port ∧
      Spec.Ip.LocalOk a.loc (Spec.Ip.Local4 y.number)
  | .ip v a, .ipv6 y port => v = .ipv6 ∧ Spec.Ip.V6Input (strBytes s) y port ∧ Spec.Ip.PortOk a.port port ∧
      Spec.Ip.LocalOk a.loc (Spec.Ip.Local6 y.number)
  | .utf8 v a, .text t => t = s ∧ LengthOk (if v = .line then .line else .text) a.length s
  | .hex v a, .hex n => Spec.Hex.Reads a.separator a.case (if v = .uuid then Spec.Hex.uuidSizes else Spec.Hex.macSizes) (strBytes s) n
  | .number double a, .number f => (if double then L.f64 else L.f32) (strBytes s) = some f ∧ FloatOk a.range a.nan f
  | .phone a, .phone y => PhoneOk L.phone (strBytes s) a.countries y
  | .regex a, .matched t => t = strBytes s ∧ L.isMatch a.regex (strBytes s) = true
  | .int signed w a, .int i => Spec.IntV.Numeral signed (strBytes s) i ∧ Spec.IntV.Fits signed (IntV.bits L.ptr w) i ∧
      Spec.Range.Satisfies a.range i
  | _, _ => False

/-- The same value. `phone` for several countries gives a map, whose entries have no order. -/
def Same : Value φ κ N U V → Value φ κ N U V → Prop
  | .phone (.numbers m), .phone (.numbers n) => m.Perm n
  | x, y => x = y

/-! ## Side conditions -/

/-- There is an `impl ValidateString` that compiles: not for `length`, and not for an `unsigned_integer` that excludes a range of
two or more values. -/
def HasImpl : Plan φ κ → Prop
  | .length _ => False
  | .int signed _ a => ¬ ∃ b x y, signed = false ∧ a.range = .outside b ∧ b.min = some x ∧ b.max = some y ∧
      ¬ (if b.inclusive then x = y else x + 1 = y)
  | _ => True

/-- The decoding validators. -/
def Decoded : Plan φ κ → Prop
  | .base v _ => v ∈ [.base32_decoded, .base64_decoded, .base64_url_decoded]
  | _ => False

/-- The finding C73: `char_length` whose maximum is the largest number that the program's `usize` has. -/
def LargestMax (ptr : IntV.Ptr) (p : Plan φ κ) : Prop :=
  match p with
  | .utf8 _ a => ∃ l m, a.length = some (false, l) ∧ l.max = some m ∧ 2 ^ IntV.bits ptr .size - 1 ≤ m
  | _ => False

/-- The strings on which a validator panics, which are the findings C12, C40 and C73: a `mac_address` with optional separators whose
string of at least 12 bytes has at most 2 left after four pairs of digits; an `email` with comments, in a program with overflow checks,
on a string of at most 320 bytes that opens a second comment, not at its end, after a local part of at least 64 bytes; and every
string, in a program with overflow checks, if `char_length` has the largest maximum. -/
def Panics (checked : Bool) (ptr : IntV.Ptr) (p : Plan φ κ) (s : List Char) : Prop :=
  match p with
  | .hex v a => v = .mac_address ∧ (∃ b, a.separator = .allow b) ∧ 12 ≤ (strBytes s).length ∧
      ∃ rest, Spec.Hex.Pairs a.separator 4 (strBytes s) rest ∧ rest.length ≤ 2
  | .email a => (strBytes s).length ≤ 320 ∧ a.comment = .allow ∧ checked = true ∧
      ∃ c1 q t r, strBytes s = Spec.Email.comment c1 ++ Spec.Email.quote q t ++ ascii "(" ++ r ∧ r ≠ [] ∧
        Spec.Email.LocalText (emailOpts checked a) c1 q t ∧ 64 ≤ (Spec.Email.comment c1 ++ Spec.Email.quote q t).length
  | .utf8 v a => checked = true ∧ LargestMax ptr (.utf8 v a : Plan φ κ)
  | _ => False

end Verif.Spec.Generated
