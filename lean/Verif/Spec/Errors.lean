import Verif.Spec.Generated

/-!
# Specification of the texts of the errors: what each text says

Of the model, only the types of options and libraries are used.
-/

namespace Verif.Spec.Errors

open Verif.Generated Verif.Attr Verif.Derive Verif.Spec.Generated
open Verif.Range (Bounds RangeOption)
open Verif.BaseN (strBytes)

variable {φ κ N U V ε : Type}

/-! ## Options by their names in the attribute -/

/-- `padding` -/
def padding : Plan φ κ → Option TriAllow
  | .base _ a => some a.padding
  | _ => none

/-- `port` -/
def port : Plan φ κ → Option TriAllow
  | .domain a => some a.port
  | .host a => some a.port
  | .ip _ a => some a.port
  | _ => none

/-- `local` -/
def loc : Plan φ κ → Option TriAllow
  | .domain a => some a.loc
  | .email a => some a.loc
  | .host a => some a.loc
  | .url _ a => some a.loc
  | .ip _ a => some a.loc
  | _ => none

/-- `at_least_two_labels` -/
def labels : Plan φ κ → Option TriAllow
  | .domain a => some a.atl
  | .email a => some a.atl
  | .host a => some a.atl
  | _ => none

/-- `ipv4` -/
def ipv4 : Plan φ κ → Option TriAllow
  | .domain a => some a.ipv4
  | _ => none

/-- `ip` -/
def ip : Plan φ κ → Option TriAllow
  | .email a => some a.ip
  | _ => none

/-- `comment` -/
def comment : Plan φ κ → Option Allow
  | .email a => some a.comment
  | _ => none

/-- `separator` -/
def separator : Plan φ κ → Option SeparatorOption
  | .hex _ a => some a.separator
  | _ => none

/-- `nan` -/
def nan : Plan φ κ → Option TriAllow
  | .number _ a => some a.nan
  | _ => none

/-! ## What is read -/

/-- The number that the string denotes, for validators of numbers: read by `str::parse`, or a numeral of the type. -/
inductive ReadsFloat (L : Libs φ κ N U V ε) (s : List Char) : Plan φ κ → Number.Fl φ → Prop
  | f32 (a x) : L.f32 (strBytes s) = some x → ReadsFloat L s (.number false a) x
  | f64 (a x) : L.f64 (strBytes s) = some x → ReadsFloat L s (.number true a) x

/-- The size that the string denotes: read by `Bit::parse_str` or `Byte::parse_str`; and the range. -/
inductive ReadsSize (L : Libs φ κ N U V ε) (s : List Char) : Plan φ κ → Bounds Int → Nat → Prop
  | bit (a n) : L.bit (strBytes s) = some n → ReadsSize L s (.bit a) a.range n
  | byte (a n) : L.byte a.ignoreCase (strBytes s) = some n → ReadsSize L s (.byte a) a.range n

/-- The integer that the string denotes, in the type of the field; and the range. -/
inductive ReadsInt (ptr : IntV.Ptr) (s : List Char) : Plan φ κ → RangeOption Int → Int → Prop
  | int (signed w a i) : Spec.IntV.Numeral signed (strBytes s) i → Spec.IntV.Fits signed (IntV.bits ptr w) i →
      ReadsInt ptr s (.int signed w a) a.range i

/-- The length that is looked at, and its options. -/
inductive Length (s : List Char) : Plan φ κ → Nat → Attr.Length → Prop
  | utf8 (v a isByte l) : a.length = some (isByte, l) → Length s (.utf8 v a) (Spec.Line.size isByte s) l

/-- The lengths are what the options ask for. -/
def LengthsOk (p : Plan φ κ) (s : List Char) : Prop :=
  match p with
  | .utf8 _ a => ∀ isByte l, a.length = some (isByte, l) → Spec.Line.SizeOk isByte l.min l.max s ∧ Spec.Line.TrimmedOk isByte l.trimmedMin s
  | _ => True

/-- The validators whose errors say that something is not an `x` at all. -/
def subjects : List (String × List Validator) :=
  [("invalid Base32", [.base32, .base32_decoded]), ("invalid Base64", [.base64, .base64_decoded]),
    ("invalid Base64-url", [.base64_url, .base64_url_decoded]), ("invalid boolean", [.boolean]), ("invalid domain", [.domain]),
    ("invalid Email", [.email]), ("invalid domain or IP", [.host]), ("invalid IP", [.ip]), ("invalid IPv4", [.ipv4]),
    ("invalid IPv6", [.ipv6]), ("invalid line", [.line]), ("invalid text", [.text]), ("invalid mac address", [.mac_address]),
    ("invalid uuid", [.uuid]), ("invalid phone number", [.phone]), ("invalid format", [.regex])]

/-- What each text says about the attribute and the string. -/
inductive Says [LinearOrder φ] (L : Libs φ κ N U V ε) (v : Validator) (p : Plan φ κ) (s : List Char) : String → Prop
  -- what was expected is the thing that the validator is named after
  | invalid (t vs) : (t, vs) ∈ subjects → v ∈ vs → Says L v p s t
  -- the attribute asks for what was not found, or forbids what was found
  | paddingNotFound (w a) : p = .base w a → padding p = some .must → (strBytes s).length % (notationOf w).block ≠ 0 → Says L v p s "padding not found"
  | paddingNotAllowed : padding p = some .disallow → asc '=' ∈ strBytes s → Says L v p s "padding not allowed"
  | decoded (w a) : p = .base w a → Decoded p → (∀ d, ¬ Spec.BaseN.Decodes (notationOf w) a.padding (strBytes s) d) → Says L v p s "decoded incorrectly"
  | portNotFound : port p = some .must → Says L v p s "port not found"
  | portNotAllowed : port p = some .disallow → Says L v p s "port not allowed"
  | beLocal : loc p = some .must → Says L v p s "must be local"
  | notBeLocal : loc p = some .disallow → Says L v p s "must not be local"
  | twoLabels : labels p = some .must → Says L v p s "must have at least two labels"
  | oneLabel : labels p = some .disallow → Says L v p s "must have only one label"
  | useIpv4 : ipv4 p = some .must → Says L v p s "must use an IPv4"
  | notUseIpv4 : ipv4 p = some .disallow → Says L v p s "must not use an IPv4"
  | useIp : ip p = some .must → Says L v p s "must use an IP"
  | notUseIp : ip p = some .disallow → Says L v p s "must not use an IP"
  | comments : comment p = some .disallow → Says L v p s "must not contain comments"
  | separatorsNotFound (b) : separator p = some (.must b) → Says L v p s "separators not found"
  | separatorsNotAllowed : separator p = some .disallow → Says L v p s "separators not allowed"
  | beNaN (x : φ) : nan p = some .must → ReadsFloat L s p (some x) → Says L v p s "must be NaN"
  | notBeNaN : nan p = some .disallow → ReadsFloat L s p none → Says L v p s "must not be NaN"
  -- the value is outside the range, or within the forbidden range
  | numberLarge (b d) (a : NumberAttribute φ) (x : φ) : p = .number d a → a.range = .inside b → ReadsFloat L s p (some x) → Spec.Range.AboveMax b x →
      Says L v p s "number is too large"
  | numberSmall (b d) (a : NumberAttribute φ) (x : φ) : p = .number d a → a.range = .inside b → ReadsFloat L s p (some x) → Spec.Range.BelowMin b x →
      Says L v p s "number is too small"
  | numberForbidden (b d) (a : NumberAttribute φ) (x : φ) : p = .number d a → a.range = .outside b → ReadsFloat L s p (some x) →
      Spec.Range.Contains b x → Says L v p s "number is forbidden"
  | integerLarge (b i) : ReadsInt L.ptr s p (.inside b) i → Spec.Range.AboveMax b i → Says L v p s "integer is too large"
  | integerSmall (b i) : ReadsInt L.ptr s p (.inside b) i → Spec.Range.BelowMin b i → Says L v p s "integer is too small"
  | integerForbidden (b i) : ReadsInt L.ptr s p (.outside b) i → Spec.Range.Contains b i → Says L v p s "integer is forbidden"
  | bitLarge (b n) : v = .bit → ReadsSize L s p b n → Spec.Range.AboveMax b (n : Int) → Says L v p s "bit is too large"
  | bitSmall (b n) : v = .bit → ReadsSize L s p b n → Spec.Range.BelowMin b (n : Int) → Says L v p s "bit is too small"
  | byteLarge (b n) : v = .byte → ReadsSize L s p b n → Spec.Range.AboveMax b (n : Int) → Says L v p s "byte is too large"
  | byteSmall (b n) : v = .byte → ReadsSize L s p b n → Spec.Range.BelowMin b (n : Int) → Says L v p s "byte is too small"
  | lineLong (n l m) : v = .line → Length s p n l → l.max = some m → m < n → Says L v p s "line is too long"
  | textLong (n l m) : v = .text → Length s p n l → l.max = some m → m < n → Says L v p s "text is too long"
  -- a minimum is given, and the length or the trimmed length does not satisfy the options. (Not more: C25.)
  | lineShort (n l) : v = .line → Length s p n l → l.min ≠ none ∨ l.trimmedMin ≠ none → ¬ LengthsOk p s → Says L v p s "line is too short"
  | textShort (n l) : v = .text → Length s p n l → l.min ≠ none ∨ l.trimmedMin ≠ none → ¬ LengthsOk p s → Says L v p s "text is too short"
  -- the string has no such protocol
  | http : v = .http_url → (∀ scheme ∈ ["http", "https"], ¬ Spec.Url.HasScheme (ascii scheme) (strBytes s)) →
      Says L v p s "need to use `http` or `https` as a protocol"
  | httpFtp : v = .http_ftp_url → (∀ scheme ∈ ["http", "https", "ftp"], ¬ Spec.Url.HasScheme (ascii scheme) (strBytes s)) →
      Says L v p s "need to use `http`, `https` or `ftp` as a protocol"

/-- The errors that hold the error of a library: the number is not one, the library does not read the text. -/
inductive HoldsLibraryError : Error ε → Prop
  | size : HoldsLibraryError (.size .parse)
  | url : HoldsLibraryError (.url .parseError)
  | number : HoldsLibraryError (.number .parseFloat)
  | phone : HoldsLibraryError (.phone .failure)
  | int (e : IntV.ParseIntError) : HoldsLibraryError (.int (.parseInt e))
  | lib (e : ε) : HoldsLibraryError (.lib e)

end Verif.Spec.Errors
