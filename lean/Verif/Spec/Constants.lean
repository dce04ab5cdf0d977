import Verif.Spec.Generated
import Verif.Model.Constants

/-!
# What the constants of the feature `test` say

Of the model, only the types of options, constants and values are used.
-/

namespace Verif.Spec.Constants

open Verif.Constants Verif.Attr Verif.Derive
open Verif.Spec.Attr
open Verif.BaseN (strBytes)

variable {τ φ κ α N U V ε : Type}

/-! ## What is written in the attribute -/

/-- The word for the value of a constant. -/
def triWord : Tri → String
  | .must => "Must"
  | .allow => "Allow"
  | .disallow => "Disallow"

def caseWord : Case → String
  | .any => "Any"
  | .upper => "Upper"
  | .lower => "Lower"

/-- The parameter `name` is given with this word, or it is not given and the constant is `Allow`. -/
def Chosen (syn : Syn τ) (ps : List (Meta τ)) (name : String) (t : Tri) : Prop :=
  Set ps name (fun p t => Word syn p (triWord t)) .allow t

/-- A separator as it is written. -/
def WritesSeparator (syn : Syn τ) (p : Meta τ) (s : Separator) : Prop :=
  ∃ n t m, p = .list n t ∧ syn.one t = some m ∧
    match s with
    | .must b => SaysByte syn m "Must" b
    | .allow b => SaysByte syn m "Allow" b
    | .disallow => m = .path (some "Disallow")

/-- The literal of a bound, if there is one. -/
def Written (lit : α → Literal φ) (b : Option α) (l : Option (Literal φ)) : Prop :=
  b = none ∧ l = none ∨ ∃ x, b = some x ∧ l = some (lit x)

/-- The bounds of a range are these literals. -/
def SameBounds (lit : α → Literal φ) (b : Range.Bounds α) (min max : Option (Literal φ)) (inclusive : Bool) : Prop :=
  Written lit b.min min ∧ Written lit b.max max ∧ b.inclusive = inclusive

/-- A range and the same range with literals. -/
def SameRange (lit : α → Literal φ) : Range.RangeOption α → Limits (Literal φ) → Prop
  | .inside b, .inside min max inclusive => SameBounds lit b min max inclusive
  | .outside b, .outside min max inclusive => SameBounds lit b min max inclusive
  | .unlimited, .unlimited => True
  | _, _ => False

/-- The number type of a range: `i8`, `f64` and so on. -/
def NumberRange (M : Macro τ φ κ) (ps : List (Meta τ)) (t : String) (r : Limits (Literal φ)) : Prop :=
  (∃ signed w, t = Spec.Derive.intName signed w ∧
    Set ps "range" (fun p r => ∃ o, SaysFinite M.syn M.full (intTy signed (IntV.bits M.ptr w)) p o ∧ SameRange (.int t) o r) .unlimited r) ∨
  ∃ double : Bool, t = (if double then "f64" else "f32") ∧
    Set ps "range" (fun p r => ∃ o, SaysFinite M.syn M.full (if double then M.f64 else M.f32) p o ∧ SameRange (.float t) o r) .unlimited r

/-- One of the lengths of `line` and `text`: `field` picks it. Nothing given: characters, without limit. -/
def LengthSet (syn : Syn τ) (usize : List UInt8 → Option Nat) (ps : List (Meta τ)) (isByte : Bool) (field : Length → Option Nat)
    (n : Option (Literal φ)) : Prop :=
  ((∀ p ∈ ps, p.name ≠ some "char_length" ∧ p.name ≠ some "byte_length") ∧ isByte = false ∧ n = none) ∨
  ∃ p ∈ ps, p.name = some (if isByte then "byte_length" else "char_length") ∧ ∃ l, SaysLength syn usize p l ∧
    Written (fun k : Nat => .int "usize" k) (field l) n

/-- A constant holds what the parameters `ps` of the attribute say, or the default of the manual. -/
def Shows (M : Macro τ φ κ) (v : Validator) (ps : List (Meta τ)) (c : Constant φ κ) : Prop :=
  match c.name, c.value with
  | "V_PADDING", .tri t => Chosen M.syn ps "padding" t
  | "V_IPV4", .tri t => Chosen M.syn ps "ipv4" t
  | "V_LOCAL", .tri t => Chosen M.syn ps "local" t
  | "V_PORT", .tri t => Chosen M.syn ps "port" t
  | "V_AT_LEAST_TWO_LABELS", .tri t => Chosen M.syn ps "at_least_two_labels" t
  | "V_COMMENT", .tri t => Chosen M.syn ps "comment" t ∧ t ≠ .must
  | "V_IP", .tri t => Chosen M.syn ps "ip" t
  | "V_NON_ASCII", .tri t => Chosen M.syn ps "non_ascii" t ∧ t ≠ .must
  | "V_NAN", .tri t => Chosen M.syn ps "nan" t
  | "V_CASE", .case x => Set ps "case" (fun p x => Word M.syn p (caseWord x)) .any x
  | "V_SEPARATOR", .separator x =>
      Set ps "separator" (WritesSeparator M.syn) (.allow (asc (if v = .uuid then '-' else ':'))) x
  | "V_IGNORE_CASE", .bool b => Set ps "ignore_case" (SaysBool M.syn) true b
  | "V_COUNTRIES", .countries cs => Set ps "countries" (SaysCountries M.syn M.country M.order) [] cs
  | "V_LENGTH_MIN", .number n => Set ps "min" (fun p n => ∃ k, SaysNumber M.syn M.usize p k ∧ n = some (.int "usize" k)) none n
  | "V_LENGTH_MAX", .number n => Set ps "max" (fun p n => ∃ k, SaysNumber M.syn M.usize p k ∧ n = some (.int "usize" k)) none n
  | "V_CHAR_LENGTH_MIN", .number n => LengthSet M.syn M.usize ps false Length.min n
  | "V_CHAR_LENGTH_TRIMMED_MIN", .number n => LengthSet M.syn M.usize ps false Length.trimmedMin n
  | "V_CHAR_LENGTH_MAX", .number n => LengthSet M.syn M.usize ps false Length.max n
  | "V_BYTE_LENGTH_MIN", .number n => LengthSet M.syn M.usize ps true Length.min n
  | "V_BYTE_LENGTH_TRIMMED_MIN", .number n => LengthSet M.syn M.usize ps true Length.trimmedMin n
  | "V_BYTE_LENGTH_MAX", .number n => LengthSet M.syn M.usize ps true Length.max n
  | "V_RANGE", .limits r =>
    if v = .bit ∨ v = .byte then
      -- not `Unlimited`, also if no range is given
      Set ps "range" (fun p r => ∃ b min max inclusive, SaysRange M.syn M.full (intTy false 128) p b ∧
        SameBounds (.int "u128") b min max inclusive ∧ r = .inside min max inclusive) (.inside none none false) r
    else ∃ t, c.ty = .range t ∧ NumberRange M ps t r
  | _, _ => False

/-- The names of the constants of a validator. `isByte`: `byte_length` is given. -/
def names (isByte : Bool) : Validator → List String
  | .base32 | .base32_decoded | .base64 | .base64_decoded | .base64_url | .base64_url_decoded => ["V_PADDING"]
  | .bit => ["V_RANGE"]
  | .byte => ["V_RANGE", "V_IGNORE_CASE"]
  | .domain => ["V_IPV4", "V_LOCAL", "V_PORT", "V_AT_LEAST_TWO_LABELS"]
  | .email => ["V_COMMENT", "V_IP", "V_LOCAL", "V_AT_LEAST_TWO_LABELS", "V_NON_ASCII"]
  | .host => ["V_LOCAL", "V_PORT", "V_AT_LEAST_TWO_LABELS"]
  | .http_url | .http_ftp_url => ["V_LOCAL"]
  | .ip | .ipv4 | .ipv6 => ["V_LOCAL", "V_PORT"]
  | .length => ["V_LENGTH_MIN", "V_LENGTH_MAX"]
  | .line | .text =>
    if isByte then ["V_BYTE_LENGTH_MIN", "V_BYTE_LENGTH_TRIMMED_MIN", "V_BYTE_LENGTH_MAX"]
    else ["V_CHAR_LENGTH_MIN", "V_CHAR_LENGTH_TRIMMED_MIN", "V_CHAR_LENGTH_MAX"]
  | .mac_address | .uuid => ["V_CASE", "V_SEPARATOR"]
  | .number => ["V_NAN", "V_RANGE"]
  | .phone => ["V_COUNTRIES"]
  | .signed_integer | .unsigned_integer => ["V_RANGE"]
  | .boolean | .json | .regex | .semver | .semver_req | .url => []

/-! ## Types -/

/-- The literal is one of the type `t`. -/
def OfType (t : String) : Literal φ → Prop
  | .int suffix _ => suffix = t
  | .float suffix _ => suffix = t

/-- The expression has this type. -/
def Typed : Ty → Value φ κ → Prop
  | .tri, .tri _ => True
  | .case, .case _ => True
  | .separator, .separator _ => True
  | .bool, .bool _ => True
  | .optionUsize, .number n => ∀ l ∈ n, OfType "usize" l
  | .range t, .limits (.inside min max _) => (∀ l ∈ min, OfType t l) ∧ ∀ l ∈ max, OfType t l
  | .range t, .limits (.outside min max _) => (∀ l ∈ min, OfType t l) ∧ ∀ l ∈ max, OfType t l
  | .range _, .limits .unlimited => True
  | .countries n, .countries cs => cs.length = n
  | _, _ => False

/-! ## What they say about the strings that are accepted -/

/-- `must()` and `disallow()` of a constant. -/
def Obeys (t : Tri) (p : Prop) : Prop := (t.musts = true → p) ∧ (t.disallows = true → ¬ p)

/-- A literal at most a number, and at least one. -/
def AtLeast (n : Option (Literal φ)) (size : Nat) : Prop := ∀ s k, n = some (.int s k) → k ≤ size
def AtMost (n : Option (Literal φ)) (size : Nat) : Prop := ∀ s k, n = some (.int s k) → (size : Int) ≤ k

/-- A value between the literals `min` and `max`. -/
def Between [LE α] (lit : String → α → Literal φ) (min max : Option (Literal φ)) (inclusive : Bool) (x : α) : Prop :=
  (∀ s m, min = some (lit s m) → m ≤ x) ∧ ∀ s m, max = some (lit s m) → x ≤ m ∧ (inclusive = false → x ≠ m)

/-- A value of a range. `Outside` without any bound excludes nothing. -/
def InLimits [LE α] (lit : String → α → Literal φ) : Limits (Literal φ) → α → Prop
  | .inside min max inclusive, x => Between lit min max inclusive x
  | .outside min max inclusive, x => (min ≠ none ∨ max ≠ none) → ¬ Between lit min max inclusive x
  | .unlimited, _ => True

/-- The labels of a host: addresses have several, and a local name is exempt. -/
def HostLabels (t : Tri) (h : Verif.Host.Host) : Prop :=
  (t.musts = true → ∀ a, h = .domain a → Spec.Domain.LocalName a ∨ Spec.Domain.ManyLabels a) ∧
  (t.disallows = true → ∃ a, h = .domain a ∧ (Spec.Domain.LocalName a ∨ ¬ Spec.Domain.ManyLabels a))

/-- What the constant says is so, when the string `s` is accepted as `x`. -/
def Obeyed [LinearOrder φ] (L : Verif.Generated.Libs φ κ N U V ε) (v : Validator) (c : Constant φ κ) (s : List Char)
    (x : Verif.Generated.Value φ κ N U V) : Prop :=
  match c.name, c.value with
  | "V_PADDING", .tri t =>
    (t.musts = true → (strBytes s).length % (Generated.notationOf v).block = 0) ∧ (t.disallows = true → Spec.BaseN.padByte ∉ strBytes s)
  | "V_IPV4", .tri t => ∃ y, x = .domain y ∧ ∃ d, Spec.Domain.HostPort (strBytes s) d y.port ∧ Obeys t (∃ a, Spec.Domain.QuadDot d a)
  | "V_LOCAL", .tri t =>
    match x with
    | .domain y => ∃ d, Spec.Domain.HostPort (strBytes s) d y.port ∧
        Obeys t ((∃ a, Spec.Domain.QuadDot d a ∧ Spec.Ip.Local4 a.number) ∨ (∀ a, ¬ Spec.Domain.QuadDot d a) ∧ Spec.Domain.LocalName y.domain)
    | .email y => Obeys t (Spec.Host.LocalHost y.host)
    | .host y => Obeys t (Spec.Host.LocalHost y.host)
    | .http u _ => Obeys t (Spec.Url.LocalUrl L.url u)
    | .httpFtp u _ => Obeys t (Spec.Url.LocalUrl L.url u)
    | .ip a _ => Obeys t (Spec.Ip.LocalIp a)
    | .ipv4 a _ => Obeys t (Spec.Ip.Local4 a.number)
    | .ipv6 a _ => Obeys t (Spec.Ip.Local6 a.number)
    | _ => False
  | "V_PORT", .tri t =>
    match x with
    | .domain y => Obeys t (y.port ≠ none)
    | .host y => Obeys t (y.port ≠ none)
    | .ip _ port => Obeys t (port ≠ none)
    | .ipv4 _ port => Obeys t (port ≠ none)
    | .ipv6 _ port => Obeys t (port ≠ none)
    | _ => False
  | "V_COMMENT", .tri t => ∃ y, x = .email y ∧
      (t.disallows = true → y.comment1 = none ∧ y.comment2 = none ∧ y.comment3 = none ∧ y.comment4 = none)
  | "V_IP", .tri t => ∃ y, x = .email y ∧ Obeys t (¬ ∃ a, y.host = .domain a)
  | "V_NAN", .tri t => ∃ f, x = .number f ∧ Obeys t (f = none)
  | "V_NON_ASCII", .tri t => ∃ y, x = .email y ∧ (t.disallows = true → ∀ b ∈ y.text, b.toNat < 128)
  | "V_AT_LEAST_TWO_LABELS", .tri t =>
    match x with
    | .domain y => ∃ d, Spec.Domain.HostPort (strBytes s) d y.port ∧
        (t.musts = true → (∃ a, Spec.Domain.QuadDot d a) ∨ Spec.Domain.LocalName y.domain ∨ Spec.Domain.ManyLabels y.domain) ∧
        (t.disallows = true → (∀ a, ¬ Spec.Domain.QuadDot d a) ∧ (Spec.Domain.LocalName y.domain ∨ ¬ Spec.Domain.ManyLabels y.domain))
    | .email y => HostLabels t y.host
    | .host y => HostLabels t y.host
    | _ => False
  -- the digits, without the separators
  | "V_CASE", .case k => ∃ sep ds,
      Spec.Hex.Cut sep (if v = .uuid then Spec.Hex.uuidSizes else Spec.Hex.macSizes) ds (strBytes s) ∧
      (k.takesUpper = false → ∀ b ∈ ds, b ∉ ascii "ABCDEF") ∧ (k.takesLower = false → ∀ b ∈ ds, b ∉ ascii "abcdef")
  | "V_SEPARATOR", .separator k => (∀ b, k.required = some b → b ∈ strBytes s) ∧ (k.disallows = true → ∀ b ∈ strBytes s, b ∈ Spec.Hex.symbols .any)
  | "V_IGNORE_CASE", .bool b => ∃ n, x = .size n ∧ L.byte b (strBytes s) = some n
  | "V_COUNTRIES", .countries cs => ∃ y, x = .phone y ∧ Generated.PhoneOk L.phone (strBytes s) cs y
  | "V_CHAR_LENGTH_MIN", .number n => AtLeast n s.length
  | "V_CHAR_LENGTH_TRIMMED_MIN", .number n => AtLeast n (Spec.Line.trim s).length
  | "V_CHAR_LENGTH_MAX", .number n => AtMost n s.length
  | "V_BYTE_LENGTH_MIN", .number n => AtLeast n (strBytes s).length
  | "V_BYTE_LENGTH_TRIMMED_MIN", .number n => AtLeast n (strBytes (Spec.Line.trim s)).length
  | "V_BYTE_LENGTH_MAX", .number n => AtMost n (strBytes s).length
  | "V_RANGE", .limits r =>
    match x with
    | .size n => InLimits (fun t i => .int t i) r (n : Int)
    | .int i => InLimits (fun t i => .int t i) r i
    | .number (some f) => InLimits (fun t y => .float t y) r f
    | .number none => True
    | _ => False
  | _, _ => False

end Verif.Spec.Constants
