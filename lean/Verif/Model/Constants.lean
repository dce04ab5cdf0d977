import Verif.Model.Surface

/-!
# The constants of the feature `test`

With this feature every handler also writes its options as constants of the type, for tests. The types of the constants are in
`validators/src/test`, the conversions in `validators-derive/src/common/test.rs`. Other paths are relative to
`validators-derive/src/validator_handlers`.
-/

namespace Verif.Constants

open Verif.Attr Verif.Derive

/-! ## The types of the constants -/

/-- `TriAllow`: `validators/src/test/tri_allow.rs` L2-6. -/
inductive Tri where
  | must
  | allow
  | disallow
  deriving DecidableEq, Repr

/-- `TriAllow::allow`: `validators/src/test/tri_allow.rs` L10-16. -/
def Tri.allows : Tri → Bool
  | .must => true
  | .allow => true
  | .disallow => false

/-- `TriAllow::disallow`: `validators/src/test/tri_allow.rs` L19-25. -/
def Tri.disallows : Tri → Bool
  | .must => false
  | .allow => false
  | .disallow => true

/-- `TriAllow::must`: `validators/src/test/tri_allow.rs` L28-34. -/
def Tri.musts : Tri → Bool
  | .must => true
  | .allow => false
  | .disallow => false

/-- `CaseOption`: `validators/src/test/case_option.rs` L2-6. -/
inductive Case where
  | any
  | upper
  | lower
  deriving DecidableEq, Repr

/-- `CaseOption::any`: `validators/src/test/case_option.rs` L10-16. -/
def Case.isAny : Case → Bool
  | .any => true
  | .upper => false
  | .lower => false

/-- `CaseOption::upper`: `validators/src/test/case_option.rs` L19-25. -/
def Case.takesUpper : Case → Bool
  | .any => true
  | .upper => true
  | .lower => false

/-- `CaseOption::lower`: `validators/src/test/case_option.rs` L28-34. -/
def Case.takesLower : Case → Bool
  | .any => true
  | .upper => false
  | .lower => true

/-- `SeparatorOption`: `validators/src/test/separator_option.rs` L2-6. -/
inductive Separator where
  | must (c : UInt8)
  | allow (c : UInt8)
  | disallow
  deriving DecidableEq, Repr

/-- `SeparatorOption::allow`: `validators/src/test/separator_option.rs` L10-15. -/
def Separator.allowed : Separator → Option UInt8
  | .must c | .allow c => some c
  | .disallow => none

/-- `SeparatorOption::disallow`: `validators/src/test/separator_option.rs` L18-24. -/
def Separator.disallows : Separator → Bool
  | .must _ => false
  | .allow _ => false
  | .disallow => true

/-- `SeparatorOption::must`: `validators/src/test/separator_option.rs` L27-33. -/
def Separator.required : Separator → Option UInt8
  | .must c => some c
  | .allow _ => none
  | .disallow => none

/-- `RangeOption<T>`: `validators/src/test/range_option.rs` L2-6. -/
inductive Limits (α : Type) where
  | inside (min max : Option α) (inclusive : Bool)
  | outside (min max : Option α) (inclusive : Bool)
  | unlimited
  deriving DecidableEq, Repr

/-- A literal of an integer or float type with its suffix, as `quote` writes the numbers of Rust: `5u128`, `-5i8`, `0.5f64`. -/
inductive Literal (φ : Type) where
  | int (suffix : String) (i : Int)
  | float (suffix : String) (x : φ)
  deriving DecidableEq, Repr

/-- The expression of a constant. -/
inductive Value (φ κ : Type) where
  | tri (t : Tri)
  | case (c : Case)
  | separator (s : Separator)
  | bool (b : Bool)
  | number (n : Option (Literal φ))
  | limits (r : Limits (Literal φ))
  | countries (cs : List κ)
  deriving DecidableEq, Repr

/-- The type of a constant. -/
inductive Ty where
  | tri
  | case
  | separator
  | bool
  | optionUsize
  /-- `RangeOption<..>` -/
  | range (t : String)
  /-- `[Id; ..]` -/
  | countries (size : Nat)
  deriving DecidableEq, Repr

/-- `pub(crate) const NAME: TYPE = EXPRESSION;` -/
structure Constant (φ κ : Type) where
  name : String
  ty : Ty
  value : Value φ κ
  deriving DecidableEq, Repr

/-! ## The conversions -/

variable {τ φ κ α : Type}

/-- `impl ToTokens for TriAllow`: `common/test.rs` L21-36. -/
def ofTri : TriAllow → Tri
  | .must => .must
  | .allow => .allow
  | .disallow => .disallow

/-- `impl ToTokens for Allow`: `common/test.rs` L38-51. -/
def ofAllow : Allow → Tri
  | .allow => .allow
  | .disallow => .disallow

/-- `impl ToTokens for CaseOption`: `common/test.rs` L53-68. -/
def ofCase : CaseOption → Case
  | .any => .any
  | .lower => .lower
  | .upper => .upper

/-- `impl ToTokens for SeparatorOption`: `common/test.rs` L70-85. -/
def ofSeparator : SeparatorOption → Separator
  | .must c => .must c
  | .allow c => .allow c
  | .disallow => .disallow

/-- `impl ToTokens for OptionToken<T>`: `common/test.rs` L11-19, with the literal of a number. -/
def optionToken (lit : α → Literal φ) : Option α → Option (Literal φ)
  | some a => some (lit a)
  | none => none

/-- `impl ToTokens for Range<u128>`: `common/test.rs` L87-102. -/
def ofBounds (b : Range.Bounds Int) : Limits (Literal φ) :=
  .inside (optionToken (.int "u128") b.min) (optionToken (.int "u128") b.max) b.inclusive

/-- `impl ToTokens for RangeTokenStream`: `common/test.rs` L104-145, after `From<RangeOption<T>>`, `common/range_option.rs`
L99-128, which has made the literals. -/
def ofRange (lit : α → Literal φ) : Range.RangeOption α → Limits (Literal φ)
  | .inside b => .inside (optionToken lit b.min) (optionToken lit b.max) b.inclusive
  | .outside b => .outside (optionToken lit b.min) (optionToken lit b.max) b.inclusive
  | .unlimited => .unlimited

/-! ## The constants of each handler -/

/-- The Rust type of an integer field: `signed_integer/mod.rs` L41-61, `unsigned_integer/mod.rs` L41-61. The name is the text of
the field's type and, as the suffix of literals, the type that `build_from_meta` is called with. -/
def typeName (signed : Bool) : IntV.Width → String
  | .w128 => if signed then "i128" else "u128"
  | .w64 => if signed then "i64" else "u64"
  | .w32 => if signed then "i32" else "u32"
  | .w16 => if signed then "i16" else "u16"
  | .w8 => if signed then "i8" else "u8"
  | .size => if signed then "isize" else "usize"

/-- An `Option<usize>`. -/
def sizeConst (name : String) (n : Option Nat) : Constant φ κ :=
  ⟨name, .optionUsize, .number (optionToken (fun k : Nat => .int "usize" (k : Int)) n)⟩

/-- A `TriAllow`. -/
def triConst (name : String) (t : Tri) : Constant φ κ := ⟨name, .tri, .tri t⟩

/-- `line/mod.rs` L31-71, `text/mod.rs` L31-71: without lengths the constants are those of characters. -/
def textConsts (a : Utf8Attribute) : List (Constant φ κ) :=
  let (isByte, l) := a.length.getD (false, ⟨none, none, none⟩)
  if isByte then
    [sizeConst "V_BYTE_LENGTH_MIN" l.min, sizeConst "V_BYTE_LENGTH_TRIMMED_MIN" l.trimmedMin, sizeConst "V_BYTE_LENGTH_MAX" l.max]
  else
    [sizeConst "V_CHAR_LENGTH_MIN" l.min, sizeConst "V_CHAR_LENGTH_TRIMMED_MIN" l.trimmedMin, sizeConst "V_CHAR_LENGTH_MAX" l.max]

/-- The constants of each handler. Simplification: a country is written as `Id::` and `id.as_ref()`; that this is the country again is
an assumption about `phonenumber`. -/
def constants : Plan φ κ → List (Constant φ κ)
  -- `base32/mod.rs` L32-41, `base64` L32-41, `base64_url` L33-42, and L35-44 of the three decoding ones
  | .base _ a => [triConst "V_PADDING" (ofTri a.padding)]
  | .basic _ _ => []
  -- `bit/mod.rs` L35-44
  | .bit a => [⟨"V_RANGE", .range "u128", .limits (ofBounds a.range)⟩]
  -- `byte/mod.rs` L35-46
  | .byte a => [⟨"V_RANGE", .range "u128", .limits (ofBounds a.range)⟩, ⟨"V_IGNORE_CASE", .bool, .bool a.ignoreCase⟩]
  -- `domain/mod.rs` L503-518
  | .domain a => [triConst "V_IPV4" (ofTri a.ipv4), triConst "V_LOCAL" (ofTri a.loc), triConst "V_PORT" (ofTri a.port),
      triConst "V_AT_LEAST_TWO_LABELS" (ofTri a.atl)]
  -- `email/mod.rs` L588-605
  | .email a => [triConst "V_COMMENT" (ofAllow a.comment), triConst "V_IP" (ofTri a.ip), triConst "V_LOCAL" (ofTri a.loc),
      triConst "V_AT_LEAST_TWO_LABELS" (ofTri a.atl), triConst "V_NON_ASCII" (ofAllow a.nonAscii)]
  -- `host/mod.rs` L244-257
  | .host a => [triConst "V_LOCAL" (ofTri a.loc), triConst "V_PORT" (ofTri a.port), triConst "V_AT_LEAST_TWO_LABELS" (ofTri a.atl)]
  -- `http_url/mod.rs` L41-50, `http_ftp_url/mod.rs` L41-50
  | .url _ a => [triConst "V_LOCAL" (ofTri a.loc)]
  -- `ip/mod.rs`, `ipv4/mod.rs`, `ipv6/mod.rs` L120-131
  | .ip _ a => [triConst "V_LOCAL" (ofTri a.loc), triConst "V_PORT" (ofTri a.port)]
  -- `length/mod.rs` L34-72
  | .length a => [sizeConst "V_LENGTH_MIN" a.min, sizeConst "V_LENGTH_MAX" a.max]
  | .utf8 _ a => textConsts a
  -- `mac_address/mod.rs` L36-47, `uuid/mod.rs` L35-46
  | .hex _ a => [⟨"V_CASE", .case, .case (ofCase a.case)⟩, ⟨"V_SEPARATOR", .separator, .separator (ofSeparator a.separator)⟩]
  -- `number/mod.rs` L67-78
  | .number double a =>
    let name := if double then "f64" else "f32"
    [triConst "V_NAN" (ofTri a.nan), ⟨"V_RANGE", .range name, .limits (ofRange (.float name) a.range)⟩]
  -- `phone/mod.rs` L35-49
  | .phone a => [⟨"V_COUNTRIES", .countries a.countries.length, .countries a.countries⟩]
  | .regex _ => []
  -- `signed_integer/mod.rs` L70-79, `unsigned_integer/mod.rs` L70-79
  | .int signed w a => [⟨"V_RANGE", .range (typeName signed w), .limits (ofRange (.int (typeName signed w)) a.range)⟩]

end Verif.Constants
