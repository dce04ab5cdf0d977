import Verif.Model.Integrations

/-!
# The `impl` blocks that the derive macro generates

The items of each block by name. Paths are relative to `validators-derive/src/validator_handlers`. Bodies are modelled elsewhere.
-/

namespace Verif.Surface

open Verif.Attr Verif.Derive Verif.Integrations

/-- `impl Trait for Name { .. }`, or `impl Name { .. }` when there is no trait. Simplification: the arguments and bounds of the
functions, and the arguments of the trait, are left out. -/
structure Block where
  trait : Option String
  items : List String
  deriving DecidableEq, Repr

/-- `impl ValidateString for #name`: `base64/mod.rs` L142-169; `base32` L142-169, `base32_decoded` L180-199, `base64_decoded` L180-199,
`base64_url` L143-170, `base64_url_decoded` L180-199, `bit` L112-131, `boolean` L217-236, `byte` L116-135, `domain` L870-893, `email`
L1500-1523, `host` L623-646, `http_ftp_url` L115-144, `http_url` L114-143, `ip` L364-387, `ipv4` L263-286, `ipv6` L295-318, `json` L91-110,
`line` L733-760, `mac_address` L262-281, `number` L234-253, `phone` L125-144, `regex` L48-75, `semver` L43-62, `semver_req` L43-62,
`signed_integer` L213-232, `text` L733-760, `unsigned_integer` L213-232, `url` L43-62, `uuid` L250-269. -/
def stringBlock : Block := ⟨some "ValidateString", ["Error", "parse_string", "parse_str", "validate_str"]⟩

/-- `impl ValidateBytes for #name`: `base64/mod.rs` L171-198, `base32` L171-198, `base64_url` L172-199, and L201-220 of the three
decoding ones. -/
def bytesBlock : Block := ⟨some "ValidateBytes", ["Error", "parse_vec_u8", "parse_u8_slice", "validate_u8_slice"]⟩

/-- An inherent block. -/
def own (items : List String) : Block := ⟨none, items⟩

/-- `base32/mod.rs` L37-39, L80-138 and the two siblings (`base64` L37-39, L80-138, `base64_url` L38-40, L81-139). -/
def textBlocks (test : Bool) : List Block :=
  (if test then [own ["V_PADDING"]] else []) ++ [own ["v_parse_str", "v_parse_u8_slice"], stringBlock, bytesBlock]

/-- `base32_decoded/mod.rs` L40-42, L105-176, L222-227; `base64_decoded` and `base64_url_decoded` likewise. -/
def decodedBlocks (test : Bool) : List Block :=
  (if test then [own ["V_PADDING"]] else []) ++
    [own ["v_parse_str", "v_parse_u8_slice", "v_validate_str", "v_validate_u8_slice"], stringBlock, bytesBlock,
      ⟨some "CollectionLength", ["len"]⟩]

/-- `bit/mod.rs` L40-42, L94-108, L135-173. -/
def bitBlocks (test : Bool) : List Block :=
  (if test then [own ["V_RANGE"]] else []) ++
    [own ["v_parse_str", "v_parse_v"], stringBlock,
      ⟨some "ValidateUnsignedInteger", ["Error", "parse_u128", "validate_u128", "parse_u64", "validate_u64"]⟩]

/-- `byte/mod.rs` L41-44, L98-112, L139-177. -/
def byteBlocks (test : Bool) : List Block :=
  (if test then [own ["V_RANGE", "V_IGNORE_CASE"]] else []) ++
    [own ["v_parse_str", "v_parse_v"], stringBlock,
      ⟨some "ValidateUnsignedInteger", ["Error", "parse_u128", "validate_u128", "parse_u64", "validate_u64"]⟩]

/-- `boolean/mod.rs` L35-300. -/
def booleanBlocks : List Block :=
  [own ["v_parse_str", "v_parse_char", "v_parse_i128", "v_parse_u128", "v_parse_bool"], stringBlock,
    ⟨some "ValidateChar", ["Error", "parse_char", "validate_char"]⟩,
    ⟨some "ValidateSignedInteger", ["Error", "parse_i128", "validate_i128"]⟩,
    ⟨some "ValidateUnsignedInteger", ["Error", "parse_u128", "validate_u128"]⟩,
    ⟨some "ValidateBoolean", ["Error", "parse_bool", "validate_bool"]⟩]

/-- `json/mod.rs` L36-226. -/
def jsonBlocks : List Block :=
  [own ["v_parse_str", "v_parse_i128", "v_parse_i64", "v_parse_u128", "v_parse_u64", "v_parse_f64", "v_parse_bool", "v_parse_json_value"],
    stringBlock,
    ⟨some "ValidateSignedInteger", ["Error", "parse_i128", "parse_i64", "validate_i128", "validate_i64"]⟩,
    ⟨some "ValidateUnsignedInteger", ["Error", "parse_u128", "parse_u64", "validate_u128", "validate_u64"]⟩,
    ⟨some "ValidateNumber", ["Error", "parse_f64", "validate_f64"]⟩,
    ⟨some "ValidateBoolean", ["Error", "parse_bool", "validate_bool"]⟩,
    ⟨some "ValidateJsonValue", ["Error", "parse_json_value", "validate_json_value"]⟩,
    ⟨some "ToJsonString", ["to_minified_json_string", "to_beautified_json_string"]⟩]

/-- `url/mod.rs`, `semver/mod.rs`, `semver_req/mod.rs` L34-39. -/
def wrapperBlocks : List Block := [own ["v_parse_str"], stringBlock]

/-- The block of `to_uri_authority_string`. -/
def uriBlock : Block := ⟨some "ToUriAuthorityString", ["to_uri_authority_string"]⟩

/-- `impl QualifyDomain`: `domain/mod.rs` L896-937, one of two blocks. -/
def qualifyBlocks (a : DomainAttribute) : List Block :=
  if a.port = .disallow ∧ (a.loc ≠ .allow ∨ a.atl = .allow) then
    [⟨some "QualifyDomain", ["is_fully_qualified", "get_domain_non_fully_qualified"]⟩]
  else [⟨some "QualifyDomain", ["is_fully_qualified", "get_domain_non_fully_qualified"]⟩]

/-- `impl ToUriAuthorityString`, one block for each setting of `port`: `domain/mod.rs` L939-980, `ip/mod.rs` L390-442, `ipv4/mod.rs`
L289-330, `ipv6/mod.rs` L321-362. -/
def uriBlocks : TriAllow → List Block
  | .allow => [uriBlock]
  | .must => [uriBlock]
  | .disallow => [uriBlock]

/-- `domain/mod.rs` L511-516, L724-742, L870-980. -/
def domainBlocks (test : Bool) (a : DomainAttribute) : List Block :=
  (if test then [own ["V_IPV4", "V_LOCAL", "V_PORT", "V_AT_LEAST_TWO_LABELS"]] else []) ++ [own ["v_parse_str"], stringBlock] ++
    qualifyBlocks a ++ uriBlocks a.port

/-- `impl ToUriAuthorityString`: `host/mod.rs` L649-729. -/
def hostUri (a : HostAttribute) : List Block :=
  if (a.loc ≠ .allow ∨ a.atl = .allow) ∧ a.port = .disallow then [uriBlock] else uriBlocks a.port

/-- `host/mod.rs` L251-255, L523-560, L623-729. -/
def hostBlocks (test : Bool) (a : HostAttribute) : List Block :=
  (if test then [own ["V_LOCAL", "V_PORT", "V_AT_LEAST_TWO_LABELS"]] else []) ++ [own ["v_parse_str"], stringBlock] ++ hostUri a

/-- `impl ToEmailString`: `email/mod.rs` L1526-1677. -/
def emailText (a : EmailAttribute) : List Block :=
  let block : Block := ⟨some "ToEmailString", ["to_email_string"]⟩
  if a.comment = .disallow then
    match a.ip with
    | .allow => [block]
    | .must => [block]
    | .disallow => [block]
  else
    match a.ip with
    | .allow => [block]
    | .must => [block]
    | .disallow => [block]

/-- `email/mod.rs` L597-603, L990-1286, L1500-1677. -/
def emailBlocks (test : Bool) (a : EmailAttribute) : List Block :=
  (if test then [own ["V_COMMENT", "V_IP", "V_LOCAL", "V_AT_LEAST_TWO_LABELS", "V_NON_ASCII"]] else []) ++
    [own ["v_parse_str"], stringBlock] ++ emailText a

/-- `http_url/mod.rs` L46-48, L88-110, `http_ftp_url/mod.rs` L46-48, L88-111. -/
def urlBlocks (test : Bool) : List Block :=
  (if test then [own ["V_LOCAL"]] else []) ++ [own ["v_parse_str"], stringBlock]

/-- `ip/mod.rs` L126-129, L302-334, `ipv4/mod.rs` L126-129, L216-233, `ipv6/mod.rs` L126-129, L240-265. -/
def ipBlocks (test : Bool) (a : IpAttribute) : List Block :=
  (if test then [own ["V_LOCAL", "V_PORT"]] else []) ++ [own ["v_parse_str"], stringBlock] ++ uriBlocks a.port

/-- `length/mod.rs` L67-70, L127-156. -/
def lengthBlocks (test : Bool) : List Block :=
  (if test then [own ["V_LENGTH_MIN", "V_LENGTH_MAX"]] else []) ++
    [own ["v_parse_v"], ⟨some "ValidateLength", ["Error", "parse_collection", "validate_collection"]⟩]

/-- `line/mod.rs` L54-70, L725-760, `text/mod.rs` likewise. Without lengths `is_byte_length` is false (L43). -/
def utf8Blocks (test : Bool) (a : Utf8Attribute) : List Block :=
  (if test then
      [if (a.length.map Prod.fst).getD false then own ["V_BYTE_LENGTH_MIN", "V_BYTE_LENGTH_TRIMMED_MIN", "V_BYTE_LENGTH_MAX"]
        else own ["V_CHAR_LENGTH_MIN", "V_CHAR_LENGTH_TRIMMED_MIN", "V_CHAR_LENGTH_MAX"]]
    else []) ++ [own ["v_parse_str"], stringBlock]

/-- `mac_address/mod.rs` L42-45, L230-281, `uuid/mod.rs` L41-44, L218-269. -/
def hexBlocks (test : Bool) (text : List Block) : List Block :=
  (if test then [own ["V_CASE", "V_SEPARATOR"]] else []) ++ [own ["v_parse_str", "v_validate_str"], stringBlock] ++ text

/-- `impl ToMacAddressString`, `impl ToUuidString`, with and without separator, in either case: `mac_address/mod.rs` L284-332,
`uuid/mod.rs` L272-352; `allow` is `SeparatorOption::allow`, `common/separator_option.rs` L13-19, the test is
`CaseOption::upper`, `common/case_option.rs` L23-29. -/
def hexText (trait item : String) (a : HexAttribute) : List Block :=
  let block : Block := ⟨some trait, [item]⟩
  let allow := match a.separator with
    | .must c | .allow c => some c
    | .disallow => none
  if a.case ≠ .lower then
    match allow with
    | some _ => [block]
    | none => [block]
  else
    match allow with
    | some _ => [block]
    | none => [block]

/-- `number/mod.rs` L73-76, L212-309. -/
def numberBlocks (test double : Bool) : List Block :=
  (if test then [own ["V_NAN", "V_RANGE"]] else []) ++ [own ["v_parse_str", "v_parse_f"], stringBlock] ++
    if double then [⟨some "ValidateNumber", ["Error", "parse_f64", "validate_f64"]⟩]
    else [⟨some "ValidateNumber", ["Error", "parse_f64", "validate_f64", "parse_f32", "validate_f32"]⟩]

/-- `phone/mod.rs` L45-47, L51-122 (one of three blocks), L125-144. -/
def phoneBlocks {κ : Type} (test : Bool) (a : PhoneAttribute κ) : List Block :=
  (if test then [own ["V_COUNTRIES"]] else []) ++
    (match a.countries.length with
      | 0 => [own ["v_parse_str"]]
      | 1 => [own ["v_parse_str"]]
      | _ => [own ["v_parse_str"]]) ++ [stringBlock]

/-- `signed_integer/mod.rs` L235-507, `unsigned_integer/mod.rs` L235-490. The items of `isize` and `usize` are under a
`#[cfg(target_pointer_width = ..)]`: `ptr` is the width of the target. -/
def integerItems (ptr : IntV.Ptr) (signed : Bool) : IntV.Width → List String
  | .w128 => if signed then ["Error", "parse_i128", "validate_i128"] else ["Error", "parse_u128", "validate_u128"]
  | .w64 => if signed then ["Error", "parse_i128", "validate_i128", "parse_i64", "validate_i64"]
    else ["Error", "parse_u128", "validate_u128", "parse_u64", "validate_u64"]
  | .w32 => if signed then ["Error", "parse_i128", "validate_i128", "parse_i32", "validate_i32"]
    else ["Error", "parse_u128", "validate_u128", "parse_u32", "validate_u32"]
  | .w16 => if signed then ["Error", "parse_i128", "validate_i128", "parse_i16", "validate_i16"]
    else ["Error", "parse_u128", "validate_u128", "parse_u16", "validate_u16"]
  | .w8 => if signed then ["Error", "parse_i128", "validate_i128", "parse_i8", "validate_i8"]
    else ["Error", "parse_u128", "validate_u128", "parse_u8", "validate_u8"]
  | .size =>
    if signed then
      ["Error", "parse_i128", "validate_i128", "parse_isize", "validate_isize"] ++
        match ptr with
        | .p16 => ["parse_i16", "validate_i16"]
        | .p32 => ["parse_i32", "validate_i32"]
        | .p64 => ["parse_i64", "validate_i64"]
    else
      ["Error", "parse_u128", "validate_u128", "parse_usize", "validate_usize"] ++
        match ptr with
        | .p16 => ["parse_u16", "validate_u16"]
        | .p32 => ["parse_u32", "validate_u32"]
        | .p64 => ["parse_u64", "validate_u64"]

/-- `signed_integer/mod.rs` L75-77, L193-232, `unsigned_integer/mod.rs` L75-77, L193-232. -/
def integerBlocks (test : Bool) (ptr : IntV.Ptr) (signed : Bool) (w : IntV.Width) : List Block :=
  (if test then [own ["V_RANGE"]] else []) ++ [own ["v_parse_str", if signed then "v_parse_i" else "v_parse_u"], stringBlock] ++
    [⟨some (if signed then "ValidateSignedInteger" else "ValidateUnsignedInteger"), integerItems ptr signed w⟩]

variable {τ φ κ : Type} [DecidableEq κ]


/-- What a handler generates of itself. -/
def ownBlocks (test : Bool) (ptr : IntV.Ptr) : Plan φ κ → List Block
  | .base v _ => match v with
    | .base32 => textBlocks test
    | .base32_decoded => decodedBlocks test
    | .base64 => textBlocks test
    | .base64_decoded => decodedBlocks test
    | .base64_url => textBlocks test
    | _ => decodedBlocks test
  | .basic v _ => match v with
    | .boolean => booleanBlocks
    | .json => jsonBlocks
    | _ => wrapperBlocks
  | .bit _ => bitBlocks test
  | .byte _ => byteBlocks test
  | .domain a => domainBlocks test a
  | .email a => emailBlocks test a
  | .host a => hostBlocks test a
  | .url _ _ => urlBlocks test
  | .ip _ a => ipBlocks test a
  | .length _ => lengthBlocks test
  | .utf8 _ a => utf8Blocks test a
  | .hex v a => match v with
    | .mac_address => hexBlocks test (hexText "ToMacAddressString" "to_mac_address_string" a)
    | _ => hexBlocks test (hexText "ToUuidString" "to_uuid_string" a)
  | .number double _ => numberBlocks test double
  | .phone a => phoneBlocks test a
  -- `regex/mod.rs` L35-44
  | .regex _ => wrapperBlocks
  | .int signed w _ => integerBlocks test ptr signed w


/-- The end of every handler: `base64/mod.rs` L201-286 and the same lines of the other handlers (without Rocket in `length`), and
`common/rocket.rs` L7, L23. -/
def frameworkBlocks (M : Macro τ φ κ) (p : Plan φ κ) : List Block :=
  (if M.serde && (serdeFlags p).first then [⟨some "serde::Serialize", ["serialize"]⟩] else []) ++
    (if M.serde && (serdeFlags p).second then [⟨some "serde::Deserialize", ["deserialize"]⟩] else []) ++
    (if M.rocket && (rocketFlags p).first then [⟨some "rocket::form::FromFormField", ["from_value"]⟩] else []) ++
    (if M.rocket && (rocketFlags p).second then [⟨some "rocket::request::FromParam", ["Error", "from_param"]⟩] else [])


/-- All `impl` blocks. `test`: the feature of that name; `ptr`: the pointer width of the target. -/
def blocks (M : Macro τ φ κ) (test : Bool) (ptr : IntV.Ptr) (p : Plan φ κ) : List Block := ownBlocks test ptr p ++ frameworkBlocks M p

/-! ## The type they are for -/

/-- `#name`: `ast.ident` without arguments, in every header listed above (`let name = ast.ident;`, for example `base64/mod.rs` L28).
`ast.generics` is not read anywhere in `validators-derive`. -/
structure Path where
  name : String
  args : List String
  deriving DecidableEq, Repr

/-- A parameter of an item: `syn::GenericParam`. A default is kept as its text. -/
inductive Param where
  | lifetime
  | type (default : Option String)
  | const (default : Option String)
  deriving DecidableEq, Repr

/-- `syn::DeriveInput` with its name and its generics. -/
structure Item (τ : Type) where
  name : String
  generics : List Param
  input : Input τ

/-- The output of the macro: the type and the blocks. `lib.rs` L26-200, L203-219. -/
def expand (M : Macro τ φ κ) (test : Bool) (ptr : IntV.Ptr) (i : Item τ) : Out DeriveError (List (Path × Block)) :=
  (derive M i.input).bind fun p => .ok ((blocks M test ptr p).map fun b => (⟨i.name, []⟩, b))

end Verif.Surface
