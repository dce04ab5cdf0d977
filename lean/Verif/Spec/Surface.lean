import Verif.Spec.Generated
import Verif.Model.Surface

/-!
# What a type with `#[derive(Validator)]` offers
-/

namespace Verif.Spec.Surface

open Verif.Attr Verif.Derive
open Verif.Surface (Param Path Block)

/-- The list "Traits:" of the manual, `validators/src/lib.rs` L58-789. -/
def promised : Validator → List String
  | .base32 => ["ValidateString", "ValidateBytes"]
  | .base32_decoded => ["ValidateString", "ValidateBytes", "CollectionLength"]
  | .base64 => ["ValidateString", "ValidateBytes"]
  | .base64_decoded => ["ValidateString", "ValidateBytes", "CollectionLength"]
  | .base64_url => ["ValidateString", "ValidateBytes"]
  | .base64_url_decoded => ["ValidateString", "ValidateBytes", "CollectionLength"]
  | .bit => ["ValidateString", "ValidateUnsignedInteger"]
  | .boolean => ["ValidateString", "ValidateChar", "ValidateSignedInteger", "ValidateUnsignedInteger", "ValidateBoolean"]
  | .byte => ["ValidateString", "ValidateUnsignedInteger"]
  | .domain => ["ValidateString", "QualifyDomain", "ToUriAuthorityString"]
  | .email => ["ValidateString", "ToEmailString"]
  | .host => ["ValidateString", "ToUriAuthorityString"]
  | .http_url => ["ValidateString"]
  | .http_ftp_url => ["ValidateString"]
  | .ip => ["ValidateString", "ToUriAuthorityString"]
  | .ipv4 => ["ValidateString", "ToUriAuthorityString"]
  | .ipv6 => ["ValidateString", "ToUriAuthorityString"]
  | .json => ["ValidateString", "ValidateSignedInteger", "ValidateUnsignedInteger", "ValidateNumber", "ValidateBoolean", "ValidateJsonValue"]
  | .length => ["ValidateLength", "CollectionLength"]
  | .line => ["ValidateLength"]
  | .mac_address => ["ValidateString", "ToMacAddressString"]
  | .number => ["ValidateString", "ValidateNumber"]
  | .phone => ["ValidateString"]
  | .regex => ["ValidateString"]
  | .semver => ["ValidateString"]
  | .semver_req => ["ValidateString"]
  | .signed_integer => ["ValidateString", "ValidateSignedInteger"]
  | .text => ["ValidateLength"]
  | .unsigned_integer => ["ValidateString", "ValidateUnsignedInteger"]
  | .url => ["ValidateString"]
  | .uuid => ["ValidateString", "ToUuidString"]

/-- The traits of the library that a type has: those of the manual, except that `line` and `text` have `ValidateString` instead of
`ValidateLength`, that `length` has no `CollectionLength`, and that `json` has `ToJsonString` too. -/
def offered : Validator → List String
  | .line => ["ValidateString"]
  | .text => ["ValidateString"]
  | .length => ["ValidateLength"]
  | .json => "ToJsonString" :: promised .json
  | v => promised v

/-- The items that an `impl` must have, and the ones that it may have, by the declaration of the trait. -/
structure Decl where
  required : List String
  provided : List String

/-- The declarations: `validators/src/traits/*.rs`. Those of `serde` and of Rocket 0.5 are not in the repository: they are assumptions
about these libraries (in `FromFormField` every method has a default). -/
def declared : String → Option Decl
  | "ValidateString" => some ⟨["Error", "parse_string", "parse_str", "validate_str"], []⟩
  | "ValidateBytes" => some ⟨["Error", "parse_vec_u8", "parse_u8_slice", "validate_u8_slice"], []⟩
  | "ValidateChar" => some ⟨["Error", "parse_char", "validate_char"], []⟩
  | "ValidateBoolean" => some ⟨["Error", "parse_bool", "validate_bool"], []⟩
  | "ValidateJsonValue" => some ⟨["Error", "parse_json_value", "validate_json_value"], []⟩
  | "ValidateLength" => some ⟨["Error", "parse_collection", "validate_collection"], []⟩
  | "ValidateNumber" => some ⟨["Error", "parse_f64", "validate_f64"], ["parse_f32", "validate_f32"]⟩
  | "ValidateSignedInteger" => some ⟨["Error", "parse_i128", "validate_i128"],
      ["parse_isize", "parse_i64", "parse_i32", "parse_i16", "parse_i8",
        "validate_isize", "validate_i64", "validate_i32", "validate_i16", "validate_i8"]⟩
  | "ValidateUnsignedInteger" => some ⟨["Error", "parse_u128", "validate_u128"],
      ["parse_usize", "parse_u64", "parse_u32", "parse_u16", "parse_u8",
        "validate_usize", "validate_u64", "validate_u32", "validate_u16", "validate_u8"]⟩
  | "CollectionLength" => some ⟨["len"], ["is_empty"]⟩
  | "QualifyDomain" => some ⟨["is_fully_qualified", "get_domain_non_fully_qualified"], []⟩
  | "ToUriAuthorityString" => some ⟨["to_uri_authority_string"], []⟩
  | "ToEmailString" => some ⟨["to_email_string"], []⟩
  | "ToJsonString" => some ⟨["to_minified_json_string", "to_beautified_json_string"], []⟩
  | "ToMacAddressString" => some ⟨["to_mac_address_string"], []⟩
  | "ToUuidString" => some ⟨["to_uuid_string"], []⟩
  | "serde::Serialize" => some ⟨["serialize"], []⟩
  | "serde::Deserialize" => some ⟨["deserialize"], []⟩
  | "rocket::form::FromFormField" => some ⟨[], ["from_value", "from_data", "default"]⟩
  | "rocket::request::FromParam" => some ⟨["Error", "from_param"], []⟩
  | _ => none

/-- An `impl` of the trait compiles as far as its items go: no item twice (E0201), none missing (E0046), none unknown to the trait
(E0407, E0437). -/
def Conforms (trait : String) (items : List String) : Prop :=
  ∃ d, declared trait = some d ∧ items.Nodup ∧ (∀ i ∈ d.required, i ∈ items) ∧ ∀ i ∈ items, i ∈ d.required ∨ i ∈ d.provided

/-- Names `v_..` and `V_..`. -/
def Reserved (item : String) : Prop := ['v', '_'] <+: item.toList ∨ ['V', '_'] <+: item.toList

/-! ## Generic items

A type `Name<..>` has one instance for each list of arguments. -/

/-- One argument for each parameter, a lifetime too. -/
def Instance (params : List Param) (args : List String) : Prop := args.length = params.length

/-- The instance that a path `Name<..>` with these arguments means in the header of an `impl`: defaults are filled in for types and
constants (E0107 without a default), and a lifetime may not be left out (E0726). -/
inductive Denotes : List Param → List String → List String → Prop
  | nil : Denotes [] [] []
  | given {p ps a as is} : Denotes ps as is → Denotes (p :: ps) (a :: as) (a :: is)
  | type {d ps is} : Denotes ps [] is → Denotes (.type (some d) :: ps) [] (d :: is)
  | const {d ps is} : Denotes ps [] is → Denotes (.const (some d) :: ps) [] (d :: is)

/-- A parameter that need not be written. -/
def Optional : Param → Prop
  | .lifetime => False
  | .type d => d.isSome
  | .const d => d.isSome

end Verif.Spec.Surface
