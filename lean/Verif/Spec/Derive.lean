import Verif.Model.Derive

/-!
# What `#[derive(Validator)]` should do (C63-C65)
-/

namespace Verif.Spec.Derive

open Verif.Attr Verif.Derive

variable {τ β : Type}

/-! ## Choosing the validator -/

/-- The documented names of the validators. -/
def name : Validator → String
  | .base32 => "base32"
  | .base32_decoded => "base32_decoded"
  | .base64 => "base64"
  | .base64_decoded => "base64_decoded"
  | .base64_url => "base64_url"
  | .base64_url_decoded => "base64_url_decoded"
  | .bit => "bit"
  | .boolean => "boolean"
  | .byte => "byte"
  | .domain => "domain"
  | .email => "email"
  | .host => "host"
  | .http_url => "http_url"
  | .http_ftp_url => "http_ftp_url"
  | .ip => "ip"
  | .ipv4 => "ipv4"
  | .ipv6 => "ipv6"
  | .json => "json"
  | .length => "length"
  | .line => "line"
  | .mac_address => "mac_address"
  | .number => "number"
  | .phone => "phone"
  | .regex => "regex"
  | .semver => "semver"
  | .semver_req => "semver_req"
  | .signed_integer => "signed_integer"
  | .text => "text"
  | .unsigned_integer => "unsigned_integer"
  | .url => "url"
  | .uuid => "uuid"

/-- An attribute of the macro: `#[validator..]`. -/
def Ours (a : Meta τ) : Prop := a.name = some "validator"

instance (a : Meta τ) : Decidable (Ours a) := inferInstanceAs (Decidable (_ = _))

/-- `#[validator(m)]`, where `m` names the validator `v`, whose feature is enabled. -/
def Requests (syn : Syn τ) (enabled : Validator → Bool) (a : Meta τ) (v : Validator) (m : Meta τ) : Prop :=
  ∃ tokens, a = .list (some "validator") tokens ∧ syn.one tokens = some m ∧ m.name = some (name v) ∧ enabled v = true

/-- What is wrong with an attribute that does not request a validator. -/
def Faulty (syn : Syn τ) (enabled : Validator → Bool) (a : Meta τ) (e : DeriveError) : Prop :=
  Ours a ∧ ((e = .format ∧ ¬ ∃ n tokens, a = .list n tokens) ∨
    ∃ n tokens, a = .list n tokens ∧
      ((e = .syn ∧ syn.one tokens = none) ∨
        ∃ m, syn.one tokens = some m ∧ e = .unsupported ∧ ∀ v, enabled v = true → m.name ≠ some (name v)))

/-- `x` is the one element of `l` with `P`. -/
def Only (P : β → Prop) (l : List β) (x : β) : Prop :=
  ∃ pre post, l = pre ++ x :: post ∧ P x ∧ (∀ y ∈ pre, ¬ P y) ∧ ∀ y ∈ post, ¬ P y

/-! ## Fields -/

/-- A struct with one unnamed field. -/
def OneUnnamed (d : Data) : Prop := ∃ ty, d = .struct (.unnamed [ty])

/-- A struct with exactly these named fields, in any order. -/
def Named (names : List String) (d : Data) : Prop := ∃ fs, d = .struct (.named fs) ∧ (fs.map Prod.fst).Perm names

/-- Rust's rule: the fields of a struct have different names. -/
def DistinctNames (d : Data) : Prop := ∀ fs, d = .struct (.named fs) → (fs.map Prod.fst).Nodup

/-- The struct has the field `n`; an unnamed field is called `0`. -/
def HasField (d : Data) (n : String) : Prop :=
  (n = "0" ∧ OneUnnamed d) ∨ ∃ fs, d = .struct (.named fs) ∧ n ∈ fs.map Prod.fst

/-- The struct has the fields of `i`. -/
def Matches (i : Item) (d : Data) : Prop :=
  match i with
  | .tuple _ => OneUnnamed d
  | .record fs => Named (fs.map Prod.fst) d

/-- Whether the value tells if the host is local: only when `local` is `Allow` and labels are restricted. -/
def TellsLocal (loc atl : TriAllow) : Prop := loc = .allow ∧ atl ≠ .allow

instance (loc atl : TriAllow) : Decidable (TellsLocal loc atl) := inferInstanceAs (Decidable (_ ∧ _))

/-- The fields of a `domain` struct. -/
def domainFields (a : DomainAttribute) : List String :=
  ["domain"] ++ (if a.ipv4 = .allow ∧ TellsLocal a.loc a.atl then ["is_ipv4"] else []) ++
    (if TellsLocal a.loc a.atl then ["is_local"] else []) ++ (if a.port ≠ .disallow then ["port"] else [])

/-- The fields of a `host` struct. -/
def hostFields (a : HostAttribute) : List String :=
  ["host"] ++ (if TellsLocal a.loc a.atl then ["is_local"] else []) ++ (if a.port ≠ .disallow then ["port"] else [])

/-- The fields of an `ip`, `ipv4` or `ipv6` struct. -/
def ipFields (address : String) (a : IpAttribute) : List String :=
  [address] ++ (if a.port ≠ .disallow then ["port"] else [])

/-- The fields of an `email` struct. -/
def emailFields (a : EmailAttribute) : List String :=
  ["local_part", "need_quoted", "domain_part"] ++
    (if a.comment = .allow then
      ["comment_before_local_part", "comment_after_local_part", "comment_before_domain_part", "comment_after_domain_part"] else []) ++
    (if TellsLocal a.loc a.atl then ["is_local"] else [])

/-- The documented rule for network validators: named fields, but a tuple struct if there is only one. -/
def NamedOrOne (names : List String) (d : Data) : Prop :=
  (names.length = 1 ∧ OneUnnamed d) ∨ (names.length ≠ 1 ∧ Named names d)

/-! ## Types -/

/-- The types that a message offers: `common/type_enum.rs`, `as_str`; none if any type with some traits will do. The names are
those that are printed: whether a path resolves is not modelled. -/
def offered : TypeEnum → List String
  | .string => ["String"]
  | .vecU8 => ["Vec<u8>"]
  | .boolean => ["bool"]
  | .u16 => ["u16"]
  | .u64 => ["u64"]
  | .u128 => ["u128"]
  | .number => ["f32", "f64"]
  | .signedInteger => ["isize", "i8", "i16", "i32", "i64", "i128"]
  | .unsignedInteger => ["usize", "u8", "u16", "u32", "u64", "u128"]
  | .optionU16 => ["Option<u16>"]
  | .optionString => ["Option<String>"]
  | .ipAddr => ["std::net::IpAddr"]
  | .ipv4Addr => ["std::net::Ipv4Addr"]
  | .ipv6Addr => ["std::net::Ipv6Addr"]
  | .host => ["crate::validators::models::Host"]
  | .protocol => ["crate::validators::models::Protocol"]
  | .bit => ["byte_unit::Bit"]
  | .byte => ["byte_unit::Byte"]
  | .serde => []
  | .version => ["crate::semver::Version"]
  | .versionReq => ["crate::semver::VersionReq"]
  | .url => ["url::Url"]
  | .phoneNumber => ["crate::phonenumber::PhoneNumber"]
  | .hashMapPhoneNumber => ["std::collection::HashMap<crate::phonenumber::country::Id, crate::phonenumber::PhoneNumber>"]
  | .collectionLength => []

/-- A struct written as the message shows it. For a type parameter any type is taken. -/
def Follows (i : Item) (d : Data) : Prop :=
  match i with
  | .tuple t => ∃ ty, (ty ∈ offered t ∨ offered t = []) ∧ d = .struct (.unnamed [ty])
  | .record fs => ∃ gs, gs.map Prod.fst = fs.map Prod.fst ∧ (∀ k (h : k < gs.length) (h' : k < fs.length), gs[k].2 ∈ offered fs[k].2 ∨ offered fs[k].2 = []) ∧
      d = .struct (.named gs)

/-- How an integer type is written. -/
def intName (signed : Bool) : IntV.Width → String
  | .w8 => if signed then "i8" else "u8"
  | .w16 => if signed then "i16" else "u16"
  | .w32 => if signed then "i32" else "u32"
  | .w64 => if signed then "i64" else "u64"
  | .w128 => if signed then "i128" else "u128"
  | .size => if signed then "isize" else "usize"

end Verif.Spec.Derive
