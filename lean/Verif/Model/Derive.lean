import Verif.Model.Attr

/-!
# `#[derive(Validator)]`: choosing the validator and checking the annotated item

Paths are relative to `validators-derive/src`. The generated code is not modelled here, except for the fields that it fills
and reads: everything else of it is in the models of the validators. Spans and messages of errors are dropped, except for
the struct that a message asks for.
-/

namespace Verif.Derive

open Verif.Attr

/-! ## The validators -/

/-- `Validator`: `supported_validators.rs` L37-105, without `_Nothing`, which is never built. -/
inductive Validator where
  | base32
  | base32_decoded
  | base64
  | base64_decoded
  | base64_url
  | base64_url_decoded
  | bit
  | boolean
  | byte
  | domain
  | email
  | host
  | http_url
  | http_ftp_url
  | ip
  | ipv4
  | ipv6
  | json
  | length
  | line
  | mac_address
  | number
  | phone
  | regex
  | semver
  | semver_req
  | signed_integer
  | text
  | unsigned_integer
  | url
  | uuid
  deriving DecidableEq, Repr

/-- `Validator::from_path`: `supported_validators.rs` L107-182. The argument is `path.get_ident()`; `enabled` are the features
of the crate (each arm is under `#[cfg(feature = ..)]`). -/
def fromPath (enabled : Validator → Bool) (ident : Option String) : Option Validator :=
  match ident with
  | none => none
  | some s =>
    match s with
    | "base32" => if enabled .base32 then some .base32 else none
    | "base32_decoded" => if enabled .base32_decoded then some .base32_decoded else none
    | "base64" => if enabled .base64 then some .base64 else none
    | "base64_decoded" => if enabled .base64_decoded then some .base64_decoded else none
    | "base64_url" => if enabled .base64_url then some .base64_url else none
    | "base64_url_decoded" => if enabled .base64_url_decoded then some .base64_url_decoded else none
    | "bit" => if enabled .bit then some .bit else none
    | "boolean" => if enabled .boolean then some .boolean else none
    | "byte" => if enabled .byte then some .byte else none
    | "domain" => if enabled .domain then some .domain else none
    | "email" => if enabled .email then some .email else none
    | "host" => if enabled .host then some .host else none
    | "http_url" => if enabled .http_url then some .http_url else none
    | "http_ftp_url" => if enabled .http_ftp_url then some .http_ftp_url else none
    | "ip" => if enabled .ip then some .ip else none
    | "ipv4" => if enabled .ipv4 then some .ipv4 else none
    | "ipv6" => if enabled .ipv6 then some .ipv6 else none
    | "json" => if enabled .json then some .json else none
    | "length" => if enabled .length then some .length else none
    | "line" => if enabled .line then some .line else none
    | "mac_address" => if enabled .mac_address then some .mac_address else none
    | "number" => if enabled .number then some .number else none
    | "phone" => if enabled .phone then some .phone else none
    | "regex" => if enabled .regex then some .regex else none
    | "semver" => if enabled .semver then some .semver else none
    | "semver_req" => if enabled .semver_req then some .semver_req else none
    | "signed_integer" => if enabled .signed_integer then some .signed_integer else none
    | "text" => if enabled .text then some .text else none
    | "unsigned_integer" => if enabled .unsigned_integer then some .unsigned_integer else none
    | "url" => if enabled .url then some .url else none
    | "uuid" => if enabled .uuid then some .uuid else none
    | _ => none

/-! ## The annotated item -/

/-- `syn::Fields`. A field is its name and the text of the tokens of its type. -/
inductive Fields where
  | named (fs : List (String × String))
  | unnamed (tys : List String)
  | unit
  deriving DecidableEq, Repr

/-- `syn::Data`. -/
inductive Data where
  | struct (fields : Fields)
  | enum
  | union
  deriving DecidableEq, Repr

/-- `syn::DeriveInput`: the attributes of the item (`attr.meta`) and its data. -/
structure Input (τ : Type) where
  attrs : List (Meta τ)
  data : Data

/-- `TypeEnum`: `common/type_enum.rs` L4-30. -/
inductive TypeEnum where
  | string
  | vecU8
  | boolean
  | u16
  | u64
  | u128
  | number
  | signedInteger
  | unsignedInteger
  | optionU16
  | optionString
  | ipAddr
  | ipv4Addr
  | ipv6Addr
  | host
  | protocol
  | bit
  | byte
  | serde
  | version
  | versionReq
  | url
  | phoneNumber
  | hashMapPhoneNumber
  | collectionLength
  deriving DecidableEq, Repr

/-- The structs of `struct`-definitions inside each handler (`Struct`, `StructAllowPort`, ...): a tuple struct with one field or
a struct with named fields. -/
inductive Item where
  | tuple (t : TypeEnum)
  | record (fs : List (String × TypeEnum))
  deriving DecidableEq, Repr

/-- The errors of `derive_input_handler` and of the `meta_handler`s. -/
inductive DeriveError where
  /-- the attribute cannot be parsed -/
  | syn
  /-- `validator_only_one_at_a_time` -/
  | onlyOne
  /-- `unsupported_validator` -/
  | unsupported
  /-- `validator_format_incorrect` -/
  | format
  /-- `derive_attribute_not_set_up_yet` -/
  | notSetUp
  /-- `validator_for_specific_item`, with the struct it shows -/
  | shape (item : Item)
  /-- an error about the parameters -/
  | attr (e : AttrError)
  deriving DecidableEq, Repr

variable {τ α β φ κ : Type}

/-! ## Choosing the validator -/

/-- The loop of `derive_input_handler`: `lib.rs` L29-51. `used` is `use_validator`. -/
def select (syn : Syn τ) (enabled : Validator → Bool) :
    (used : Option (Validator × Meta τ)) → List (Meta τ) → Out DeriveError (Option (Validator × Meta τ))
  | used, [] => .ok used
  | used, attr :: rest =>
    if attr.name = some "validator" then
      match attr with
      | .list _ tokens =>
        match syn.one tokens with
        | none => .err .syn
        | some m =>
          match fromPath enabled m.name with
          | some v => if used.isSome then .err .onlyOne else select syn enabled (some (v, m)) rest
          | none => .err .unsupported
      | _ => .err .format
    else select syn enabled used rest

/-! ## Shapes -/

/-- `if let Fields::Unnamed(_) = .. && len() == 1`: the check of the handlers with one unnamed field; also L301-316, L476-491 of
`validator_handlers/domain/mod.rs` and the same lines in the other network handlers. -/
def tupleOne (fields : Fields) (item : Item) : Out DeriveError Unit :=
  match fields with
  | .unnamed tys => if tys.length = 1 then .ok () else .err (.shape item)
  | _ => .err (.shape item)

/-- The check of named fields: their number, then each name. E.g. `validator_handlers/domain/mod.rs` L149-176. -/
def namedOnly (fields : Fields) (n : Nat) (names : List String) (item : Item) : Out DeriveError Unit :=
  match fields with
  | .named fs =>
    if fs.length ≠ n then .err (.shape item)
    else if fs.all (fun f => names.contains f.1) then .ok () else .err (.shape item)
  | _ => .err (.shape item)

/-- The check of the handlers with one unnamed field: `if let Data::Struct(data) = .. && ..`, else the error at the end. E.g.
`validator_handlers/uuid/mod.rs` L25-28, L450. -/
def single (data : Data) (t : TypeEnum) : Out DeriveError Unit :=
  match data with
  | .struct fields => tupleOne fields (.tuple t)
  | _ => .err (.shape (.tuple t))

/-- The check of `http_url` and `http_ftp_url`: two named fields, with any names. `validator_handlers/http_url/mod.rs` L30-33,
L223, `http_ftp_url/mod.rs` L30-33, L224. -/
def twoNamed (data : Data) (item : Item) : Out DeriveError Unit :=
  match data with
  | .struct (.named fs) => if fs.length = 2 then .ok () else .err (.shape item)
  | _ => .err (.shape item)

/-- `validator_handlers/domain/mod.rs` L142-495. -/
def domainShape (a : DomainAttribute) (fields : Fields) : Out DeriveError Unit :=
  match a.ipv4 with
  | .allow =>
    if a.loc = .allow ∧ a.atl ≠ .allow then
      match a.port with
      | .allow => namedOnly fields 4 ["domain", "is_ipv4", "is_local", "port"]
          (.record [("domain", .string), ("is_ipv4", .boolean), ("is_local", .boolean), ("port", .optionU16)])
      | .must => namedOnly fields 4 ["domain", "is_ipv4", "is_local", "port"]
          (.record [("domain", .string), ("is_ipv4", .boolean), ("is_local", .boolean), ("port", .u16)])
      | .disallow => namedOnly fields 3 ["domain", "is_ipv4", "is_local"]
          (.record [("domain", .string), ("is_ipv4", .boolean), ("is_local", .boolean)])
    else
      match a.port with
      | .allow => namedOnly fields 2 ["domain", "port"] (.record [("domain", .string), ("port", .optionU16)])
      | .must => namedOnly fields 2 ["domain", "port"] (.record [("domain", .string), ("port", .u16)])
      | .disallow => tupleOne fields (.tuple .string)
  | _ =>
    if a.loc = .allow ∧ a.atl ≠ .allow then
      match a.port with
      | .allow => namedOnly fields 3 ["domain", "is_local", "port"]
          (.record [("domain", .string), ("is_local", .boolean), ("port", .optionU16)])
      | .must => namedOnly fields 3 ["domain", "is_local", "port"]
          (.record [("domain", .string), ("is_local", .boolean), ("port", .u16)])
      | .disallow => namedOnly fields 2 ["domain", "is_local"] (.record [("domain", .string), ("is_local", .boolean)])
    else
      match a.port with
      | .allow => namedOnly fields 2 ["domain", "port"] (.record [("domain", .string), ("port", .optionU16)])
      | .must => namedOnly fields 2 ["domain", "port"] (.record [("domain", .string), ("port", .u16)])
      | .disallow => tupleOne fields (.tuple .string)

/-- `validator_handlers/host/mod.rs` L75-236. -/
def hostShape (a : HostAttribute) (fields : Fields) : Out DeriveError Unit :=
  if a.loc = .allow ∧ a.atl ≠ .allow then
    match a.port with
    | .allow => namedOnly fields 3 ["host", "is_local", "port"] (.record [("host", .host), ("is_local", .boolean), ("port", .optionU16)])
    | .must => namedOnly fields 3 ["host", "is_local", "port"] (.record [("host", .host), ("is_local", .boolean), ("port", .u16)])
    | .disallow => namedOnly fields 2 ["host", "is_local"] (.record [("host", .host), ("is_local", .boolean)])
  else
    match a.port with
    | .allow => namedOnly fields 2 ["host", "port"] (.record [("host", .host), ("port", .optionU16)])
    | .must => namedOnly fields 2 ["host", "port"] (.record [("host", .host), ("port", .u16)])
    | .disallow => tupleOne fields (.tuple .host)

/-- `validator_handlers/ip/mod.rs` L46-111, `ipv4/mod.rs` L46-111, `ipv6/mod.rs` L46-111: `name` and `t` are the field of the
address and its type. -/
def ipShape (name : String) (t : TypeEnum) (a : IpAttribute) (fields : Fields) : Out DeriveError Unit :=
  match a.port with
  | .allow => namedOnly fields 2 [name, "port"] (.record [(name, t), ("port", .optionU16)])
  | .must => namedOnly fields 2 [name, "port"] (.record [(name, t), ("port", .u16)])
  | .disallow => tupleOne fields (.tuple t)

/-- The fields of the structs `StructAllowComment..` that hold comments: `validator_handlers/email/mod.rs` L31-34. -/
def commentItems : List (String × TypeEnum) :=
  [("comment_before_local_part", .optionString), ("comment_after_local_part", .optionString),
    ("comment_before_domain_part", .optionString), ("comment_after_domain_part", .optionString)]

/-- The names accepted for them, e.g. `validator_handlers/email/mod.rs` L202-209. -/
def commentNames : List String :=
  ["comment_before_local_part", "comment_after_local_part", "comment_before_domain_part", "comment_after_domain_part"]

/-- `validator_handlers/email/mod.rs` L184-580. -/
def emailShape (a : EmailAttribute) (fields : Fields) : Out DeriveError Unit :=
  if a.comment = .allow then
    match a.ip with
    | .allow =>
      if a.loc = .allow ∧ a.atl ≠ .allow then
        namedOnly fields 8 (["local_part", "need_quoted", "domain_part"] ++ commentNames ++ ["is_local"])
          (.record ([("local_part", .string), ("need_quoted", .boolean), ("domain_part", .host)] ++ commentItems ++ [("is_local", .boolean)]))
      else
        namedOnly fields 7 (["local_part", "need_quoted", "domain_part"] ++ commentNames)
          (.record ([("local_part", .string), ("need_quoted", .boolean), ("domain_part", .host)] ++ commentItems))
    | .must =>
      if a.loc = .allow ∧ a.atl ≠ .allow then
        namedOnly fields 8 (["local_part", "need_quoted", "domain_part"] ++ commentNames ++ ["is_local"])
          (.record ([("local_part", .string), ("need_quoted", .boolean), ("domain_part", .ipAddr)] ++ commentItems ++ [("is_local", .boolean)]))
      else
        namedOnly fields 7 (["local_part", "need_quoted", "domain_part"] ++ commentNames)
          (.record ([("local_part", .string), ("need_quoted", .boolean), ("domain_part", .ipAddr)] ++ commentItems))
    | .disallow =>
      if a.loc = .allow ∧ a.atl ≠ .allow then
        namedOnly fields 8 (["local_part", "need_quoted", "domain_part"] ++ commentNames ++ ["is_local"])
          (.record ([("local_part", .string), ("need_quoted", .boolean), ("domain_part", .string)] ++ commentItems ++ [("is_local", .boolean)]))
      else
        namedOnly fields 7 (["local_part", "need_quoted", "domain_part"] ++ commentNames)
          (.record ([("local_part", .string), ("need_quoted", .boolean), ("domain_part", .string)] ++ commentItems))
  else
    match a.ip with
    | .allow =>
      if a.loc = .allow ∧ a.atl ≠ .allow then
        namedOnly fields 4 ["local_part", "need_quoted", "domain_part", "is_local"]
          (.record [("local_part", .string), ("need_quoted", .boolean), ("domain_part", .host), ("is_local", .boolean)])
      else
        namedOnly fields 3 ["local_part", "need_quoted", "domain_part"]
          (.record [("local_part", .string), ("need_quoted", .boolean), ("domain_part", .host)])
    | .must =>
      if a.loc = .allow ∧ a.atl ≠ .allow then
        namedOnly fields 4 ["local_part", "need_quoted", "domain_part", "is_local"]
          (.record [("local_part", .string), ("need_quoted", .boolean), ("domain_part", .ipAddr), ("is_local", .boolean)])
      else
        namedOnly fields 3 ["local_part", "need_quoted", "domain_part"]
          (.record [("local_part", .string), ("need_quoted", .boolean), ("domain_part", .ipAddr)])
    | .disallow =>
      if a.loc = .allow ∧ a.atl ≠ .allow then
        namedOnly fields 4 ["local_part", "need_quoted", "domain_part", "is_local"]
          (.record [("local_part", .string), ("need_quoted", .boolean), ("domain_part", .string), ("is_local", .boolean)])
      else
        namedOnly fields 3 ["local_part", "need_quoted", "domain_part"]
          (.record [("local_part", .string), ("need_quoted", .boolean), ("domain_part", .string)])

/-! ## The handlers -/

variable [DecidableEq κ]

/-- What the macro is compiled with. `f32` and `f64` are the float types, `ptr` is the pointer width of the machine that runs
the macro. -/
structure Macro (τ φ κ : Type) where
  syn : Syn τ
  serde : Bool
  rocket : Bool
  full : Bool
  f32 : NumTy φ
  f64 : NumTy φ
  ptr : IntV.Ptr
  usize : List UInt8 → Option Nat
  country : String → Option κ
  order : Order κ
  regexOk : String → Bool
  enabled : Validator → Bool

/-- The same for one number type. -/
def Macro.env (M : Macro τ φ κ) (num : NumTy α) : Env τ α κ where
  syn := M.syn
  serde := M.serde
  rocket := M.rocket
  full := M.full
  num := num
  usize := M.usize
  country := M.country
  order := M.order
  regexOk := M.regexOk

/-- For attributes without numbers, and for `Range<u128>` of `bit` and `byte`. -/
def Macro.env128 (M : Macro τ φ κ) : Env τ Int κ := M.env (intTy false 128)

/-- What a handler generates code from: the attribute it has read. For numbers the type of the field is part of it. -/
inductive Plan (φ κ : Type) where
  | base (v : Validator) (a : BaseAttribute)
  | basic (v : Validator) (a : BasicAttribute)
  | bit (a : BitAttribute Int)
  | byte (a : ByteAttribute Int)
  | domain (a : DomainAttribute)
  | email (a : EmailAttribute)
  | host (a : HostAttribute)
  | url (v : Validator) (a : UrlAttribute)
  | ip (v : Validator) (a : IpAttribute)
  | length (a : LengthAttribute)
  | utf8 (v : Validator) (a : Utf8Attribute)
  | hex (v : Validator) (a : HexAttribute)
  | number (double : Bool) (a : NumberAttribute φ)
  | phone (a : PhoneAttribute κ)
  | regex (a : RegexAttribute)
  | int (signed : Bool) (w : IntV.Width) (a : RangeAttribute Int)

/-- Errors about the parameters. -/
def lift : Out AttrError β → Out DeriveError β
  | .ok b => .ok b
  | .err e => .err (.attr e)
  | .panic => .panic

/-- The type names of `signed_integer`: `validator_handlers/signed_integer/mod.rs` L41-51. -/
def signedType : String → Option IntV.Width
  | "isize" => some .size
  | "i8" => some .w8
  | "i16" => some .w16
  | "i32" => some .w32
  | "i64" => some .w64
  | "i128" => some .w128
  | _ => none

/-- The type names of `unsigned_integer`: `validator_handlers/unsigned_integer/mod.rs` L41-51. -/
def unsignedType : String → Option IntV.Width
  | "usize" => some .size
  | "u8" => some .w8
  | "u16" => some .w16
  | "u32" => some .w32
  | "u64" => some .w64
  | "u128" => some .w128
  | _ => none

/-- The type names of `number`: `validator_handlers/number/mod.rs` L37-43. -/
def numberType : String → Option Bool
  | "f32" => some false
  | "f64" => some true
  | _ => none

/-- `SignedIntegerHandler::meta_handler` and `UnsignedIntegerHandler::meta_handler`:
`validator_handlers/signed_integer/mod.rs` L32-61, L667, `unsigned_integer/mod.rs` L32-61, L650. The struct that both show is
`Struct(TypeEnum::SignedInteger)` (L19). -/
def intHandler (M : Macro τ φ κ) (signed : Bool) (data : Data) (m : Meta τ) : Out DeriveError (Plan φ κ) :=
  match data with
  | .struct (.unnamed [ty]) =>
    match (if signed then signedType ty else unsignedType ty) with
    | some w => (lift (rangeAttribute (M.env (intTy signed (IntV.bits M.ptr w))) m)).bind fun a => .ok (.int signed w a)
    | none => .err (.shape (.tuple .signedInteger))
  | _ => .err (.shape (.tuple .signedInteger))

/-- `NumberHandler::meta_handler`: `validator_handlers/number/mod.rs` L28-61, L459. -/
def numberHandler (M : Macro τ φ κ) (data : Data) (m : Meta τ) : Out DeriveError (Plan φ κ) :=
  match data with
  | .struct (.unnamed [ty]) =>
    match numberType ty with
    | some double => (lift (numberConfig (M.env (if double then M.f64 else M.f32)) m)).bind fun a => .ok (.number double a)
    | none => .err (.shape (.tuple .number))
  | _ => .err (.shape (.tuple .number))

/-- `DomainHandler::meta_handler`: `validator_handlers/domain/mod.rs` L126-495, L1122: attribute, struct, conflict, shape. -/
def domainHandler (M : Macro τ φ κ) (data : Data) (m : Meta τ) : Out DeriveError (Plan φ κ) :=
  match data with
  | .struct fields => (lift (domainConfig M.env128 m)).bind fun a => (domainShape a fields).bind fun _ => .ok (.domain a)
  | _ => (lift (domainAttribute M.env128 m)).bind fun _ => .err (.shape (.tuple .string))

/-- `EmailHandler::meta_handler`: `validator_handlers/email/mod.rs` L168-580, L1778. -/
def emailHandler (M : Macro τ φ κ) (data : Data) (m : Meta τ) : Out DeriveError (Plan φ κ) :=
  match data with
  | .struct fields => (lift (emailConfig M.env128 m)).bind fun a => (emailShape a fields).bind fun _ => .ok (.email a)
  | _ => (lift (emailAttribute M.env128 m)).bind fun _ =>
      .err (.shape (.record ([("local_part", .string), ("need_quoted", .boolean), ("domain_part", .string)] ++ commentItems)))

/-- `HostHandler::meta_handler`: `validator_handlers/host/mod.rs` L72-236, L850. -/
def hostHandler (M : Macro τ φ κ) (data : Data) (m : Meta τ) : Out DeriveError (Plan φ κ) :=
  (lift (hostAttribute M.env128 m)).bind fun a =>
    match data with
    | .struct fields => (hostShape a fields).bind fun _ => .ok (.host a)
    | _ => .err (.shape (.tuple .host))

/-- `IpHandler::meta_handler` and its siblings: `validator_handlers/ip/mod.rs` L42-111, L551, `ipv4/mod.rs` L42-111, L439,
`ipv6/mod.rs` L42-111, L471. -/
def ipHandler (M : Macro τ φ κ) (v : Validator) (name : String) (t : TypeEnum) (data : Data) (m : Meta τ) :
    Out DeriveError (Plan φ κ) :=
  (lift (ipAttribute M.env128 m)).bind fun a =>
    match data with
    | .struct fields => (ipShape name t a fields).bind fun _ => .ok (.ip v a)
    | _ => .err (.shape (.tuple t))

/-- The `match validator` of `derive_input_handler`: `lib.rs` L53-197, with the `meta_handler`s that only check for one unnamed
field (or two named ones) written out: they read the attribute first (`validator_handlers/*/mod.rs`, e.g. `uuid/mod.rs` L23-28). The struct that `phone` shows depends on
the number of countries (`phone/mod.rs` L224-228). -/
def handler (M : Macro τ φ κ) (v : Validator) (data : Data) (m : Meta τ) : Out DeriveError (Plan φ κ) :=
  match v with
  | .base32 => (lift (baseAttribute M.env128 m)).bind fun a => (single data .string).bind fun _ => .ok (.base .base32 a)
  | .base32_decoded => (lift (baseAttribute M.env128 m)).bind fun a => (single data .vecU8).bind fun _ => .ok (.base .base32_decoded a)
  | .base64 => (lift (baseAttribute M.env128 m)).bind fun a => (single data .string).bind fun _ => .ok (.base .base64 a)
  | .base64_decoded => (lift (baseAttribute M.env128 m)).bind fun a => (single data .vecU8).bind fun _ => .ok (.base .base64_decoded a)
  | .base64_url => (lift (baseAttribute M.env128 m)).bind fun a => (single data .string).bind fun _ => .ok (.base .base64_url a)
  | .base64_url_decoded =>
    (lift (baseAttribute M.env128 m)).bind fun a => (single data .vecU8).bind fun _ => .ok (.base .base64_url_decoded a)
  | .bit => (lift (bitAttribute M.env128 m)).bind fun a => (single data .bit).bind fun _ => .ok (.bit a)
  | .boolean => (lift (basicAttribute M.env128 m)).bind fun a => (single data .boolean).bind fun _ => .ok (.basic .boolean a)
  | .byte => (lift (byteAttribute M.env128 m)).bind fun a => (single data .bit).bind fun _ => .ok (.byte a)
  | .domain => domainHandler M data m
  | .email => emailHandler M data m
  | .host => hostHandler M data m
  | .http_url =>
    (lift (urlAttribute M.env128 m)).bind fun a =>
      (twoNamed data (.record [("url", .url), ("is_https", .boolean)])).bind fun _ => .ok (.url .http_url a)
  | .http_ftp_url =>
    (lift (urlAttribute M.env128 m)).bind fun a =>
      (twoNamed data (.record [("url", .url), ("protocol", .protocol)])).bind fun _ => .ok (.url .http_ftp_url a)
  | .ip => ipHandler M .ip "ip" .ipAddr data m
  | .ipv4 => ipHandler M .ipv4 "ipv4" .ipv4Addr data m
  | .ipv6 => ipHandler M .ipv6 "ipv6" .ipv6Addr data m
  | .json => (lift (basicAttribute M.env128 m)).bind fun a => (single data .serde).bind fun _ => .ok (.basic .json a)
  | .length => (lift (lengthAttribute M.env128 m)).bind fun a => (single data .collectionLength).bind fun _ => .ok (.length a)
  | .line => (lift (utf8Attribute M.env128 m)).bind fun a => (single data .string).bind fun _ => .ok (.utf8 .line a)
  | .mac_address => (lift (macAttribute M.env128 m)).bind fun a => (single data .u64).bind fun _ => .ok (.hex .mac_address a)
  | .number => numberHandler M data m
  | .phone =>
    (lift (phoneAttribute M.env128 m)).bind fun a =>
      (single data (if 1 < a.countries.length then .hashMapPhoneNumber else .string)).bind fun _ => .ok (.phone a)
  | .regex => (lift (regexAttribute M.env128 m)).bind fun a => (single data .string).bind fun _ => .ok (.regex a)
  | .semver => (lift (basicAttribute M.env128 m)).bind fun a => (single data .version).bind fun _ => .ok (.basic .semver a)
  | .semver_req => (lift (basicAttribute M.env128 m)).bind fun a => (single data .versionReq).bind fun _ => .ok (.basic .semver_req a)
  | .signed_integer => intHandler M true data m
  | .text => (lift (utf8Attribute M.env128 m)).bind fun a => (single data .string).bind fun _ => .ok (.utf8 .text a)
  | .unsigned_integer => intHandler M false data m
  | .url => (lift (basicAttribute M.env128 m)).bind fun a => (single data .url).bind fun _ => .ok (.basic .url a)
  | .uuid => (lift (uuidAttribute M.env128 m)).bind fun a => (single data .u128).bind fun _ => .ok (.hex .uuid a)

/-- `derive_input_handler`: `lib.rs` L26-200. -/
def derive (M : Macro τ φ κ) (ast : Input τ) : Out DeriveError (Plan φ κ) :=
  (select M.syn M.enabled none ast.attrs).bind fun used =>
    match used with
    | some (v, m) => handler M v ast.data m
    | none => .err .notSetUp

/-! ## The fields in the generated code -/

/-- `create_instance` of `domain`: the fields filled and the types of the values. `validator_handlers/domain/mod.rs` L745-867. -/
def domainFilled (a : DomainAttribute) : Item :=
  match a.ipv4 with
  | .allow =>
    if a.loc = .allow ∧ a.atl ≠ .allow then
      match a.port with
      | .allow => .record [("domain", .string), ("is_ipv4", .boolean), ("is_local", .boolean), ("port", .optionU16)]
      | .must => .record [("domain", .string), ("is_ipv4", .boolean), ("is_local", .boolean), ("port", .u16)]
      | .disallow => .record [("domain", .string), ("is_ipv4", .boolean), ("is_local", .boolean)]
    else
      match a.port with
      | .allow => .record [("domain", .string), ("port", .optionU16)]
      | .must => .record [("domain", .string), ("port", .u16)]
      | .disallow => .tuple .string
  | _ =>
    if a.loc = .allow ∧ a.atl ≠ .allow then
      match a.port with
      | .allow => .record [("domain", .string), ("is_local", .boolean), ("port", .optionU16)]
      | .must => .record [("domain", .string), ("is_local", .boolean), ("port", .u16)]
      | .disallow => .record [("domain", .string), ("is_local", .boolean)]
    else
      match a.port with
      | .allow => .record [("domain", .string), ("port", .optionU16)]
      | .must => .record [("domain", .string), ("port", .u16)]
      | .disallow => .tuple .string

/-- `self.0`, `self.domain` and `self.port` in `QualifyDomain` and `ToUriAuthorityString`: `validator_handlers/domain/mod.rs` L895-980
(serde uses `to_uri_authority_string`). -/
def domainRead (a : DomainAttribute) : List String :=
  (if a.port = .disallow ∧ (a.loc ≠ .allow ∨ a.atl = .allow) then ["0"] else ["domain"]) ++
    match a.port with
    | .allow => ["port"]
    | .must => ["port"]
    | .disallow => []

/-- `create_instance` of `host`: `validator_handlers/host/mod.rs` L563-622. -/
def hostFilled (a : HostAttribute) : Item :=
  if a.loc = .allow ∧ a.atl ≠ .allow then
    match a.port with
    | .allow => .record [("host", .host), ("is_local", .boolean), ("port", .optionU16)]
    | .must => .record [("host", .host), ("is_local", .boolean), ("port", .u16)]
    | .disallow => .record [("host", .host), ("is_local", .boolean)]
  else
    match a.port with
    | .allow => .record [("host", .host), ("port", .optionU16)]
    | .must => .record [("host", .host), ("port", .u16)]
    | .disallow => .tuple .host

/-- `ToUriAuthorityString` of `host`: `validator_handlers/host/mod.rs` L649-730. -/
def hostRead (a : HostAttribute) : List String :=
  if (a.loc ≠ .allow ∨ a.atl = .allow) ∧ a.port = .disallow then ["0"]
  else
    match a.port with
    | .allow => ["host", "port"]
    | .must => ["port", "host"]
    | .disallow => ["host"]

/-- `create_instance` of `ip`, `ipv4` and `ipv6`: `validator_handlers/ip/mod.rs` L337-361, `ipv4/mod.rs` L236-260,
`ipv6/mod.rs` L268-292. -/
def ipFilled (name : String) (t : TypeEnum) (a : IpAttribute) : Item :=
  match a.port with
  | .allow => .record [(name, t), ("port", .optionU16)]
  | .must => .record [(name, t), ("port", .u16)]
  | .disallow => .tuple t

/-- `ToUriAuthorityString` of `ip`, `ipv4` and `ipv6`: `validator_handlers/ip/mod.rs` L390-445, `ipv4/mod.rs` L289-333,
`ipv6/mod.rs` L321-365. -/
def ipRead (name : String) (a : IpAttribute) : List String :=
  match a.port with
  | .allow => [name, "port"]
  | .must => ["port", name]
  | .disallow => ["0"]

/-- `create_instance` of `email`: `validator_handlers/email/mod.rs` L1289-1497. -/
def emailFilled (a : EmailAttribute) : Item :=
  if a.comment = .allow then
    match a.ip with
    | .allow =>
      if a.loc = .allow ∧ a.atl ≠ .allow then
        .record ([("local_part", .string), ("need_quoted", .boolean), ("domain_part", .host)] ++ commentItems ++ [("is_local", .boolean)])
      else .record ([("local_part", .string), ("need_quoted", .boolean), ("domain_part", .host)] ++ commentItems)
    | .must =>
      if a.loc = .allow ∧ a.atl ≠ .allow then
        .record ([("local_part", .string), ("need_quoted", .boolean), ("domain_part", .ipAddr)] ++ commentItems ++ [("is_local", .boolean)])
      else .record ([("local_part", .string), ("need_quoted", .boolean), ("domain_part", .ipAddr)] ++ commentItems)
    | .disallow =>
      if a.loc = .allow ∧ a.atl ≠ .allow then
        .record ([("local_part", .string), ("need_quoted", .boolean), ("domain_part", .string)] ++ commentItems ++ [("is_local", .boolean)])
      else .record ([("local_part", .string), ("need_quoted", .boolean), ("domain_part", .string)] ++ commentItems)
  else
    match a.ip with
    | .allow =>
      if a.loc = .allow ∧ a.atl ≠ .allow then
        .record [("local_part", .string), ("need_quoted", .boolean), ("domain_part", .host), ("is_local", .boolean)]
      else .record [("local_part", .string), ("need_quoted", .boolean), ("domain_part", .host)]
    | .must =>
      if a.loc = .allow ∧ a.atl ≠ .allow then
        .record [("local_part", .string), ("need_quoted", .boolean), ("domain_part", .ipAddr), ("is_local", .boolean)]
      else .record [("local_part", .string), ("need_quoted", .boolean), ("domain_part", .ipAddr)]
    | .disallow =>
      if a.loc = .allow ∧ a.atl ≠ .allow then
        .record [("local_part", .string), ("need_quoted", .boolean), ("domain_part", .string), ("is_local", .boolean)]
      else .record [("local_part", .string), ("need_quoted", .boolean), ("domain_part", .string)]

/-- `ToEmailString`: `validator_handlers/email/mod.rs` L1526-1676. -/
def emailRead (a : EmailAttribute) : List String :=
  if a.comment = .disallow then ["local_part", "domain_part"]
  else ["comment_before_local_part", "need_quoted", "local_part", "comment_after_local_part", "comment_before_domain_part",
    "comment_after_domain_part", "domain_part"]

/-- The fields that the generated constructors fill, with the types of the values: `Self(..)` and `Self { .. }` in the handlers. For
numbers, `json` and `length` the value has the type of the declared field. -/
def filled : Plan φ κ → Item
  | .base v _ => match v with
    | .base32 => .tuple .string
    | .base32_decoded => .tuple .vecU8
    | .base64 => .tuple .string
    | .base64_decoded => .tuple .vecU8
    | .base64_url => .tuple .string
    | _ => .tuple .vecU8
  | .basic v _ => match v with
    | .boolean => .tuple .boolean
    | .json => .tuple .serde
    | .semver => .tuple .version
    | .semver_req => .tuple .versionReq
    | _ => .tuple .url
  | .bit _ => .tuple .bit
  | .byte _ => .tuple .byte
  | .domain a => domainFilled a
  | .email a => emailFilled a
  | .host a => hostFilled a
  | .url v _ => match v with
    | .http_url => .record [("url", .url), ("is_https", .boolean)]
    | _ => .record [("url", .url), ("protocol", .protocol)]
  | .ip v a => match v with
    | .ip => ipFilled "ip" .ipAddr a
    | .ipv4 => ipFilled "ipv4" .ipv4Addr a
    | _ => ipFilled "ipv6" .ipv6Addr a
  | .length _ => .tuple .collectionLength
  | .utf8 _ _ => .tuple .string
  | .hex v _ => match v with
    | .mac_address => .tuple .u64
    | _ => .tuple .u128
  | .number _ _ => .tuple .number
  | .phone a => match a.countries.length with
    | 0 => .tuple .phoneNumber
    | 1 => .tuple .phoneNumber
    | _ => .tuple .hashMapPhoneNumber
  | .regex _ => .tuple .string
  | .int signed _ _ => if signed then .tuple .signedInteger else .tuple .unsignedInteger

/-- The fields of `self` that the generated code reads. -/
def read : Plan φ κ → List String
  | .domain a => domainRead a
  | .email a => emailRead a
  | .host a => hostRead a
  | .url _ _ => ["url"]
  | .ip v a => match v with
    | .ip => ipRead "ip" a
    | .ipv4 => ipRead "ipv4" a
    | _ => ipRead "ipv6" a
  | _ => ["0"]

end Verif.Derive
