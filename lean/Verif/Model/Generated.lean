import Verif.Model.Derive
import Verif.Model.BaseN
import Verif.Model.Boolean
import Verif.Model.Email
import Verif.Model.LineMax
import Verif.Model.Mac
import Verif.Model.Number
import Verif.Model.Phone
import Verif.Model.Url
import Verif.Model.Uuid
import Verif.Model.Wrapper

/-!
# From the attribute to the generated `impl ValidateString`

The models of the validators take options as arguments. Here they are put together with what the derive macro has read of the
attribute. Paths are relative to `validators-derive/src/validator_handlers`.
-/

namespace Verif.Generated

open Verif.Attr Verif.Derive
open Verif.Range (Bounds RangeOption)
open Verif.Number (Fl)
open Verif.BaseN (strBytes)

/-- The libraries that the generated code calls, and how it is compiled: whether with overflow checks, and for which pointer
width. Simplification: the machine that runs the macro and the one that runs the program have the same pointer width where
`Macro.ptr` and `ptr` are assumed equal. -/
structure Libs (φ κ N U V ε : Type) where
  idna : Domain.Idna
  url : Url.Lib U
  phone : Phone.Lib κ N
  isMatch : Expr → List UInt8 → Bool
  /-- `Url::parse`, `Version::parse`, `VersionReq::parse`, `serde_json::from_str` -/
  lib : Validator → List UInt8 → Except ε V
  f32 : List UInt8 → Option (Fl φ)
  f64 : List UInt8 → Option (Fl φ)
  /-- `Bit::parse_str` -/
  bit : List UInt8 → Option Nat
  /-- `Byte::parse_str(s, ignore_case)` -/
  byte : Bool → List UInt8 → Option Nat
  checked : Bool
  ptr : IntV.Ptr

/-- The values that the structs hold. -/
inductive Value (φ κ N U V : Type) where
  | text (s : List Char)
  | bytes (d : List UInt8)
  | matched (s : List UInt8)
  | bool (b : Bool)
  | size (n : Nat)
  | domain (v : Domain.Value)
  | email (v : Email.Value)
  | host (v : Host.Value)
  | http (u : U) (https : Bool)
  | httpFtp (u : U) (p : Url.Protocol)
  | ip (x : Ip.IpAddr) (port : Option Nat)
  | ipv4 (x : StdIp.V4) (port : Option Nat)
  | ipv6 (x : StdIp.V6) (port : Option Nat)
  | hex (n : Nat)
  | number (f : Fl φ)
  | phone (v : Phone.Value κ N)
  | int (i : Int)
  | object (v : V)
  deriving DecidableEq

/-- Their errors. -/
inductive Error (ε : Type) where
  | base (e : BaseN.BaseError)
  | boolean
  | size (e : Size.SizeError)
  | domain (e : Domain.DomainError)
  | email (e : Email.EmailError)
  | host (e : Host.HostError)
  | url (e : Url.UrlError)
  | ip (e : Ip.IpError)
  | line (e : Line.LineError)
  | hex (e : Hex.HexError)
  | number (e : Number.NumberError)
  | phone (e : Phone.PhoneError)
  | regex
  | int (e : IntV.IntError)
  | lib (e : ε)
  deriving DecidableEq

/-- `impl ValidateString`: `validators/src/traits/validate_string.rs` L4-12. -/
structure Impl (E A : Type) where
  parseString : List Char → Out E A
  parseStr : List Char → Out E A
  validateStr : List Char → Out E Unit

/-- `Result::map_err`. -/
def mapErr {E E' A : Type} (f : E → E') : Out E A → Out E' A
  | .ok a => .ok a
  | .err e => .err (f e)
  | .panic => .panic

/-- An implementation whose three functions are given, with its error and value types named. -/
def Impl.make {E E' A A' : Type} (f : E → E') (g : A → A') (parseString parseStr : List Char → Out E A)
    (validateStr : List Char → Out E Unit) : Impl E' A' where
  parseString s := mapErr f ((parseString s).map g)
  parseStr s := mapErr f ((parseStr s).map g)
  validateStr s := mapErr f (validateStr s)

/-- The bounds as floats: what is written in an attribute is never NaN. -/
def numbers {φ : Type} : RangeOption φ → RangeOption (Fl φ)
  | .inside b => .inside ⟨b.min.map some, b.max.map some, b.inclusive⟩
  | .outside b => .outside ⟨b.min.map some, b.max.map some, b.inclusive⟩
  | .unlimited => .unlimited

variable {φ κ N U V ε : Type} [Ord φ] [DecidableEq κ]

/-- The text validators: `base64/mod.rs` L43-53, L143-170, `base64_url/mod.rs`, `base32/mod.rs` likewise. -/
def textImpl (B : BaseN.Variant) (a : BaseAttribute) : Impl (Error ε) (Value φ κ N U V) :=
  .make .base .text (BaseN.parseString B a.padding) (BaseN.parseStr B a.padding) (BaseN.validateStr B a.padding)

/-- The decoding validators: `base64_decoded/mod.rs` L46-117, L181-199, and the siblings. -/
def bytesImpl (B : BaseN.Variant) (E : BaseN.Encoding) (a : BaseAttribute) : Impl (Error ε) (Value φ κ N U V) :=
  .make .base .bytes (fun s => BaseN.decodedParse E a.padding (strBytes s)) (fun s => BaseN.decodedParse E a.padding (strBytes s))
    (fun s => BaseN.decodedValidate B a.padding (strBytes s))

/-- `bit/mod.rs` L47-132, `byte/mod.rs` L49-133: the bounds are `u128`. -/
def sizeImpl (lib : List UInt8 → Option Nat) (range : Bounds Int) : Option (Impl (Error ε) (Value φ κ N U V)) :=
  (Size.check ⟨range.min.map Int.toNat, range.max.map Int.toNat, range.inclusive⟩).map fun chk =>
    .make .size .size (fun s => Size.parseStr lib chk (strBytes s)) (fun s => Size.parseStr lib chk (strBytes s))
      (fun s => (Size.parseStr lib chk (strBytes s)).void)

/-- `url/mod.rs`, `semver/mod.rs`, `semver_req/mod.rs` L34-61, `json/mod.rs` L37-39, L92-110. -/
def libImpl (lib : List UInt8 → Except ε V) : Impl (Error ε) (Value φ κ N U V) :=
  .make .lib .object (fun s => Wrapper.parseString lib (strBytes s)) (fun s => Wrapper.parseStr lib (strBytes s))
    (fun s => Wrapper.validateStr lib (strBytes s))

/-- `ip/mod.rs` L134-384, `ipv4/mod.rs`, `ipv6/mod.rs` likewise. -/
def ipImpl {A : Type} (value : A → Option Nat → Value φ κ N U V)
    (parse : TriAllow → TriAllow → List UInt8 → Out Ip.IpError (Ip.Parsed A)) (a : IpAttribute) :
    Impl (Error ε) (Value φ κ N U V) :=
  .make .ip (fun x => value x.1 x.2) (fun s => Ip.parseStr parse a.loc a.port (strBytes s))
    (fun s => Ip.parseStr parse a.loc a.port (strBytes s)) (fun s => Ip.validateStr parse a.loc a.port (strBytes s))

/-- The largest `usize`. -/
def usizeMax (ptr : IntV.Ptr) : Nat := 2 ^ IntV.bits ptr .size - 1

/-- `line/mod.rs` L31-43, L734-761, `text/mod.rs` likewise: without `char_length` and `byte_length` there is no bound. -/
def lineImpl (L : Libs φ κ N U V ε) (k : Line.Kind) (a : Utf8Attribute) : Impl (Error ε) (Value φ κ N U V) :=
  let o : Line.Overflow := if L.checked then .panics else .wraps
  match a.length with
  | some (isByte, l) => .make .line .text (Line.parseAt o (usizeMax L.ptr) k isByte l.min l.trimmedMin l.max)
      (Line.parseAt o (usizeMax L.ptr) k isByte l.min l.trimmedMin l.max) (Line.validateAt o (usizeMax L.ptr) k isByte l.min l.trimmedMin l.max)
  | none => .make .line .text (Line.parseStr k false none none none) (Line.parseStr k false none none none)
      (Line.validateStr k false none none none)

/-- `number/mod.rs` L81-254. -/
def numberImpl (fromStr : List UInt8 → Option (Fl φ)) (a : NumberAttribute φ) : Option (Impl (Error ε) (Value φ κ N U V)) :=
  (Number.check (numbers a.range)).map fun chk =>
    .make .number .number (fun s => Number.parseStr fromStr chk a.nan (strBytes s)) (fun s => Number.parseStr fromStr chk a.nan (strBytes s))
      (fun s => (Number.parseStr fromStr chk a.nan (strBytes s)).void)

/-- `signed_integer/mod.rs` L82-275, `unsigned_integer/mod.rs` L82-262. -/
def intImpl (ptr : IntV.Ptr) (signed : Bool) (w : IntV.Width) (a : RangeAttribute Int) : Option (Impl (Error ε) (Value φ κ N U V)) :=
  (IntV.check ptr signed w a.range).map fun chk =>
    .make .int .int (fun s => IntV.parseStr chk signed (IntV.bits ptr w) (strBytes s))
      (fun s => IntV.parseStr chk signed (IntV.bits ptr w) (strBytes s)) (fun s => IntV.validateStr chk signed (IntV.bits ptr w) (strBytes s))

/-- The `impl ValidateString` that each handler generates from the attribute it has read. `none`: the generated code does not
compile, or (`length`) there is no such `impl`. The handlers of `Plan` arms never meet the validators left out (`_`). -/
def generate (L : Libs φ κ N U V ε) : Plan φ κ → Option (Impl (Error ε) (Value φ κ N U V))
  | .base v a => match v with
    | .base32 => some (textImpl BaseN.base32 a)
    | .base32_decoded => some (bytesImpl BaseN.base32 BaseN.enc32 a)
    | .base64 => some (textImpl BaseN.base64 a)
    | .base64_decoded => some (bytesImpl BaseN.base64 BaseN.enc64 a)
    | .base64_url => some (textImpl BaseN.base64Url a)
    | .base64_url_decoded => some (bytesImpl BaseN.base64Url BaseN.enc64Url a)
    | _ => none
  | .basic v _ => match v with
    -- `boolean/mod.rs` L36-212
    | .boolean => some (.make (fun _ => .boolean) .bool (fun s => Boolean.parseStr (strBytes s)) (fun s => Boolean.parseStr (strBytes s))
        (fun s => Boolean.validateStr (strBytes s)))
    | .json => some (libImpl (L.lib .json))
    | .semver => some (libImpl (L.lib .semver))
    | .semver_req => some (libImpl (L.lib .semver_req))
    | .url => some (libImpl (L.lib .url))
    | _ => none
  | .bit a => sizeImpl L.bit a.range
  | .byte a => sizeImpl (L.byte a.ignoreCase) a.range
  -- `domain/mod.rs` L520-893
  | .domain a =>
    let o : Domain.Opts := ⟨a.ipv4, a.loc, a.port, a.atl⟩
    some (.make .domain .domain (fun s => Domain.parseStr o L.idna (strBytes s)) (fun s => Domain.parseStr o L.idna (strBytes s))
      (fun s => Domain.validateStr o L.idna (strBytes s)))
  -- `email/mod.rs` L607-1524
  | .email a =>
    let o : Email.Opts := ⟨a.comment, a.ip, a.loc, a.atl, a.nonAscii, L.checked⟩
    some (.make .email .email (fun s => Email.parseStr o L.idna (strBytes s)) (fun s => Email.parseStr o L.idna (strBytes s))
      (fun s => Email.validateStr o L.idna (strBytes s)))
  -- `host/mod.rs` L260-646
  | .host a =>
    let o : Host.Opts := ⟨a.loc, a.port, a.atl⟩
    some (.make .host .host (fun s => Host.parseStr o L.idna (strBytes s)) (fun s => Host.parseStr o L.idna (strBytes s))
      (fun s => Host.validateStr o L.idna (strBytes s)))
  -- `http_url/mod.rs` L53-144, `http_ftp_url/mod.rs` L53-145
  | .url v a => match v with
    | .http_url => some (.make .url (fun x => .http x.1 x.2) (fun s => Url.parseHttpStr L.url a.loc (strBytes s))
        (fun s => Url.parseHttpStr L.url a.loc (strBytes s)) (fun s => Url.validateHttpStr L.url a.loc (strBytes s)))
    | .http_ftp_url => some (.make .url (fun x => .httpFtp x.1 x.2) (fun s => Url.parseHttpFtpStr L.url a.loc (strBytes s))
        (fun s => Url.parseHttpFtpStr L.url a.loc (strBytes s)) (fun s => Url.validateHttpFtpStr L.url a.loc (strBytes s)))
    | _ => none
  | .ip v a => match v with
    | .ip => some (ipImpl .ip Ip.parseIp a)
    | .ipv4 => some (ipImpl .ipv4 Ip.parseIpv4 a)
    | .ipv6 => some (ipImpl .ipv6 Ip.parseIpv6 a)
    | _ => none
  | .length _ => none
  | .utf8 v a => match v with
    | .line => some (lineImpl L .line a)
    | .text => some (lineImpl L .text a)
    | _ => none
  -- `mac_address/mod.rs` L50-250, `uuid/mod.rs` L49-270
  | .hex v a => match v with
    | .mac_address => some (.make .hex .hex (fun s => Mac.parseStr a.separator a.case (strBytes s))
        (fun s => Mac.parseStr a.separator a.case (strBytes s)) (fun s => Mac.validateStr a.separator a.case (strBytes s)))
    | .uuid => some (.make .hex .hex (fun s => Uuid.parseStr a.separator a.case (strBytes s))
        (fun s => Uuid.parseStr a.separator a.case (strBytes s)) (fun s => Uuid.validateStr a.separator a.case (strBytes s)))
    | _ => none
  | .number double a => numberImpl (if double then L.f64 else L.f32) a
  -- `phone/mod.rs` L51-145
  | .phone a => some (.make .phone .phone (fun s => Phone.parseStr L.phone a.countries (strBytes s))
      (fun s => Phone.parseStr L.phone a.countries (strBytes s)) (fun s => Phone.validateStr L.phone a.countries (strBytes s)))
  -- `regex/mod.rs` L32-75
  | .regex a => some (.make (fun _ => .regex) .matched (fun s => Regex.parseString (L.isMatch a.regex) (strBytes s))
      (fun s => Regex.parseStr (L.isMatch a.regex) (strBytes s)) (fun s => Regex.validateStr (L.isMatch a.regex) (strBytes s)))
  | .int signed w a => intImpl L.ptr signed w a

end Verif.Generated
