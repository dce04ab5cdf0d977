import Verif.Model.Serde
import Verif.Model.Uuid
import Verif.Model.Mac
import Verif.Model.Number
import Verif.Model.Boolean
import Verif.Model.Line
import Verif.Model.Email
import Verif.Model.Url
import Verif.Model.Phone
import Verif.Model.Wrapper

/-!
# `Serialize` and `Deserialize` of each validator
-/

namespace Verif.Serde

open Verif.BaseN (strBytes)

variable {F G : Type} (widen : G → F)

/-! ## Deserialize -/

/-- `base64`, `base64_url`, `base32`: the parse functions of `Model/BaseN.lean`. The value is the bytes of the `String`. -/
def baseDe (B : BaseN.Variant) (pad : TriAllow) : Body F G (List UInt8) :=
  bytesDe widen (fun s => (BaseN.parseStr B pad s).map strBytes) (fun s => (BaseN.parseString B pad s).map strBytes)
    (BaseN.parseU8Slice B pad) (BaseN.parseVecU8 B pad)

/-- `base64_decoded`, `base64_url_decoded`, `base32_decoded`: `parse_str` and `parse_string` decode the bytes of the text. -/
def decodedDe (E : BaseN.Encoding) (pad : TriAllow) : Body F G (List UInt8) :=
  bytesDe widen (fun s => BaseN.decodedParse E pad (strBytes s)) (fun s => BaseN.decodedParse E pad (strBytes s))
    (BaseN.decodedParse E pad) (BaseN.decodedParse E pad)

/-- `uuid`. -/
def uuidDe (sep : SeparatorOption) (case : CaseOption) : Body F G Nat := strDe widen fun s => Uuid.parseStr sep case (strBytes s)

/-- `mac_address`. -/
def macDe (sep : SeparatorOption) (case : CaseOption) : Body F G Nat := strDe widen fun s => Mac.parseStr sep case (strBytes s)

/-- `ipv4`. -/
def ipv4De (loc port : TriAllow) : Body F G (StdIp.V4 × Option Nat) := strDe widen fun s => Ip.parseStr Ip.parseIpv4 loc port (strBytes s)

/-- `ipv6`. -/
def ipv6De (loc port : TriAllow) : Body F G (StdIp.V6 × Option Nat) := strDe widen fun s => Ip.parseStr Ip.parseIpv6 loc port (strBytes s)

/-- `ip`. -/
def ipDe (loc port : TriAllow) : Body F G (Ip.IpAddr × Option Nat) := strDe widen fun s => Ip.parseStr Ip.parseIp loc port (strBytes s)

/-- `domain`. -/
def domDe (o : Domain.Opts) (idna : Domain.Idna) : Body F G Domain.Value :=
  domainDe widen (fun s => Domain.parseStr o idna (strBytes s)) (fun s => Domain.parseStr o idna (strBytes s))

/-- `host`. -/
def hostDe (o : Host.Opts) (idna : Domain.Idna) : Body F G Host.Value := strDe widen fun s => Host.parseStr o idna (strBytes s)

/-- `email`. -/
def emailDe (o : Email.Opts) (idna : Domain.Idna) : Body F G Email.Value := strDe widen fun s => Email.parseStr o idna (strBytes s)

/-- `phone`. -/
def phoneDe {C N : Type} [DecidableEq C] (lib : Phone.Lib C N) (cs : List C) : Body F G (Phone.Value C N) :=
  strDe widen fun s => Phone.parseStr lib cs (strBytes s)

/-- `http_url`. -/
def httpDe {U : Type} (lib : Url.Lib U) (loc : TriAllow) : Body F G (U × Bool) := strDe widen fun s => Url.parseHttpStr lib loc (strBytes s)

/-- `http_ftp_url`. -/
def httpFtpDe {U : Type} (lib : Url.Lib U) (loc : TriAllow) : Body F G (U × Url.Protocol) :=
  strDe widen fun s => Url.parseHttpFtpStr lib loc (strBytes s)

/-- `line` and `text`. -/
def lineDe (k : Line.Kind) (byteLength : Bool) (min trimmedMin max : Option Nat) : Body F G (List Char) :=
  stringDe widen (Line.parseStr k byteLength min trimmedMin max) (Line.parseStr k byteLength min trimmedMin max)

/-- `regex`. -/
def regexDe (isMatch : List UInt8 → Bool) : Body F G (List UInt8) :=
  stringDe widen (fun s => Regex.parseStr isMatch (strBytes s)) (fun s => Regex.parseString isMatch (strBytes s))

/-- `boolean`. -/
def boolDe : Body F G Bool :=
  booleanDe widen (fun s => Boolean.parseStr (strBytes s)) (fun s => Boolean.parseStr (strBytes s)) Boolean.parseChar
    Boolean.parseInt Boolean.parseInt Boolean.parseInt Boolean.parseInt

/-- `number` over `f64`. -/
def number64De {α β : Type} [Ord α] (widen : Number.Fl β → Number.Fl α) (fromStr : List UInt8 → Option (Number.Fl α))
    (chk : Number.Fl α → Out Range.RangeError Unit) (nan : TriAllow) : Body (Number.Fl α) (Number.Fl β) (Number.Fl α) :=
  numberDe widen (fun s => Number.parseStr fromStr chk nan (strBytes s)) (fun s => Number.parseStr fromStr chk nan (strBytes s))
    (Number.parseF chk nan) (Number.parseF32viaF64 widen chk nan)

/-- `number` over `f32`. -/
def number32De {α β : Type} [Ord β] (widen : Number.Fl β → Number.Fl α) (toF32 : Number.Fl α → Number.Fl β)
    (fromStr : List UInt8 → Option (Number.Fl β)) (chk : Number.Fl β → Out Range.RangeError Unit) (nan : TriAllow) :
    Body (Number.Fl α) (Number.Fl β) (Number.Fl β) :=
  numberDe widen (fun s => Number.parseStr fromStr chk nan (strBytes s)) (fun s => Number.parseStr fromStr chk nan (strBytes s))
    (Number.parseF64viaF32 toF32 chk nan) (Number.parseF chk nan)

/-- `signed_integer`. -/
def intDe (chk : Int → Out Range.RangeError Unit) (ptr : IntV.Ptr) (target : IntV.Width) : Body F G Int :=
  signedDe widen (fun s => IntV.parseStr chk true (IntV.bits ptr target) (strBytes s))
    (fun s => IntV.parseStr chk true (IntV.bits ptr target) (strBytes s))
    (IntV.parseW chk ptr true target .w8) (IntV.parseW chk ptr true target .w16) (IntV.parseW chk ptr true target .w32)
    (IntV.parseW chk ptr true target .w64) (IntV.parseW chk ptr true target .w128)

/-- `unsigned_integer`. -/
def uintDe (chk : Int → Out Range.RangeError Unit) (ptr : IntV.Ptr) (target : IntV.Width) : Body F G Int :=
  unsignedDe widen (fun s => IntV.parseStr chk false (IntV.bits ptr target) (strBytes s))
    (fun s => IntV.parseStr chk false (IntV.bits ptr target) (strBytes s))
    (IntV.parseW chk ptr false target .w8) (IntV.parseW chk ptr false target .w16) (IntV.parseW chk ptr false target .w32)
    (IntV.parseW chk ptr false target .w64) (IntV.parseW chk ptr false target .w128)

/-- `byte`. -/
def sizeDe (lib : List UInt8 → Option Nat) (maxSize : Nat) (chk : Nat → Out Range.RangeError Unit) : Body F G Nat :=
  byteDe widen (fun s => Size.parseStr lib chk (strBytes s)) (fun x => Size.parseU128 maxSize chk x.toNat)

/-- `bit`: `inner` is `byte_unit::Bit`'s own `Deserialize`. -/
def bitDe (inner : Deserializer F G → Option Nat) (chk : Nat → Out Range.RangeError Unit) : Body F G Nat := innerDe inner chk

/-- `length`: `inner` is the collection's own `Deserialize`. -/
def lengthDe {κ : Type} (inner : Deserializer F G → Option κ) (len : κ → Nat) (chk : Nat → Out Range.RangeError Unit) : Body F G κ :=
  innerDe inner fun v => chk (len v)

/-! ## Deserialize of `validators::Result`

The impls of `validators/src/result/serde_traits.rs` for the error type of each validator. -/

/-- The range errors as variants of `SignedIntegerError` / `UnsignedIntegerError`:
`validators/src/errors/{signed,unsigned}_integer.rs`. -/
def asIntError {α : Type} : Out Range.RangeError α → Out IntV.IntError α
  | .ok a => .ok a
  | .err e => .err (.range e)
  | .panic => .panic

/-- `Base32Error`, `Base64Error`, `Base64UrlError`: among L17-342. -/
def baseResult (B : BaseN.Variant) (pad : TriAllow) : Body F G (Except BaseN.BaseError (List UInt8)) :=
  bytesResultDe widen (fun s => (BaseN.parseStr B pad s).map strBytes) (fun s => (BaseN.parseString B pad s).map strBytes)
    (BaseN.parseU8Slice B pad) (BaseN.parseVecU8 B pad)

/-- `Base32DecodedError`, `Base64DecodedError`, `Base64UrlDecodedError`: among L17-342. -/
def decodedResult (E : BaseN.Encoding) (pad : TriAllow) : Body F G (Except BaseN.BaseError (List UInt8)) :=
  bytesResultDe widen (fun s => BaseN.decodedParse E pad (strBytes s)) (fun s => BaseN.decodedParse E pad (strBytes s))
    (BaseN.decodedParse E pad) (BaseN.decodedParse E pad)

/-- `BooleanError`: L364-454. -/
def boolResult : Body F G (Except Unit Bool) :=
  booleanResultDe widen (fun s => Boolean.parseStr (strBytes s)) (fun s => Boolean.parseStr (strBytes s)) Boolean.parseChar
    Boolean.parseBool Boolean.parseInt Boolean.parseInt Boolean.parseInt Boolean.parseInt

/-- `SignedIntegerError`: L958-1035. -/
def intResult (chk : Int → Out Range.RangeError Unit) (ptr : IntV.Ptr) (target : IntV.Width) : Body F G (Except IntV.IntError Int) :=
  let entry w x := asIntError (IntV.parseW chk ptr true target w x)
  signedResultDe widen (fun s => IntV.parseStr chk true (IntV.bits ptr target) (strBytes s))
    (fun s => IntV.parseStr chk true (IntV.bits ptr target) (strBytes s)) (entry .w8) (entry .w16) (entry .w32) (entry .w64) (entry .w128)

/-- `UnsignedIntegerError`: L1072-1150. -/
def uintResult (chk : Int → Out Range.RangeError Unit) (ptr : IntV.Ptr) (target : IntV.Width) : Body F G (Except IntV.IntError Int) :=
  let entry w x := asIntError (IntV.parseW chk ptr false target w x)
  unsignedResultDe widen (fun s => IntV.parseStr chk false (IntV.bits ptr target) (strBytes s))
    (fun s => IntV.parseStr chk false (IntV.bits ptr target) (strBytes s)) (entry .w8) (entry .w16) (entry .w32) (entry .w64)
    (entry .w128)

/-- `NumberError` for a validator over `f64`: L812-863. -/
def number64Result {α β : Type} [Ord α] (widen : Number.Fl β → Number.Fl α) (fromStr : List UInt8 → Option (Number.Fl α))
    (chk : Number.Fl α → Out Range.RangeError Unit) (nan : TriAllow) :
    Body (Number.Fl α) (Number.Fl β) (Except Number.NumberError (Number.Fl α)) :=
  numberResultDe widen (fun s => Number.parseStr fromStr chk nan (strBytes s)) (fun s => Number.parseStr fromStr chk nan (strBytes s))
    (Number.parseF chk nan) (Number.parseF32viaF64 widen chk nan)

/-! ## Serialize -/

/-- The call a `Serialize` impl makes on the serializer. `other`: a sequence, map or structure. -/
inductive Token (F G : Type) where
  | bool (b : Bool)
  | int (ty : IntTy) (x : Int)
  | f32 (f : G)
  | f64 (f : F)
  | str (s : List Char)
  | bytes (b : List UInt8)
  | other

/-- `serializer.serialize_str(s)` for a string with these bytes: `base64/mod.rs` L210 and the same call of every other handler
whose value is written as a text (`to_uri_authority_string`, `to_uuid_string`, `to_mac_address_string`, `to_email_string`). -/
def WritesText (text : List UInt8) (t : Token F G) : Prop := ∃ s, t = .str s ∧ strBytes s = text

/-- `domain/mod.rs` L991: the text, if `to_uri_authority_string` does not panic. -/
def WritesDomain (v : Domain.Value) (t : Token F G) : Prop := ∃ text, Domain.toUri v = .ok text ∧ WritesText text t

/-- `serialize_bytes` of the decoded bytes: `base64_decoded/mod.rs` L239 and the same line of the two others. -/
def writeDecoded (v : List UInt8) : Token F G := .bytes v

/-- `boolean/mod.rs` L312. -/
def writeBool (v : Bool) : Token F G := .bool v

/-- The serde type of an integer: `i64` or less for `isize` on a target of that width (serde serializes `isize` as `i64`,
`usize` as `u64`). -/
def intTy (signed : Bool) : IntV.Width → IntTy
  | .w8 => if signed then .i8 else .u8
  | .w16 => if signed then .i16 else .u16
  | .w32 => if signed then .i32 else .u32
  | .w64 => if signed then .i64 else .u64
  | .w128 => if signed then .i128 else .u128
  | .size => if signed then .i64 else .u64

/-- `signed_integer/mod.rs` L518, `unsigned_integer/mod.rs` L501. -/
def writeInt (signed : Bool) (target : IntV.Width) (v : Int) : Token F G := .int (intTy signed target) v

/-- `number/mod.rs` L320 over `f64`. -/
def writeF64 (f : F) : Token F G := .f64 f

/-- `number/mod.rs` L320 over `f32`. -/
def writeF32 (f : G) : Token F G := .f32 f

/-- `phone/mod.rs` L156 with several countries: the `HashMap` is written as a map. -/
def writeNumbers : Token F G := .other

/-! ## Formats -/

/-- A data format: what its deserializer does with what its serializer wrote. -/
structure Format (F G : Type) where
  human : Bool
  feed : Token F G → Hint → Option (Event F G)

/-- The deserializer of a serialized value. -/
def Format.reader (fmt : Format F G) (t : Token F G) : Deserializer F G := ⟨fmt.human, fmt.feed t⟩

/-- JSON as `serde_json` reads it: integers lose their type, bytes are written as arrays, floats that are not finite as `null`,
integers beyond 64 bits are read as floats; `deserialize_u128` reads non-negative integers and nothing else. `finite` and
`ofInt` belong to the float type; `exactF32` is the `f64` the digits of an `f32` are read as. -/
def json (finite : F → Bool) (ofInt : Int → F) (exactF32 : G → F) : Format F G where
  human := true
  feed t hint :=
    let number x : Event F G := if 0 ≤ x ∧ x < 2 ^ 64 then .int .u64 x else if -2 ^ 63 ≤ x ∧ x < 0 then .int .i64 x else .f64 (ofInt x)
    match t, hint with
    | .bool b, .any => some (.bool b)
    | .int _ x, .any => some (number x)
    | .int _ x, .u128 => if 0 ≤ x then some (.int .u128 x) else none
    | .f64 f, .any => some (if finite f then .f64 f else .other)
    | .f32 f, .any => some (if finite (exactF32 f) then .f64 (exactF32 f) else .other)
    | .str s, .any => some (.str s)
    | .str s, .str => some (.str s)
    | .str s, .string => some (.str s)
    | .bytes _, .any => some .other
    | .other, .any => some .other
    | _, _ => none

end Verif.Serde
