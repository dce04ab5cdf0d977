import Verif.Model.Integrations

/-!
# All validating traits that an item gets, and the conversions into `validators::Result`

`Model/Generated.lean` puts `impl ValidateString` together with the attribute; here are the traits for the other inputs. Paths are
relative to `validators-derive/src/validator_handlers`, those of traits to `validators/src/traits`.
-/

namespace Verif.Traits

open Verif.Attr Verif.Derive Verif.Generated Verif.Integrations
open Verif.IntV (Ptr Width castTo bits maxOf)
open Verif.Number (Fl)
open Verif.BaseN (strBytes)

/-! ## The traits -/

/-- `ValidateBytes`: `validate_bytes.rs` L4-12. -/
structure BytesImpl (E A : Type) where
  parseVecU8 : List UInt8 → Out E A
  parseU8Slice : List UInt8 → Out E A
  validateU8Slice : List UInt8 → Out E Unit

/-- `ValidateChar`, `ValidateBoolean`, `ValidateJsonValue`: `validate_char.rs` L2-7, `validate_boolean.rs` L2-8,
`validate_json_value.rs` L4-10. -/
structure OneImpl (X E A : Type) where
  parse : X → Out E A
  validate : X → Out E Unit

/-- What an `impl ValidateSignedInteger` or `impl ValidateUnsignedInteger` writes of `parse_*` (or of `validate_*`):
`validate_signed_integer.rs`, `validate_unsigned_integer.rs` L1-7; the others have defaults. -/
structure Methods (E B : Type) where
  m128 : Int → Out E B
  m64 : Option (Int → Out E B) := none
  m32 : Option (Int → Out E B) := none
  m16 : Option (Int → Out E B) := none
  m8 : Option (Int → Out E B) := none
  size : Option (Int → Out E B) := none

section
variable {E B : Type} (signed : Bool) (M : Methods E B)

/-- `parse_i64`, default `parse_i128(i as i128)`: both files L27-30; `validate_i64`: L65-68. -/
def Methods.call64 (x : Int) : Out E B :=
  match M.m64 with
  | some f => f x
  | none => M.m128 (castTo signed 128 x)

/-- `parse_i32`, default `parse_i64(i as i64)`: L32-35, L70-73. -/
def Methods.call32 (x : Int) : Out E B :=
  match M.m32 with
  | some f => f x
  | none => M.call64 signed (castTo signed 64 x)

/-- `parse_i16`, default `parse_i32(i as i32)`: L37-40, L75-78. -/
def Methods.call16 (x : Int) : Out E B :=
  match M.m16 with
  | some f => f x
  | none => M.call32 signed (castTo signed 32 x)

/-- `parse_i8`, default `parse_i16(i as i16)`: L42-45, L80-83. -/
def Methods.call8 (x : Int) : Out E B :=
  match M.m8 with
  | some f => f x
  | none => M.call16 signed (castTo signed 16 x)

/-- `parse_isize`, with a default for each pointer width: L9-25, L47-63. -/
def Methods.callSize (ptr : Ptr) (x : Int) : Out E B :=
  match M.size with
  | some f => f x
  | none =>
    match ptr with
    | .p64 => M.call64 signed (castTo signed 64 x)
    | .p32 => M.call32 signed (castTo signed 32 x)
    | .p16 => M.call16 signed (castTo signed 16 x)

/-- The method for an integer type. -/
def Methods.call (ptr : Ptr) : Width → Int → Out E B
  | .w8 => M.call8 signed
  | .w16 => M.call16 signed
  | .w32 => M.call32 signed
  | .w64 => M.call64 signed
  | .w128 => M.m128
  | .size => M.callSize signed ptr

end

/-- An `impl` of one of the two traits of integers. -/
structure IntImpl (E A : Type) where
  parse : Methods E A
  validate : Methods E Unit

/-- `ValidateNumber`: `validate_number.rs` L1-18. `parse_f32` and `validate_f32` have defaults. -/
structure FloatImpl (φ E A : Type) where
  parse64 : Fl φ → Out E A
  validate64 : Fl φ → Out E Unit
  parse32 : Option (Fl φ → Out E A) := none
  validate32 : Option (Fl φ → Out E Unit) := none

/-- `parse_f32`, `validate_f32`, defaults: `validate_number.rs` L9-17. `widen` is `f as f64`. -/
def FloatImpl.call32 {φ E B : Type} (widen : Fl φ → Fl φ) (m64 : Fl φ → Out E B) (m32 : Option (Fl φ → Out E B)) (f : Fl φ) : Out E B :=
  match m32 with
  | some g => g f
  | none => m64 (widen f)

/-- The `impl`s of an item. -/
structure Traits (φ R E A : Type) where
  string : Option (Impl E A) := none
  bytes : Option (BytesImpl E A) := none
  char : Option (OneImpl Char E A) := none
  boolean : Option (OneImpl Bool E A) := none
  signed : Option (IntImpl E A) := none
  unsigned : Option (IntImpl E A) := none
  number : Option (FloatImpl φ E A) := none
  json : Option (OneImpl (Json.Value (Fl φ) R) E A) := none

/-! ## What the handlers write -/

/-- What else the code calls: the largest sizes that `byte_unit::Bit` and `byte_unit::Byte` hold, `serde_json::from_value`, the error of
`serde_json::to_value` for integers that JSON numbers do not hold, which floats are finite, and the conversions `as f64`, `as f32`. -/
structure NumLibs (φ V R ε : Type) where
  maxBit : Nat
  maxByte : Nat
  fromValue : Json.Value (Fl φ) R → Except ε V
  outOfRange : ε
  finite : Fl φ → Bool
  widen : Fl φ → Fl φ
  narrow : Fl φ → Fl φ

section
variable {φ κ N U V R ε : Type} [Ord φ] [DecidableEq κ]

/-- The errors and values with their names. -/
def named {E E' A A' : Type} (f : E → E') (g : A → A') (r : Out E A) : Out E' A' := mapErr f (r.map g)

/-- `impl ValidateBytes`: `base64/mod.rs` L171-198, `base32` L171-198, `base64_url` L172-199. -/
def textBytes (B : BaseN.Variant) (a : BaseAttribute) : BytesImpl (Error ε) (Value φ κ N U V) where
  parseVecU8 v := named .base (fun b => .text (asciiText b)) (BaseN.parseVecU8 B a.padding v)
  parseU8Slice v := named .base (fun b => .text (asciiText b)) (BaseN.parseU8Slice B a.padding v)
  validateU8Slice v := mapErr .base (BaseN.validateU8Slice B a.padding v)

/-- The same of the decoding validators: L201-220. -/
def decodedBytes (B : BaseN.Variant) (C : BaseN.Encoding) (a : BaseAttribute) : BytesImpl (Error ε) (Value φ κ N U V) where
  parseVecU8 v := named .base .bytes (BaseN.decodedParse C a.padding v)
  parseU8Slice v := named .base .bytes (BaseN.decodedParse C a.padding v)
  validateU8Slice v := mapErr .base (BaseN.decodedValidate B a.padding v)

/-- `impl ValidateSignedInteger`, `impl ValidateUnsignedInteger` of `boolean`: `boolean/mod.rs` L254-284. -/
def booleanInt : IntImpl (Error ε) (Value φ κ N U V) where
  parse := { m128 x := named (fun _ => .boolean) .bool (Boolean.parseInt x) }
  validate := { m128 x := mapErr (fun _ => .boolean) (Boolean.parseInt x).void }

/-- `impl ValidateChar`, `impl ValidateBoolean` of `boolean`: `boolean/mod.rs` L238-252, L286-300. -/
def booleanOne {X : Type} (parse : X → Out Unit Bool) : OneImpl X (Error ε) (Value φ κ N U V) where
  parse x := named (fun _ => .boolean) .bool (parse x)
  validate x := mapErr (fun _ => .boolean) (parse x).void

/-- `JsonError::SerdeJsonError` in both cases: `json/mod.rs` L41-88 (`?`), `validators/src/errors/json.rs` L11-16. -/
def jsonError (Z : NumLibs φ V R ε) : Json.JsonError ε → Error ε
  | .toValue => .lib Z.outOfRange
  | .fromValue e => .lib e

/-- `impl ValidateSignedInteger`, `impl ValidateUnsignedInteger` of `json`: `json/mod.rs` L112-166. -/
def jsonInt (Z : NumLibs φ V R ε) : IntImpl (Error ε) (Value φ κ N U V) where
  parse :=
    { m128 x := named (jsonError Z) .object (Json.parse128 Z.fromValue x)
      m64 := some fun x => named (jsonError Z) .object (Json.parse64 Z.fromValue x) }
  validate :=
    { m128 x := mapErr (jsonError Z) (Json.parse128 Z.fromValue x).void
      m64 := some fun x => mapErr (jsonError Z) (Json.parse64 Z.fromValue x).void }

/-- `impl ValidateNumber` of `json`: `json/mod.rs` L168-182. -/
def jsonFloat (Z : NumLibs φ V R ε) : FloatImpl φ (Error ε) (Value φ κ N U V) where
  parse64 f := named (jsonError Z) .object (Json.parseF64 Z.finite Z.fromValue f)
  validate64 f := mapErr (jsonError Z) (Json.parseF64 Z.finite Z.fromValue f).void

/-- `impl ValidateBoolean` of `json`: `json/mod.rs` L184-198. -/
def jsonBool (Z : NumLibs φ V R ε) : OneImpl Bool (Error ε) (Value φ κ N U V) where
  parse b := named (jsonError Z) .object (Json.parseBool Z.fromValue b)
  validate b := mapErr (jsonError Z) (Json.parseBool Z.fromValue b).void

/-- `impl ValidateJsonValue`: `json/mod.rs` L200-214. -/
def jsonValue (Z : NumLibs φ V R ε) : OneImpl (Json.Value (Fl φ) R) (Error ε) (Value φ κ N U V) where
  parse v := named (jsonError Z) .object (Json.parseValue Z.fromValue v)
  validate v := mapErr (jsonError Z) (Json.parseValue Z.fromValue v).void

/-- `impl ValidateUnsignedInteger`: `bit/mod.rs` L135-173, `byte/mod.rs` L139-177. The numbers are `u128` and `u64`. -/
def sizeInt (maxSize : Nat) (chk : Nat → Out Range.RangeError Unit) : IntImpl (Error ε) (Value φ κ N U V) where
  parse :=
    { m128 x := named .size .size (Size.parseU128 maxSize chk x.toNat)
      m64 := some fun x => named .size .size (Size.parseU64 chk x.toNat) }
  validate :=
    { m128 x := mapErr .size (Size.parseU128 maxSize chk x.toNat).void
      m64 := some fun x => mapErr .size (Size.parseU64 chk x.toNat).void }

/-- The methods of the integer validators: `signed_integer/mod.rs` L235-507, `unsigned_integer/mod.rs` L235-490. `own` is the
method of the target type itself. For `isize` and `usize`, the method of the same width casts and calls it. -/
def intMethods {B : Type} (own : Int → Out Range.RangeError B) (ptr : Ptr) (signed : Bool) (target : Width) : Methods Range.RangeError B where
  m128 x :=
    if target = .w128 then own x
    else if x > maxOf signed (bits ptr target) then .err .tooLarge
    else if signed = true ∧ x < IntV.minOf signed (bits ptr target) then .err .tooSmall
    else own (castTo signed (bits ptr target) x)
  m64 := if target = .w64 then some own
    else if target = .size ∧ ptr = .p64 then some fun x => own (castTo signed (bits ptr .size) x) else none
  m32 := if target = .w32 then some own
    else if target = .size ∧ ptr = .p32 then some fun x => own (castTo signed (bits ptr .size) x) else none
  m16 := if target = .w16 then some own
    else if target = .size ∧ ptr = .p16 then some fun x => own (castTo signed (bits ptr .size) x) else none
  m8 := if target = .w8 then some own else none
  size := if target = .size then some own else none

/-- Methods with the errors and values named. -/
def Methods.named {E E' B B' : Type} (f : E → E') (g : B → B') (M : Methods E B) : Methods E' B' where
  m128 x := Traits.named f g (M.m128 x)
  m64 := M.m64.map fun m x => Traits.named f g (m x)
  m32 := M.m32.map fun m x => Traits.named f g (m x)
  m16 := M.m16.map fun m x => Traits.named f g (m x)
  m8 := M.m8.map fun m x => Traits.named f g (m x)
  size := M.size.map fun m x => Traits.named f g (m x)

/-- `impl ValidateSignedInteger`, `impl ValidateUnsignedInteger` of the integer validators (same lines). -/
def intInt (chk : Int → Out Range.RangeError Unit) (ptr : Ptr) (signed : Bool) (target : Width) : IntImpl (Error ε) (Value φ κ N U V) where
  parse := (intMethods (IntV.ownParse chk) ptr signed target).named (fun e => .int (.range e)) .int
  validate := (intMethods (IntV.ownValidate chk) ptr signed target).named (fun e => .int (.range e)) id

/-- `impl ValidateNumber` of `number`: `number/mod.rs` L256-310. -/
def numberFloat (Z : NumLibs φ V R ε) (double : Bool) (chk : Fl φ → Out Range.RangeError Unit) (nan : TriAllow) :
    FloatImpl φ (Error ε) (Value φ κ N U V) :=
  let own f := Traits.named .number .number (Number.parseF chk nan f)
  let ownValidate f := mapErr .number (Number.parseF chk nan f).void
  if double then { parse64 := own, validate64 := ownValidate }
  else
    { parse64 f := own (Z.narrow f), validate64 f := ownValidate (Z.narrow f)
      parse32 := some own, validate32 := some ownValidate }

/-- The traits of each validator; for `ValidateString` see `Generated.generate`. `none`: the generated code does not compile.
`length` has `ValidateLength` only, which takes collections. -/
def traits (L : Libs φ κ N U V ε) (Z : NumLibs φ V R ε) (p : Plan φ κ) : Option (Traits φ R (Error ε) (Value φ κ N U V)) :=
  match p with
  | .base v a => (generate L p).map fun I => match v with
    | .base32 => { string := some I, bytes := some (textBytes BaseN.base32 a) }
    | .base32_decoded => { string := some I, bytes := some (decodedBytes BaseN.base32 BaseN.enc32 a) }
    | .base64 => { string := some I, bytes := some (textBytes BaseN.base64 a) }
    | .base64_decoded => { string := some I, bytes := some (decodedBytes BaseN.base64 BaseN.enc64 a) }
    | .base64_url => { string := some I, bytes := some (textBytes BaseN.base64Url a) }
    | _ => { string := some I, bytes := some (decodedBytes BaseN.base64Url BaseN.enc64Url a) }
  | .basic v _ => (generate L p).map fun I => match v with
    | .boolean =>
      { string := some I, char := some (booleanOne Boolean.parseChar), boolean := some (booleanOne Boolean.parseBool),
        signed := some booleanInt, unsigned := some booleanInt }
    | .json =>
      { string := some I, boolean := some (jsonBool Z), signed := some (jsonInt Z), unsigned := some (jsonInt Z),
        number := some (jsonFloat Z), json := some (jsonValue Z) }
    | _ => { string := some I }
  | .bit a => (generate L p).bind fun I => (Size.check (sizes a.range)).map fun chk =>
      { string := some I, unsigned := some (sizeInt Z.maxBit chk) }
  | .byte a => (generate L p).bind fun I => (Size.check (sizes a.range)).map fun chk =>
      { string := some I, unsigned := some (sizeInt Z.maxByte chk) }
  | .length _ => some {}
  | .number double a => (generate L p).bind fun I => (Number.check (numbers a.range)).map fun chk =>
      { string := some I, number := some (numberFloat Z double chk a.nan) }
  | .int signed w a => (generate L p).bind fun I => (IntV.check L.ptr signed w a.range).map fun chk =>
      if signed then { string := some I, signed := some (intInt chk L.ptr true w) }
      else { string := some I, unsigned := some (intInt chk L.ptr false w) }
  | _ => (generate L p).map fun I => { string := some I }

/-! ## Giving an input -/

/-- An input of a Rust type. `int signed w`: `i8` ... `i128`, `isize`, `u8` ... `u128`, `usize`. -/
inductive Arg (φ R : Type) where
  | str (s : List Char)
  | string (s : List Char)
  | slice (b : List UInt8)
  | vec (b : List UInt8)
  | char (c : Char)
  | bool (b : Bool)
  | int (signed : Bool) (w : Width) (i : Int)
  | f32 (f : Fl φ)
  | f64 (f : Fl φ)
  | value (v : Json.Value (Fl φ) R)

variable {E A : Type}

/-- The function that takes this input: `parse_str`, `parse_string`, `parse_u8_slice`, `parse_vec_u8`, `parse_char`, `parse_bool`,
`parse_i8` ... `parse_usize`, `parse_f32`, `parse_f64`, `parse_json_value`. -/
def parse (Z : NumLibs φ V R ε) (ptr : Ptr) (T : Traits φ R E A) : Arg φ R → Option (Out E A)
  | .str s => T.string.map (·.parseStr s)
  | .string s => T.string.map (·.parseString s)
  | .slice b => T.bytes.map (·.parseU8Slice b)
  | .vec b => T.bytes.map (·.parseVecU8 b)
  | .char c => T.char.map (·.parse c)
  | .bool b => T.boolean.map (·.parse b)
  | .int true w i => T.signed.map (·.parse.call true ptr w i)
  | .int false w i => T.unsigned.map (·.parse.call false ptr w i)
  | .f32 f => T.number.map fun I => FloatImpl.call32 Z.widen I.parse64 I.parse32 f
  | .f64 f => T.number.map (·.parse64 f)
  | .value v => T.json.map (·.parse v)

/-- `validate_str`, `validate_u8_slice`, `validate_char`, ... There are none for `String` and `Vec<u8>`. -/
def validate (Z : NumLibs φ V R ε) (ptr : Ptr) (T : Traits φ R E A) : Arg φ R → Option (Out E Unit)
  | .str s => T.string.map (·.validateStr s)
  | .string _ => none
  | .slice b => T.bytes.map (·.validateU8Slice b)
  | .vec _ => none
  | .char c => T.char.map (·.validate c)
  | .bool b => T.boolean.map (·.validate b)
  | .int true w i => T.signed.map (·.validate.call true ptr w i)
  | .int false w i => T.unsigned.map (·.validate.call false ptr w i)
  | .f32 f => T.number.map fun I => FloatImpl.call32 Z.widen I.validate64 I.validate32 f
  | .f64 f => T.number.map (·.validate64 f)
  | .value v => T.json.map (·.validate v)

/-- `Self::new(r)`: `validators/src/result/mod.rs` L17-21. -/
def wrapped (r : Out E A) : Out E (Except E A) :=
  match r with
  | .ok a => .ok (.ok a)
  | .err e => .ok (.error e)
  | .panic => .panic

/-- `From<X> for validators::Result`: `validators/src/result/built_in_traits.rs` L59-205, one `impl` for each type. -/
def resultFrom (Z : NumLibs φ V R ε) (ptr : Ptr) (T : Traits φ R E A) : Arg φ R → Option (Out E (Except E A))
  | .string s => T.string.map fun I => wrapped (I.parseString s)
  | .str s => T.string.map fun I => wrapped (I.parseStr s)
  | .bool b => T.boolean.map fun I => wrapped (I.parse b)
  | .vec b => T.bytes.map fun I => wrapped (I.parseVecU8 b)
  | .slice b => T.bytes.map fun I => wrapped (I.parseU8Slice b)
  | .char c => T.char.map fun I => wrapped (I.parse c)
  | .value v => T.json.map fun I => wrapped (I.parse v)
  | .f32 f => T.number.map fun I => wrapped (FloatImpl.call32 Z.widen I.parse64 I.parse32 f)
  | .f64 f => T.number.map fun I => wrapped (I.parse64 f)
  | .int true .w8 i => T.signed.map fun I => wrapped (I.parse.call8 true i)
  | .int true .w16 i => T.signed.map fun I => wrapped (I.parse.call16 true i)
  | .int true .w32 i => T.signed.map fun I => wrapped (I.parse.call32 true i)
  | .int true .w64 i => T.signed.map fun I => wrapped (I.parse.call64 true i)
  | .int true .w128 i => T.signed.map fun I => wrapped (I.parse.m128 i)
  | .int true .size i => T.signed.map fun I => wrapped (I.parse.callSize true ptr i)
  | .int false .w8 i => T.unsigned.map fun I => wrapped (I.parse.call8 false i)
  | .int false .w16 i => T.unsigned.map fun I => wrapped (I.parse.call16 false i)
  | .int false .w32 i => T.unsigned.map fun I => wrapped (I.parse.call32 false i)
  | .int false .w64 i => T.unsigned.map fun I => wrapped (I.parse.call64 false i)
  | .int false .w128 i => T.unsigned.map fun I => wrapped (I.parse.m128 i)
  | .int false .size i => T.unsigned.map fun I => wrapped (I.parse.callSize false ptr i)

/-- `FromStr for validators::Result`: `built_in_traits.rs` L50-57. Its own error is that of the validator, and is never made. -/
def resultFromStr (T : Traits φ R E A) (s : List Char) : Option (Out E (Except E A)) :=
  T.string.map fun I => wrapped (I.parseStr s)

end

end Verif.Traits
