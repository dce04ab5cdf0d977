import Verif.Model.Generated
import Verif.Model.SerdeImpl

/-!
# From the attribute to the generated `Deserialize`, `FromFormField` and `FromParam`

The impls of `Model/Serde.lean`, put together with what the derive macro has read of the attribute, as `Model/Generated.lean` does
for `ValidateString`. Paths are relative to `validators-derive/src/validator_handlers`. `Serialize` is the subject of C44.
-/

namespace Verif.Integrations

open Verif.Attr Verif.Derive Verif.Generated
open Verif.Serde (Body Deserializer run custom)
open Verif.Number (Fl)
open Verif.BaseN (strBytes)

/-- What else the generated code calls: the conversions between the float types (both kinds of floats are represented in one type
of numbers, as in `Libs`), `Deserialize` of `byte_unit::Bit`, of `serde_json::Value` followed by `from_value`, and of the
collection of a `length`, whose `CollectionLength::len` is `len`; the largest size that `byte_unit::Byte` holds. -/
structure SerdeLibs (φ V ε : Type) where
  widen : Fl φ → Fl φ
  narrow : Fl φ → Fl φ
  bit : Deserializer (Fl φ) (Fl φ) → Option Nat
  json : Deserializer (Fl φ) (Fl φ) → Option (Except ε V)
  collection : Deserializer (Fl φ) (Fl φ) → Option V
  len : V → Nat
  maxSize : Nat

/-- A generated `deserialize`. -/
abbrev De (φ κ N U V : Type) := Body (Fl φ) (Fl φ) (Value φ κ N U V)

/-- A `deserialize` that does not call itself, with its value named. -/
def lift {F G α β : Type} (g : α → β) (b : Body F G α) : Body F G β := fun _ d => (run b 1 d).map (Out.map g)

/-- `String::from_utf8_unchecked` of bytes that are ASCII: `base64/mod.rs` L153, L190, and the siblings. -/
def asciiText (b : List UInt8) : List Char := b.map fun x => Char.ofNat x.toNat

variable {φ κ N U V ε : Type} [Ord φ] [DecidableEq κ]

/-- The bounds of `bit` and `byte`, which are `u128`. -/
def sizes (b : Range.Bounds Int) : Range.Bounds Nat := ⟨b.min.map Int.toNat, b.max.map Int.toNat, b.inclusive⟩

/-- The `Deserialize` that each handler generates, if it does: the `impl ... Deserialize` at the lines given in `Model/Serde.lean`.
`visit_str` calls `parse_str` of the generated `ValidateString`. `none`: it does not compile. -/
def deserialize (L : Libs φ κ N U V ε) (S : SerdeLibs φ V ε) (p : Plan φ κ) : Option (De φ κ N U V) :=
  match p with
  | .base v a => match v with
    | .base32 => some (lift (fun b => .text (asciiText b)) (Serde.baseDe S.widen BaseN.base32 a.padding))
    | .base32_decoded => some (lift .bytes (Serde.decodedDe S.widen BaseN.enc32 a.padding))
    | .base64 => some (lift (fun b => .text (asciiText b)) (Serde.baseDe S.widen BaseN.base64 a.padding))
    | .base64_decoded => some (lift .bytes (Serde.decodedDe S.widen BaseN.enc64 a.padding))
    | .base64_url => some (lift (fun b => .text (asciiText b)) (Serde.baseDe S.widen BaseN.base64Url a.padding))
    | .base64_url_decoded => some (lift .bytes (Serde.decodedDe S.widen BaseN.enc64Url a.padding))
    | _ => none
  | .basic v _ => match v with
    | .boolean => some (lift .bool (Serde.boolDe S.widen))
    | .json => some (lift .object (Serde.jsonDe S.json id))
    | .semver | .semver_req | .url => some Serde.selfDe
    | _ => none
  | .bit a => (Size.check (sizes a.range)).map fun chk => lift .size (Serde.bitDe S.bit chk)
  | .byte a => (Size.check (sizes a.range)).map fun chk => lift .size (Serde.sizeDe S.widen (L.byte a.ignoreCase) S.maxSize chk)
  | .length a => (Range.compileLength (Range.lengthCode a.min a.max)).map fun chk =>
      lift .object (Serde.lengthDe S.collection S.len chk)
  | .domain _ => (generate L p).map fun I => Serde.domainDe S.widen I.parseStr I.parseString
  | .utf8 _ _ => (generate L p).map fun I => Serde.stringDe S.widen I.parseStr I.parseString
  | .regex _ => (generate L p).map fun I => Serde.stringDe S.widen I.parseStr I.parseString
  | .number double a => (Number.check (numbers a.range)).map fun chk =>
      if double then lift .number (Serde.number64De S.widen L.f64 chk a.nan)
      else lift .number (Serde.number32De S.widen S.narrow L.f32 chk a.nan)
  | .int signed w a => (IntV.check L.ptr signed w a.range).map fun chk =>
      if signed then lift .int (Serde.intDe S.widen chk L.ptr w) else lift .int (Serde.uintDe S.widen chk L.ptr w)
  | _ => (generate L p).map fun I => Serde.strDe S.widen I.parseStr

/-- The flags `serde(..)` of an attribute. -/
def serdeFlags : Plan φ κ → Flags
  | .base _ a => a.serde
  | .basic _ a => a.serde
  | .bit a => a.serde
  | .byte a => a.serde
  | .domain a => a.serde
  | .email a => a.serde
  | .host a => a.serde
  | .url _ a => a.serde
  | .ip _ a => a.serde
  | .length a => a.serde
  | .utf8 _ a => a.serde
  | .hex _ a => a.serde
  | .number _ a => a.serde
  | .phone a => a.serde
  | .regex a => a.serde
  | .int _ _ a => a.serde

/-- The flags `rocket(..)`. `length` has none. -/
def rocketFlags : Plan φ κ → Flags
  | .base _ a => a.rocket
  | .basic _ a => a.rocket
  | .bit a => a.rocket
  | .byte a => a.rocket
  | .domain a => a.rocket
  | .email a => a.rocket
  | .host a => a.rocket
  | .url _ a => a.rocket
  | .ip _ a => a.rocket
  | .length _ => ⟨false, false⟩
  | .utf8 _ a => a.rocket
  | .hex _ a => a.rocket
  | .number _ a => a.rocket
  | .phone a => a.rocket
  | .regex a => a.rocket
  | .int _ _ a => a.rocket

/-- The impls that an item gets. -/
structure Derived (E A : Type) (F G : Type) where
  deserialize : Option (Body F G A)
  fromFormField : Option (List Char → Out Unit A)
  fromParam : Option (List Char → Out E A)

/-- Which of them are generated: `base64/mod.rs` L201-286 and the same lines at the end of every handler (`#[cfg(feature = "serde")]`,
`if type_attribute.serde_options.deserialize`, `#[cfg(feature = "rocket")]`, `if type_attribute.rocket_options.from_form_field`,
`if type_attribute.rocket_options.from_param`); the Rocket impls: `common/rocket.rs` L5-32. `M.serde` and `M.rocket` are the
features. -/
def integrate {τ : Type} (M : Macro τ φ κ) (L : Libs φ κ N U V ε) (S : SerdeLibs φ V ε) (p : Plan φ κ) :
    Derived (Error ε) (Value φ κ N U V) (Fl φ) (Fl φ) where
  deserialize := if M.serde && (serdeFlags p).second then deserialize L S p else none
  fromFormField := if M.rocket && (rocketFlags p).first then (generate L p).map fun I v => custom (I.parseStr v) else none
  fromParam := if M.rocket && (rocketFlags p).second then (generate L p).map fun I v => I.parseStr v else none

end Verif.Integrations
