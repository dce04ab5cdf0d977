import Verif.Model.Integrations
import Verif.Spec.Generated
import Verif.Spec.Serde

/-!
# Specification of the integrations: from the attribute to the data that is accepted

Of the model, only the types of options, values and libraries are used.
-/

namespace Verif.Spec.Integrations

open Verif.Generated Verif.Attr Verif.Derive Verif.Integrations
open Verif.Serde (Deserializer Hint)
open Verif.Number (Fl)
open Verif.BaseN (strBytes)
open Verif.Spec.Generated Verif.Spec.Serde

variable {φ κ N U V ε : Type}

/-- What a validator with the options `p` makes of the data that a deserializer hands over. Texts mean what they mean to
`parse_str`. Bytes are for the base-N validators, booleans for `boolean`, integers for `boolean`, `byte` and the integers, floats
for `number`. -/
def Takes [LinearOrder φ] (L : Libs φ κ N U V ε) (S : SerdeLibs φ V ε) (p : Plan φ κ) :
    Verif.Spec.Serde.Data (Fl φ) (Fl φ) → Value φ κ N U V → Prop
  | .text s, x => Means L p s x
  | .bytes b, x => match p, x with
    | .base v a, .text t => v ∈ [.base32, .base64, .base64_url] ∧ strBytes t = b ∧ Spec.BaseN.Accepts (notationOf v) a.padding b
    | .base v a, .bytes d => v ∈ [.base32_decoded, .base64_decoded, .base64_url_decoded] ∧ Spec.BaseN.Decodes (notationOf v) a.padding b d
    | _, _ => False
  | .bool b, x => match p, x with
    | .basic v _, .bool c => v = .boolean ∧ c = b
    | _, _ => False
  | .int ty i, x => match p, x with
    | .basic v _, .bool c => v = .boolean ∧ i = (if c then 1 else 0)
    | .byte a, .size n => ty = .u128 ∧ i = n ∧ n ≤ S.maxSize ∧ Spec.Range.Contains a.range i
    | .int signed w a, .int j => IsSigned ty = signed ∧ j = i ∧ Spec.IntV.Fits signed (IntV.bits L.ptr w) i ∧ Spec.Range.Satisfies a.range i
    | _, _ => False
  | .f64 f, x => match p, x with
    | .number double a, .number g => g = (if double then f else S.narrow f) ∧ FloatOk a.range a.nan g
    | _, _ => False
  | .f32 f, x => match p, x with
    | .number double a, .number g => g = (if double then S.widen f else f) ∧ FloatOk a.range a.nan g
    | _, _ => False
  | .nothing, _ => False

/-- What a validator asks the deserializer for. `none`: it leaves that to another type (`bit`, `length`, `json`), or never asks
(`url`, `semver`, `semver_req`: C51). -/
def asks (human : Bool) : Plan φ κ → Option Hint
  | .base _ _ => some .any
  | .basic v _ => if v = .boolean then some .any else none
  | .bit _ => none
  | .byte _ => some (if human then .str else .u128)
  | .domain _ => some .any
  | .email _ => some .str
  | .host _ => some .str
  | .url _ _ => some .str
  | .ip _ _ => some .str
  | .length _ => none
  | .utf8 _ _ => some .string
  | .hex _ _ => some .str
  | .number _ _ => some .any
  | .phone _ => some .str
  | .regex _ => some .string
  | .int _ _ _ => some .any

/-- A value of the type read by another type, if it is allowed. -/
def Reads (S : SerdeLibs φ V ε) (p : Plan φ κ) (d : Deserializer (Fl φ) (Fl φ)) (x : Value φ κ N U V) : Prop :=
  match p, x with
  | .bit a, .size n => S.bit d = some n ∧ Spec.Range.Contains a.range (n : Int)
  | .length a, .object v => S.collection d = some v ∧ (∀ m, a.min = some m → m ≤ S.len v) ∧ ∀ m, a.max = some m → S.len v ≤ m
  | .basic w _, .object v => w = .json ∧ S.json d = some (.ok v)
  | _, _ => False

/-- The findings of C51: deserialization calls itself. -/
def Endless : Plan φ κ → Prop
  | .basic v _ => v = .semver ∨ v = .semver_req ∨ v = .url
  | _ => False

/-- The generated code compiles: as `HasImpl`; a `length` if it does not ask for one length only (C18). -/
def Compiles : Plan φ κ → Prop
  | .length a => ¬ ∃ n, a.min = some n ∧ a.max = some n
  | p => HasImpl p

end Verif.Spec.Integrations
