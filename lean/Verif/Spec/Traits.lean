import Verif.Model.Traits
import Verif.Spec.Generated

/-!
# Specification of the validating traits: one input, whatever type it arrives in

Of the model, only the types of options, values, inputs and libraries are used.
-/

namespace Verif.Spec.Traits

open Verif.Attr Verif.Derive Verif.Generated Verif.Traits
open Verif.Number (Fl)
open Verif.BaseN (strBytes)
open Verif.Spec.Generated

variable {φ κ N U V R ε : Type}

/-- What an input is, apart from its Rust type. -/
inductive Content (φ R : Type) where
  | text (s : List Char)
  | bytes (b : List UInt8)
  | bool (b : Bool)
  | int (i : Int)
  | float (f : Fl φ)
  | json (v : Json.Value (Fl φ) R)

/-- A character is the text of one character, an `f32` the same number as an `f64`. -/
def content (Z : NumLibs φ V R ε) : Arg φ R → Content φ R
  | .str s => .text s
  | .string s => .text s
  | .slice b => .bytes b
  | .vec b => .bytes b
  | .char c => .text [c]
  | .bool b => .bool b
  | .int _ _ i => .int i
  | .f32 f => .float (Z.widen f)
  | .f64 f => .float f
  | .value v => .json v

/-- The same content; a text is its bytes in UTF-8. -/
inductive Alike : Content φ R → Content φ R → Prop where
  | refl (c) : Alike c c
  | bytes (s) : Alike (.text s) (.bytes (strBytes s))

/-- An integer is a value of its type. -/
def WellTyped (ptr : IntV.Ptr) : Arg φ R → Prop
  | .int signed w i => Spec.IntV.Fits signed (IntV.bits ptr w) i
  | _ => True

/-- The inputs that each validator has functions for. -/
def Offers (p : Plan φ κ) : Arg φ R → Prop
  | .str _ | .string _ => ∀ a, p ≠ .length a
  | .slice _ | .vec _ => ∃ v a, p = .base v a
  | .char _ => ∃ a, p = .basic .boolean a
  | .bool _ => ∃ v a, p = .basic v a ∧ (v = .boolean ∨ v = .json)
  | .int signed _ _ => (∃ v a, p = .basic v a ∧ (v = .boolean ∨ v = .json)) ∨ (∃ w a, p = .int signed w a) ∨
      signed = false ∧ ((∃ a, p = .bit a) ∨ ∃ a, p = .byte a)
  | .f32 _ | .f64 _ => (∃ a, p = .basic .json a) ∨ ∃ d a, p = .number d a
  | .value _ => ∃ a, p = .basic .json a

/-- A validator with the options `p` accepts this as `x`. -/
def Accepts [LinearOrder φ] (L : Libs φ κ N U V ε) (Z : NumLibs φ V R ε) (p : Plan φ κ) : Content φ R → Value φ κ N U V → Prop
  | .text s, x => Means L p s x
  | .bytes b, x => match p, x with
    | .base v a, .text t => v ∈ [.base32, .base64, .base64_url] ∧ strBytes t = b ∧ Spec.BaseN.Accepts (notationOf v) a.padding b
    | .base v a, .bytes d => v ∈ [.base32_decoded, .base64_decoded, .base64_url_decoded] ∧ Spec.BaseN.Decodes (notationOf v) a.padding b d
    | _, _ => False
  | .bool b, x => match p, x with
    | .basic v _, .bool c => v = .boolean ∧ c = b
    | .basic v _, .object y => v = .json ∧ Z.fromValue (.bool b) = .ok y
    | _, _ => False
  | .int i, x => match p, x with
    | .basic v _, .bool c => v = .boolean ∧ i = (if c then 1 else 0)
    | .basic v _, .object y => v = .json ∧ -2 ^ 63 ≤ i ∧ i < 2 ^ 64 ∧
        Z.fromValue (.number (if i < 0 then .neg i else .pos i.toNat)) = .ok y
    | .bit a, .size n => i = n ∧ n ≤ Z.maxBit ∧ Spec.Range.Contains a.range i
    | .byte a, .size n => i = n ∧ n ≤ Z.maxByte ∧ Spec.Range.Contains a.range i
    | .int signed w a, .int j => j = i ∧ Spec.IntV.Fits signed (IntV.bits L.ptr w) i ∧ Spec.Range.Satisfies a.range i
    | _, _ => False
  | .float f, x => match p, x with
    -- the value is the given number, which a validator of `f32` has as an `f32`
    | .number double a, .number g => (if double then g = f else Z.widen g = f) ∧ FloatOk a.range a.nan g
    | .basic v _, .object y => v = .json ∧ Z.fromValue (if Z.finite f then .number (.float f) else .null) = .ok y
    | _, _ => False
  | .json v, x => match p, x with
    | .basic w _, .object y => w = .json ∧ Z.fromValue v = .ok y
    | _, _ => False

/-- What is wrong with a number, for a range. -/
def RangeFault {α : Type} [LinearOrder α] (r : Range.RangeOption α) (x : α) : Range.RangeError → Prop
  | .tooSmall => ∃ b, r = .inside b ∧ Spec.Range.BelowMin b x
  | .tooLarge => ∃ b, r = .inside b ∧ Spec.Range.AboveMax b x ∧ ¬ Spec.Range.BelowMin b x
  | .forbidden => ∃ b, r = .outside b ∧ Spec.Range.Bounded b ∧ Spec.Range.Contains b x

/-- The same with the setting for NaN. -/
def FloatFault [LinearOrder φ] (r : Range.RangeOption φ) (nan : TriAllow) : Fl φ → Number.NumberError → Prop
  | none, .nanDisallow => nan = .disallow
  | some x, .range e => RangeFault r x e
  | some x, .nanMust => nan = .must ∧ Spec.Range.Satisfies r x
  | _, _ => False

/-- A validator with the options `p` refuses this, which is neither a text nor bytes, with the error `e`. A number that the type of the
field does not hold is too small if it is negative, and too large otherwise. -/
def Rejects [LinearOrder φ] (ptr : IntV.Ptr) (Z : NumLibs φ V R ε) (p : Plan φ κ) : Content φ R → Error ε → Prop
  | .text _, _ => False
  | .bytes _, _ => False
  | .bool b, e => match p, e with
    | .basic v _, .lib d => v = .json ∧ Z.fromValue (.bool b) = .error d
    | _, _ => False
  | .int i, e => match p, e with
    | .basic v _, .boolean => v = .boolean ∧ i ≠ 0 ∧ i ≠ 1
    | .basic v _, .lib d => v = .json ∧ if -2 ^ 63 ≤ i ∧ i < 2 ^ 64 then
        Z.fromValue (.number (if i < 0 then .neg i else .pos i.toNat)) = .error d else d = Z.outOfRange
    | .bit a, .size (.range e) => if i ≤ Z.maxBit then RangeFault (.inside a.range) i e else e = .tooLarge
    | .byte a, .size (.range e) => if i ≤ Z.maxByte then RangeFault (.inside a.range) i e else e = .tooLarge
    | .int signed w a, .int (.range e) => (Spec.IntV.Fits signed (IntV.bits ptr w) i ∧ RangeFault a.range i e) ∨
        (¬ Spec.IntV.Fits signed (IntV.bits ptr w) i ∧ e = if i < 0 then .tooSmall else .tooLarge)
    | _, _ => False
  | .float f, e => match p, e with
    | .number double a, .number e => ∃ g, (if double then g = f else Z.widen g = f) ∧ FloatFault a.range a.nan g e
    | .basic v _, .lib d => v = .json ∧ Z.fromValue (if Z.finite f then .number (.float f) else .null) = .error d
    | _, _ => False
  | .json v, e => match p, e with
    | .basic w _, .lib d => w = .json ∧ Z.fromValue v = .error d
    | _, _ => False

/-! ## Side conditions -/

/-- The laws of the libraries: every `u64` is a size, and an `f32` made an `f64` can be made the same `f32` again. -/
structure Lawful (Z : NumLibs φ V R ε) : Prop where
  bit : 2 ^ 64 ≤ Z.maxBit + 1
  byte : 2 ^ 64 ≤ Z.maxByte + 1
  narrow : ∀ f, Z.narrow (Z.widen f) = f

/-- The finding: an `f64` that is not an `f32`, given to a validator of `f32`. -/
def Rounded (Z : NumLibs φ V R ε) (p : Plan φ κ) (x : Arg φ R) : Prop :=
  ∃ a f, p = .number false a ∧ x = .f64 f ∧ ∀ g, Z.widen g ≠ f

/-- Texts and bytes for a decoding validator: C07. -/
def LooseValidate (p : Plan φ κ) (x : Arg φ R) : Prop :=
  Decoded p ∧ ((∃ s, x = .str s) ∨ ∃ b, x = .slice b)

/-- The functions `validate_*` borrow or copy: there is none for a `String` or a `Vec<u8>`. -/
def Owned (x : Arg φ R) : Prop := (∃ s, x = .string s) ∨ ∃ b, x = .vec b

end Verif.Spec.Traits
