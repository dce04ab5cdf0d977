import Verif.Spec.Generated
import Verif.Props.AttrBounds
import Verif.Props.BaseN
import Verif.Props.Boolean
import Verif.Props.Derive
import Verif.Props.Domain
import Verif.Props.Email
import Verif.Props.Hex
import Verif.Props.Host
import Verif.Props.Ip
import Verif.Props.LineMax
import Verif.Props.Phone
import Verif.Props.Range
import Verif.Props.Url
import Verif.Props.Wrapper

/-!
# Lemmas about the generated code (C71)
-/

namespace Verif.Props.Generated

open Verif Verif.Attr Verif.Derive Verif.Generated Verif.Spec.Generated
open Verif.BaseN (strBytes)
open Verif.Range (Bounds RangeOption)

variable {τ φ κ N U V ε : Type}

theorem domainConfig_ok [DecidableEq κ] {α : Type} {E : Env τ α κ} {m : Meta τ} {a : DomainAttribute} (h : domainConfig E m = .ok a) : domainAttribute E m = .ok a := by
  obtain ⟨b, hb, h⟩ := (Derive.bind_ok_iff ..).1 h
  split at h
  · split at h
    · cases h
    · cases h; exact hb
  · cases h; exact hb

theorem emailConfig_ok [DecidableEq κ] {α : Type} {E : Env τ α κ} {m : Meta τ} {a : EmailAttribute} (h : emailConfig E m = .ok a) : emailAttribute E m = .ok a := by
  obtain ⟨b, hb, h⟩ := (Derive.bind_ok_iff ..).1 h
  split at h
  · split at h
    · cases h
    · cases h; exact hb
  · cases h; exact hb

theorem numberConfig_ok [DecidableEq κ] {α : Type} {E : Env τ α κ} {m : Meta τ} {a : NumberAttribute α} (h : numberConfig E m = .ok a) : numberAttribute E m = .ok a := by
  obtain ⟨b, hb, h⟩ := (Derive.bind_ok_iff ..).1 h
  have key : ∀ (q : Prop) [Decidable q], (if q then Out.err AttrError.conflict else .ok b) = .ok a → b = a := by
    intro q _ hq
    split at hq
    · cases hq
    · cases hq; rfl
  rw [← key _ h]
  exact hb

theorem make_parse {E E' A A' : Type} (f : E → E') (g : A → A') (ps p : List Char → Out E A) (v : List Char → Out E Unit) (s : List Char) (x : A') :
    (Impl.make f g ps p v).parseStr s = .ok x ↔ ∃ a, p s = .ok a ∧ g a = x := by
  simp only [Impl.make]
  cases p s <;> simp [mapErr, Out.map]

/-- The bounds of a size are not negative: they are read as `u128`. -/
def SizesOk : Plan φ κ → Prop
  | .bit a => (∀ v, a.range.min = some v → 0 ≤ v) ∧ ∀ v, a.range.max = some v → 0 ≤ v
  | .byte a => (∀ v, a.range.min = some v → 0 ≤ v) ∧ ∀ v, a.range.max = some v → 0 ≤ v
  | .utf8 _ a => ∀ b l, a.length = some (b, l) → Line.InOrder l.min l.max
  | _ => True

theorem size_fits (M : Macro τ φ κ) (ps : List (Meta τ)) (b : Bounds Int)
    (h : Spec.Attr.Set ps "range" (Spec.Attr.SaysRange M.syn M.full (intTy false 128)) ⟨none, none, false⟩ b) :
    (∀ v, b.min = some v → 0 ≤ v) ∧ ∀ v, b.max = some v → 0 ≤ v := by
  have pos : ∀ v, Spec.IntV.Fits false 128 v → 0 ≤ v := fun v h => h.1
  rcases h with ⟨p, -, -, h⟩ | ⟨-, rfl⟩
  · rcases h with ⟨r, -, h1, h2, -⟩ | ⟨_, -, ⟨ps, -, -, h1, h2, -⟩, -⟩
    · exact ⟨fun v hv => pos v (AttrBounds.operand_fits false 128 _ _ v h1 hv), fun v hv => pos v (AttrBounds.operand_fits false 128 _ _ v h2 hv)⟩
    · exact ⟨fun v hv => pos v (AttrBounds.setOpt_fits M.syn false 128 ps _ _ v h1 hv), fun v hv => pos v (AttrBounds.setOpt_fits M.syn false 128 ps _ _ v h2 hv)⟩
  · exact ⟨nofun, nofun⟩

theorem sizesOk (M : Macro τ φ κ) (v : Validator) (ps : List (Meta τ)) (p : Plan φ κ) (h : Options M v ps p) : SizesOk p := by
  cases p with
  | bit a => exact size_fits M ps a.range h.2.2.1
  | byte a => exact size_fits M ps a.range h.2.2.1
  | utf8 w a =>
    intro b l hl m hm n hn
    rcases h.2.2.2.1 with ⟨e, -⟩ | ⟨q, -, b', l', e, ⟨_, _, _, _, _, _, _, _, _, _, h, _⟩, -⟩
    · rw [hl] at e; cases e
    · rw [hl] at e; cases e
      exact h m n hm hn
  | _ => trivial

theorem contains_toNat (b : Bounds Int) (h : (∀ v, b.min = some v → 0 ≤ v) ∧ ∀ v, b.max = some v → 0 ≤ v) (n : Nat) :
    Spec.Range.Contains (⟨b.min.map Int.toNat, b.max.map Int.toNat, b.inclusive⟩ : Bounds Nat) n ↔ Spec.Range.Contains b (n : Int) := by
  obtain ⟨min, max, inc⟩ := b
  obtain ⟨h1, h2⟩ := h
  simp only [Spec.Range.Contains]
  refine and_congr ?_ ?_
  · cases min with
    | none => simp
    | some x => have := h1 x rfl; simp
  · cases max with
    | none => simp
    | some x =>
      have := h2 x rfl
      simp only [Option.map_some, Option.some.injEq, forall_eq']
      refine and_congr ?_ (imp_congr_right fun _ => ?_) <;> omega

theorem size_ok (lib : List UInt8 → Option Nat) (b : Bounds Int) (hb : (∀ v, b.min = some v → 0 ≤ v) ∧ ∀ v, b.max = some v → 0 ≤ v)
    (I : Impl (Error ε) (Value φ κ N U V)) (hI : sizeImpl lib b = some I) (s : List Char) (x : Value φ κ N U V) :
    I.parseStr s = .ok x ↔ ∃ n, x = .size n ∧ lib (strBytes s) = some n ∧ Spec.Range.Contains b (n : Int) := by
  simp only [sizeImpl, Option.map_eq_some_iff] at hI
  obtain ⟨chk, hc, rfl⟩ := hI
  rw [make_parse]
  constructor
  · rintro ⟨n, h, rfl⟩
    obtain ⟨h1, h2⟩ := (Range.C19_text lib _ chk hc _ n).1 h
    exact ⟨n, rfl, h1, (contains_toNat b hb n).1 h2⟩
  · rintro ⟨n, rfl, h1, h2⟩
    exact ⟨n, (Range.C19_text lib _ chk hc _ n).2 ⟨h1, (contains_toNat b hb n).2 h2⟩, rfl⟩

theorem text_ok (K : BaseN.Kind) (a : BaseAttribute) (s : List Char) (x : Value φ κ N U V) :
    (textImpl (ε := ε) K.variant a).parseStr s = .ok x ↔ x = .text s ∧ Spec.BaseN.Accepts K.spec a.padding (strBytes s) := by
  rw [textImpl, make_parse, ← BaseN.C01_parse_str_language K a.padding s]
  have := (BaseN.C03_entry_points_agree K a.padding s _ rfl).2.2.2.2.2.1
  constructor
  · rintro ⟨t, h, rfl⟩
    exact ⟨by rw [this t h], t, h⟩
  · rintro ⟨rfl, t, h⟩
    exact ⟨t, h, by rw [this t h]⟩

theorem bytes_ok (K : BaseN.Kind) (a : BaseAttribute) (s : List Char) (x : Value φ κ N U V) :
    (bytesImpl (ε := ε) K.variant K.encoding a).parseStr s = .ok x ↔ ∃ d, x = .bytes d ∧ Spec.BaseN.Decodes K.spec a.padding (strBytes s) d := by
  rw [bytesImpl, make_parse]
  simp only [BaseN.C06_language]
  exact ⟨fun ⟨d, h, e⟩ => ⟨d, e.symm, h⟩, fun ⟨d, e, h⟩ => ⟨d, h, e.symm⟩⟩

/-- Without the largest maximum, the addition does not overflow. -/
theorem line_max {L : Libs φ κ N U V ε} {v : Validator} {a : Utf8Attribute} (hm : ¬ LargestMax (φ := φ) (κ := κ) L.ptr (.utf8 v a)) (b : Bool)
    (l : Length) (hl : a.length = some (b, l)) : b = true ∨ ∀ m, l.max = some m → m < usizeMax L.ptr := by
  cases b with
  | true => exact .inl rfl
  | false =>
    right
    intro m h
    by_contra hc
    exact hm ⟨l, m, hl, h, Nat.le_of_not_lt hc⟩

theorem line_ok (L : Libs φ κ N U V ε) (v : Validator) (k : Line.Kind) (a : Utf8Attribute) (hm : ¬ LargestMax (φ := φ) (κ := κ) L.ptr (.utf8 v a))
    (ha : ∀ b l, a.length = some (b, l) → Line.InOrder l.min l.max) (s : List Char)
    (x : Value φ κ N U V) : (lineImpl L k a).parseStr s = .ok x ↔ x = .text s ∧ LengthOk k a.length s := by
  rw [lineImpl]
  split
  · rename_i isByte l hl
    rw [make_parse, hl, LengthOk]
    have ho := ha _ _ hl
    simp only [(LineMax.C73_below _ _ k isByte l.min l.trimmedMin l.max s (line_max hm isByte l hl)).1]
    cases ht : l.trimmedMin with
    | none =>
      simp only [Line.C23_language k isByte l.min l.max s _ ho]
      constructor
      · rintro ⟨t, ⟨rfl, h1, h2⟩, rfl⟩
        exact ⟨rfl, h2, nofun, by simpa [ht] using h1⟩
      · rintro ⟨rfl, h2, -, h1⟩
        exact ⟨s, ⟨rfl, by simpa [ht] using h1, h2⟩, rfl⟩
    | some n =>
      simp only [Line.C24_language_partial k isByte l.min l.max n s _ ho]
      constructor
      · rintro ⟨t, ⟨rfl, h1, h2, h3⟩, rfl⟩
        exact ⟨rfl, h2, h3, by simpa [ht] using h1⟩
      · rintro ⟨rfl, h2, h3, h1⟩
        exact ⟨s, ⟨rfl, by simpa [ht] using h1, h2, h3⟩, rfl⟩
  · rename_i hl
    rw [make_parse, hl, LengthOk]
    simp only [Line.C23_language k false none none s _ nofun]
    constructor
    · rintro ⟨t, ⟨rfl, h1, -⟩, rfl⟩
      exact ⟨rfl, h1⟩
    · rintro ⟨rfl, h1⟩
      exact ⟨s, ⟨rfl, h1, nofun, nofun⟩, rfl⟩

variable [LinearOrder φ] in
theorem number_ok (fromStr : List UInt8 → Option (Number.Fl φ)) (a : NumberAttribute φ) (I : Impl (Error ε) (Value φ κ N U V))
    (hI : numberImpl fromStr a = some I) (s : List Char) (x : Value φ κ N U V) :
    I.parseStr s = .ok x ↔ ∃ f, x = .number f ∧ fromStr (strBytes s) = some f ∧ FloatOk a.range a.nan f := by
  simp only [numberImpl, Option.map_eq_some_iff] at hI
  obtain ⟨chk, hc, rfl⟩ := hI
  have hc' : Number.check (Range.floats a.range) = some chk := by
    rw [← hc]
    cases a.range <;> rfl
  have key : ∀ f g, Number.parseF chk a.nan f = .ok g ↔ g = f ∧ FloatOk a.range a.nan f := by
    intro f g
    cases f with
    | none =>
      constructor
      · intro h
        have := (Range.C20_nan_policy a.range a.nan chk hc' none g h).1
        subst this
        exact ⟨rfl, (Range.C20_nan a.range a.nan chk hc').1.1 h⟩
      · rintro ⟨rfl, h⟩
        exact (Range.C20_nan a.range a.nan chk hc').1.2 h
    | some y => exact Range.C20_number a.range a.nan chk hc' y g
  rw [make_parse]
  simp only [Range.C20_text, key]
  constructor
  · rintro ⟨g, ⟨f, h1, rfl, h2⟩, rfl⟩
    exact ⟨g, rfl, h1, h2⟩
  · rintro ⟨f, rfl, h1, h2⟩
    exact ⟨f, ⟨f, h1, rfl, h2⟩, rfl⟩

theorem int_ok (ptr : IntV.Ptr) (signed : Bool) (w : IntV.Width) (a : RangeAttribute Int) (I : Impl (Error ε) (Value φ κ N U V))
    (hI : intImpl ptr signed w a = some I) (s : List Char) (x : Value φ κ N U V) :
    I.parseStr s = .ok x ↔ ∃ i, x = .int i ∧ Spec.IntV.Numeral signed (strBytes s) i ∧ Spec.IntV.Fits signed (IntV.bits ptr w) i ∧
      Spec.Range.Satisfies a.range i := by
  simp only [intImpl, Option.map_eq_some_iff] at hI
  obtain ⟨chk, hc, rfl⟩ := hI
  rw [make_parse]
  simp only [Range.C16_language ptr signed w a.range chk hc]
  exact ⟨fun ⟨i, h, e⟩ => ⟨i, e.symm, h⟩, fun ⟨i, e, h⟩ => ⟨i, h, e.symm⟩⟩

theorem make_string {E E' A A' : Type} (f : E → E') (g : A → A') (ps p : List Char → Out E A) (v : List Char → Out E Unit) (s : List Char)
    (h : ps s = p s) : (Impl.make f g ps p v).parseString s = (Impl.make f g ps p v).parseStr s := by
  simp only [Impl.make, h]

theorem make_validate {E E' A A' : Type} (f : E → E') (g : A → A') (ps p : List Char → Out E A) (v : List Char → Out E Unit) (s : List Char)
    (h : v s = (p s).void) : (Impl.make f g ps p v).validateStr s = ((Impl.make f g ps p v).parseStr s).void := by
  simp only [Impl.make, h]
  cases p s <;> rfl

theorem make_panic {E E' A A' : Type} (f : E → E') (g : A → A') (ps p : List Char → Out E A) (v : List Char → Out E Unit) (s : List Char) :
    (Impl.make f g ps p v).parseStr s = .panic ↔ p s = .panic := by
  simp only [Impl.make]
  cases p s <;> simp [mapErr, Out.map]

theorem make_validate_panic {E E' A A' : Type} (f : E → E') (g : A → A') (ps p : List Char → Out E A) (v : List Char → Out E Unit) (s : List Char) :
    (Impl.make f g ps p v).validateStr s = .panic ↔ v s = .panic := by
  simp only [Impl.make]
  cases v s <;> simp [mapErr]

theorem void_panic {E A : Type} (r : Out E A) : r.void = .panic ↔ r = .panic := by
  cases r <;> simp [Out.void, Out.map]

theorem size_no_panic (lib : List UInt8 → Option Nat) (b : Bounds Nat) (chk : Nat → Out Range.RangeError Unit) (h : Size.check b = some chk)
    (s : List UInt8) : Size.parseStr lib chk s ≠ .panic := by
  unfold Size.parseStr
  cases lib s with
  | none => simp
  | some x =>
    obtain ⟨h1, h2, h3⟩ := Range.size_outcome b chk h x
    simp only [Size.parseV]
    rcases Range.contains_or b x with hc | hb | ⟨hb, ha⟩
    · simp [h3 hc]
    · simp [h1 hb]
    · simp [h2 hb ha]

theorem number_no_panic [LinearOrder φ] (fromStr : List UInt8 → Option (Number.Fl φ)) (r : RangeOption φ) (nan : TriAllow)
    (chk : Number.Fl φ → Out Range.RangeError Unit) (h : Number.check (numbers r) = some chk) (s : List UInt8) :
    Number.parseStr fromStr chk nan s ≠ .panic := by
  have h' : Number.check (Range.floats r) = some chk := by
    rw [← h]
    cases r <;> rfl
  unfold Number.parseStr
  cases fromStr s with
  | none => simp
  | some f =>
    cases f with
    | none =>
      simp only [Number.parseF, Range.number_nan r chk h']
      cases nan <;> simp [Number.checkNan]
    | some x => exact (Range.C20_number_errors r nan chk h' x).2.2.2.2.2

theorem text_no_panic (K : BaseN.Kind) (pad : TriAllow) (s : List Char) : BaseN.parseStr K.variant pad s ≠ .panic := by
  have h := BaseN.C01_no_panic K pad (strBytes s)
  have := (BaseN.C03_entry_points_agree K pad s _ rfl).2.2.1
  rw [← this] at h
  intro e
  rw [e] at h
  exact h rfl

theorem decoded_no_panic (K : BaseN.Kind) (pad : TriAllow) (v : List UInt8) : BaseN.decodedValidate K.variant pad v ≠ .panic :=
  BaseN.check_ne_panic _ _ K.matches pad v

theorem rangeEqual_iff (bits : Nat) (b : Bounds Int) (x y : Int) (hx : b.min = some x) (hy : b.max = some y) (hf : Spec.IntV.Fits false bits y) :
    Range.rangeEqual (IntV.num false bits) b = true ↔ (if b.inclusive then x = y else x + 1 = y) := by
  simp only [Range.rangeEqual, hx, hy, IntV.num]
  cases b.inclusive with
  | true => simp
  | false =>
    simp only [Bool.false_eq_true, if_false]
    split
    · rename_i h
      split at h <;> cases h
      simp
    · rename_i h
      split at h
      · cases h
      · rename_i hn
        simp only [false_iff, Bool.false_eq_true]
        rintro rfl
        have := hf.2
        simp only [IntV.maxOf] at hn
        simp at hn
        omega

end Verif.Props.Generated
