import Verif.Model.Errors
import Verif.Spec.Errors
import Verif.Props.Generated

/-!
# Lemmas about the texts of the errors (C74)
-/

namespace Verif.Props.Errors

open Verif Verif.Attr Verif.Derive Verif.Generated Verif.Errors Verif.Spec.Generated Verif.Spec.Errors
open Verif.BaseN (strBytes)
open Verif.Range (Bounds RangeOption)

variable {τ φ κ N U V ε : Type}

theorem make_err {E E' A A' : Type} (f : E → E') (g : A → A') (ps p : List Char → Out E A) (v : List Char → Out E Unit) (s : List Char) (e : E') :
    (Impl.make f g ps p v).parseStr s = .err e ↔ ∃ x, p s = .err x ∧ f x = e := by
  simp only [Impl.make]
  cases p s <;> simp [mapErr, Out.map]

theorem make_validate_err {E E' A A' : Type} (f : E → E') (g : A → A') (ps p : List Char → Out E A) (v : List Char → Out E Unit) (s : List Char)
    (e : E') : (Impl.make f g ps p v).validateStr s = .err e ↔ ∃ x, v s = .err x ∧ f x = e := by
  simp only [Impl.make]
  cases v s <;> simp [mapErr]

theorem void_err {E A : Type} (r : Out E A) (e : E) : r.void = .err e ↔ r = .err e := by
  cases r <;> simp [Out.void]

/-- The errors of the check of the base-N validators. -/
theorem base_err (K : BaseN.Kind) (pad : TriAllow) (v : List UInt8) (e : BaseN.BaseError) (h : BaseN.check K.variant pad v = .err e) :
    e = .invalid ∨ e = .paddingMust ∧ pad = .must ∧ v.length % K.spec.block ≠ 0 ∨ e = .paddingDisallow ∧ pad = .disallow ∧ asc '=' ∈ v := by
  have hp : BaseN.parseU8Slice K.variant pad v = .err e := by simp [BaseN.parseU8Slice, h]
  cases e with
  | invalid => exact .inl rfl
  | paddingMust =>
    have := (BaseN.C04_padding_must K pad v).1 hp
    exact .inr (.inl ⟨rfl, this.1, this.2.2⟩)
  | paddingDisallow => exact .inr (.inr ⟨rfl, BaseN.C04_padding_disallow K pad v hp⟩)
  | decode =>
    exfalso
    by_cases hv : v = []
    · subst hv
      simp [BaseN.check] at h
    · rw [BaseN.check_eq _ _ K.matches pad v hv] at h
      split at h
      · cases h
      · split at h
        · rcases BaseN.lastLoop_err _ _ _ _ _ _ h with h | ⟨h, _⟩ <;> cases h
        · cases h

theorem text_err (K : BaseN.Kind) (pad : TriAllow) (s : List Char) (e : BaseN.BaseError) (h : BaseN.parseStr K.variant pad s = .err e) :
    BaseN.check K.variant pad (strBytes s) = .err e := by
  rw [BaseN.parseStr] at h
  cases hx : BaseN.check K.variant pad (strBytes s) <;> simp_all

/-- The errors of the decoding validators. -/
theorem decoded_err (K : BaseN.Kind) (pad : TriAllow) (v : List UInt8) (e : BaseN.BaseError) (h : BaseN.decodedParse K.encoding pad v = .err e) :
    e = .invalid ∨ e = .decode ∧ ∀ d, ¬ Spec.BaseN.Decodes K.spec pad v d := by
  obtain ⟨-, h1, h2⟩ := BaseN.C06_errors K pad v
  by_cases hv : v = []
  · rw [h1.2 hv] at h
    cases h
    exact .inl rfl
  · have hd : ∀ d, ¬ Spec.BaseN.Decodes K.spec pad v d := by
      intro d hd
      rw [(BaseN.C06_language K pad v d).2 hd] at h
      cases h
    rw [h2.2 ⟨hv, hd⟩] at h
    cases h
    exact .inr ⟨rfl, hd⟩

/-- The errors of the validators of sizes. -/
theorem size_err (lib : List UInt8 → Option Nat) (b : Bounds Int) (hb : (∀ v, b.min = some v → 0 ≤ v) ∧ ∀ v, b.max = some v → 0 ≤ v)
    (chk : Nat → Out Range.RangeError Unit) (hc : Size.check ⟨b.min.map Int.toNat, b.max.map Int.toNat, b.inclusive⟩ = some chk) (s : List UInt8)
    (e : Size.SizeError) (h : Size.parseStr lib chk s = .err e) :
    e = .parse ∨ (∃ n, e = .range .tooSmall ∧ lib s = some n ∧ Spec.Range.BelowMin b (n : Int)) ∨
      ∃ n, e = .range .tooLarge ∧ lib s = some n ∧ Spec.Range.AboveMax b (n : Int) := by
  cases hl : lib s with
  | none =>
    simp only [Size.parseStr, hl, Out.err.injEq] at h
    exact .inl h.symm
  | some n =>
    simp only [Size.parseStr, hl] at h
    right
    obtain ⟨h1, h2, h3⟩ := Range.size_outcome _ chk hc n
    rcases Range.contains_or (⟨b.min.map Int.toNat, b.max.map Int.toNat, b.inclusive⟩ : Bounds Nat) n with hx | hx | ⟨hx, hy⟩
    · simp [Size.parseV, h3 hx] at h
    · left
      rw [Size.parseV, h1 hx] at h
      refine ⟨n, by cases h; rfl, rfl, ?_⟩
      obtain ⟨m, hm, hlt⟩ := hx
      obtain ⟨m', hm', rfl⟩ := Option.map_eq_some_iff.1 hm
      have := hb.1 m' hm'
      exact ⟨m', hm', by omega⟩
    · right
      rw [Size.parseV, h2 hx hy] at h
      refine ⟨n, by cases h; rfl, rfl, ?_⟩
      obtain ⟨m, hm, hlt⟩ := hy
      obtain ⟨m', hm', rfl⟩ := Option.map_eq_some_iff.1 hm
      have := hb.2 m' hm'
      refine ⟨m', hm', ?_⟩
      rcases hlt with hlt | ⟨h', hlt⟩
      · left; omega
      · right; exact ⟨h', by omega⟩

/-- The errors of the validators of integers. -/
theorem int_err (ptr : IntV.Ptr) (signed : Bool) (w : IntV.Width) (r : RangeOption Int) (chk : Int → Out Range.RangeError Unit)
    (hc : IntV.check ptr signed w r = some chk) (s : List UInt8) (e : Range.RangeError)
    (h : IntV.parseStr chk signed (IntV.bits ptr w) s = .err (.range e)) :
    ∃ i, Spec.IntV.Numeral signed s i ∧ Spec.IntV.Fits signed (IntV.bits ptr w) i ∧
      ((∃ b, e = .tooSmall ∧ r = .inside b ∧ Spec.Range.BelowMin b i) ∨ (∃ b, e = .tooLarge ∧ r = .inside b ∧ Spec.Range.AboveMax b i) ∨
        ∃ b, e = .forbidden ∧ r = .outside b ∧ Spec.Range.Contains b i) := by
  obtain ⟨i, h1, h2, h3⟩ := ((Range.C16_errors ptr signed w r chk hc s).2.1 e).1 h
  refine ⟨i, h1, h2, ?_⟩
  cases r with
  | inside b =>
    obtain ⟨-, h4, h5, h6, -⟩ := Range.C14_inside ptr signed w b chk hc i
    cases e with
    | tooSmall => exact .inl ⟨b, rfl, rfl, h4.1 h3⟩
    | tooLarge => exact .inr (.inl ⟨b, rfl, rfl, (h5.1 h3).1⟩)
    | forbidden => exact absurd h3 h6
  | outside b =>
    obtain ⟨-, h4, h5, h6, -⟩ := Range.C14_outside ptr signed w b chk hc i
    cases e with
    | tooSmall => exact absurd h3 h5
    | tooLarge => exact absurd h3 h6
    | forbidden => exact .inr (.inr ⟨b, rfl, rfl, (h4.1 h3).2⟩)
  | unlimited =>
    rw [Range.C14_unlimited ptr signed w chk hc i] at h3
    cases h3

variable [LinearOrder φ]

/-- The errors of the validators of floats. -/
theorem number_err (fromStr : List UInt8 → Option (Number.Fl φ)) (r : RangeOption φ) (nan : TriAllow) (chk : Number.Fl φ → Out Range.RangeError Unit)
    (hc : Number.check (numbers r) = some chk) (s : List UInt8) (e : Number.NumberError) (h : Number.parseStr fromStr chk nan s = .err e) :
    e = .parseFloat ∨ (e = .nanDisallow ∧ nan = .disallow ∧ fromStr s = some none) ∨ ∃ x, fromStr s = some (some x) ∧
      (e = .nanMust ∧ nan = .must ∨ (∃ b, e = .range .tooSmall ∧ r = .inside b ∧ Spec.Range.BelowMin b x) ∨
        (∃ b, e = .range .tooLarge ∧ r = .inside b ∧ Spec.Range.AboveMax b x) ∨
        ∃ b, e = .range .forbidden ∧ r = .outside b ∧ Spec.Range.Contains b x) := by
  have hc' : Number.check (Range.floats r) = some chk := by
    rw [← hc]
    cases r <;> rfl
  cases hl : fromStr s with
  | none =>
    simp only [Number.parseStr, hl, Out.err.injEq] at h
    exact .inl h.symm
  | some f =>
    right
    simp only [Number.parseStr, hl] at h
    cases f with
    | none =>
      left
      have hn := Range.number_nan r chk hc'
      cases nan <;> simp [Number.parseF, hn, Number.checkNan, Out.map] at h ⊢
      exact h.symm
    | some x =>
      right
      obtain ⟨h1, h2, h3, h4, h5, h6⟩ := Range.C20_number_errors r nan chk hc' x
      refine ⟨x, rfl, ?_⟩
      cases e with
      | parseFloat =>
        exfalso
        unfold Number.parseF at h
        split at h <;> try cases h
        cases nan <;> simp [Number.checkNan, Out.map] at h
      | range e =>
        cases e with
        | tooSmall =>
          obtain ⟨b, hb, hx⟩ := h1.1 h
          exact .inr (.inl ⟨b, rfl, hb, hx⟩)
        | tooLarge =>
          obtain ⟨b, hb, hx, -⟩ := h2.1 h
          exact .inr (.inr (.inl ⟨b, rfl, hb, hx⟩))
        | forbidden =>
          obtain ⟨b, hb, -, hx⟩ := h3.1 h
          exact .inr (.inr (.inr ⟨b, rfl, hb, hx⟩))
      | nanMust => exact .inl ⟨rfl, (h4.1 h).1⟩
      | nanDisallow => exact absurd h h5

/-- The errors of `line` and `text`. -/
theorem line_err (L : Libs φ κ N U V ε) (w : Validator) (k : Line.Kind) (a : Utf8Attribute) (hm : ¬ LargestMax (φ := φ) (κ := κ) L.ptr (.utf8 w a))
    (ha : ∀ b l, a.length = some (b, l) → Line.InOrder l.min l.max) (s : List Char) (e : Error ε)
    (h : (lineImpl L k a : Impl (Error ε) (Value φ κ N U V)).parseStr s = .err e) :
    e = .line .invalid ∨ ∃ b l, a.length = some (b, l) ∧ ((e = .line .tooLong ∧ ∃ m, l.max = some m ∧ m < Spec.Line.size b s) ∨
      e = .line .tooShort ∧ (l.min ≠ none ∨ l.trimmedMin ≠ none) ∧
        ¬ (Spec.Line.SizeOk b l.min l.max s ∧ Spec.Line.TrimmedOk b l.trimmedMin s)) := by
  rw [lineImpl] at h
  split at h
  · rename_i b l hl
    rw [make_err] at h
    obtain ⟨x, hx, rfl⟩ := h
    rw [(LineMax.C73_below _ _ k b l.min l.trimmedMin l.max s (Generated.line_max hm b l hl)).1] at hx
    cases x with
    | invalid => exact .inl rfl
    | tooLong => exact .inr ⟨b, l, hl, .inl ⟨rfl, (Line.C25_long_invalid_partial k b _ _ _ s (ha b l hl)).1 hx⟩⟩
    | tooShort =>
      refine .inr ⟨b, l, hl, .inr ⟨rfl, ?_, (Line.C25_long_invalid_partial k b _ _ _ s (ha b l hl)).2.2 hx⟩⟩
      rcases (Line.outcome k b _ _ _ s (ha b l hl)).2.2.2.1 ((Line.parse_err ..).1 hx) with ⟨m, h, -⟩ | ⟨m, h, -⟩ | ⟨-, h, -⟩
      · simp [h]
      · simp [h]
      · exact .inr h
  · rename_i hl
    rw [make_err] at h
    obtain ⟨x, hx, rfl⟩ := h
    have ho := Line.outcome k false none none none s nofun
    cases x with
    | invalid => exact .inl rfl
    | tooLong => obtain ⟨m, h, -⟩ := ho.2.2.1 ((Line.parse_err ..).1 hx); cases h
    | tooShort => rcases ho.2.2.2.1 ((Line.parse_err ..).1 hx) with ⟨m, h, -⟩ | ⟨m, h, -⟩ | ⟨-, h, -⟩ <;> first | cases h | exact absurd rfl h

end Verif.Props.Errors
