import Verif.Spec.Widen
import Verif.Props.Range
import Verif.Props.Line

/-!
# C67: a wider range, length or type never refuses what a narrower one accepts
-/

namespace Verif.Props.Widen

open Verif.Spec.Widen Verif.Spec.Range Verif.Spec.IntV Verif.Spec.Line
open Verif.Range (RangeOption RangeError Bounds)
open Verif.IntV (Ptr Width bits)

variable {α : Type} [LinearOrder α]

theorem widens_contains (b b' : Bounds α) (h : Widens b b') (x : α) (hx : Contains b x) : Contains b' x := by
  obtain ⟨h1, h2, h3⟩ := h
  refine ⟨?_, ?_⟩
  · intro m' hm'
    obtain ⟨m, hm, hle⟩ := h1 m' hm'
    exact le_trans hle (hx.1 m hm)
  · intro m' hm'
    obtain ⟨m, hm, hle⟩ := h2 m' hm'
    obtain ⟨g1, g2⟩ := hx.2 m hm
    refine ⟨le_trans g1 hle, ?_⟩
    rintro hi rfl
    have e : m = x := le_antisymm hle g1
    subst e
    exact g2 (h3 m hm hm' hi) rfl

theorem relaxes_satisfies (r r' : RangeOption α) (h : Relaxes r r') (x : α) (hx : Satisfies r x) : Satisfies r' x := by
  cases r' with
  | unlimited => trivial
  | inside b' =>
    cases r with
    | inside b => exact widens_contains b b' h x hx
    | outside b => exact h.elim
    | unlimited => exact h.elim
  | outside b' =>
    cases r with
    | inside b => exact h.elim
    | outside b =>
      rintro ⟨_, hc⟩
      exact hx ⟨h.1, widens_contains b' b h.2 x hc⟩
    | unlimited => exact h.elim

/-- C67, integers: with a range at least as permissive, a type at least as wide, and no change from a signed to an unsigned type,
every accepted text keeps its value, and every accepted integer too. -/
theorem C67_integers (ptr : Ptr) (signed signed' : Bool) (w w' : Width) (r r' : RangeOption Int) (chk chk' : Int → Out RangeError Unit)
    (h : IntV.check ptr signed w r = some chk) (h' : IntV.check ptr signed' w' r' = some chk') (hr : Relaxes r r')
    (hs : signed = true → signed' = true) (hw : ∀ v, Fits signed (bits ptr w) v → Fits signed' (bits ptr w') v) :
    (∀ s v, IntV.parseStr chk signed (bits ptr w) s = .ok v → IntV.parseStr chk' signed' (bits ptr w') s = .ok v) ∧
    (∀ u x v, Fits signed (bits ptr u) x → Fits signed' (bits ptr u) x →
      IntV.parseW chk ptr signed w u x = .ok v → IntV.parseW chk' ptr signed' w' u x = .ok v) := by
  constructor
  · intro s v
    rw [Props.Range.C16_language ptr signed w r chk h, Props.Range.C16_language ptr signed' w' r' chk' h']
    rintro ⟨⟨ds, h1, h2, h3⟩, hf, hsat⟩
    refine ⟨⟨ds, h1, h2, ?_⟩, hw v hf, relaxes_satisfies r r' hr v hsat⟩
    rcases h3 with h3 | ⟨h3, h4⟩
    · exact .inl h3
    · exact .inr ⟨hs h3, h4⟩
  · intro u x v hx hx'
    rw [(Props.Range.C17_no_truncation ptr signed w u r chk h x hx).2.1, (Props.Range.C17_no_truncation ptr signed' w' u r' chk' h' x hx').2.1]
    rintro ⟨rfl, hf, hsat⟩
    exact ⟨rfl, hw _ hf, relaxes_satisfies r r' hr _ hsat⟩

/-- The types: more bits, or from an unsigned type to a signed one with more bits. -/
theorem C67_types (ptr : Ptr) (signed signed' : Bool) (w w' : Width) (v : Int)
    (h : signed = signed' ∧ bits ptr w ≤ bits ptr w' ∨ signed = false ∧ signed' = true ∧ bits ptr w < bits ptr w') :
    Fits signed (bits ptr w) v → Fits signed' (bits ptr w') v := by
  rcases h with ⟨rfl, hb⟩ | ⟨rfl, rfl, hb⟩
  · cases signed with
    | true =>
      have p : (2 : Int) ^ (bits ptr w - 1) ≤ 2 ^ (bits ptr w' - 1) := by
        exact_mod_cast Nat.pow_le_pow_right (by omega) (by omega)
      simp only [Fits, if_true]
      omega
    | false =>
      have p : (2 : Int) ^ bits ptr w ≤ 2 ^ bits ptr w' := by
        exact_mod_cast Nat.pow_le_pow_right (by omega) hb
      simp only [Fits, Bool.false_eq_true, if_false]
      omega
  · have p : (2 : Int) ^ bits ptr w ≤ 2 ^ (bits ptr w' - 1) := by
      exact_mod_cast Nat.pow_le_pow_right (by omega) (by omega)
    have q : (0 : Int) ≤ 2 ^ (bits ptr w' - 1) := by
      exact_mod_cast Nat.zero_le _
    simp only [Fits, Bool.false_eq_true, if_false, if_true]
    omega

/-- C67, `bit` and `byte`. -/
theorem C67_sizes (lib : List UInt8 → Option Nat) (maxSize : Nat) (b b' : Bounds Nat) (chk chk' : Nat → Out RangeError Unit)
    (h : Size.check b = some chk) (h' : Size.check b' = some chk') (hw : Widens b b') :
    (∀ s v, Size.parseStr lib chk s = .ok v → Size.parseStr lib chk' s = .ok v) ∧
    (∀ u v, Size.parseU128 maxSize chk u = .ok v → Size.parseU128 maxSize chk' u = .ok v) := by
  constructor
  · intro s v
    rw [Props.Range.C19_text lib b chk h, Props.Range.C19_text lib b' chk' h']
    exact fun ⟨h1, h2⟩ => ⟨h1, widens_contains b b' hw v h2⟩
  · intro u v
    rw [(Props.Range.C19_integer_entry maxSize b chk h u).2.2, (Props.Range.C19_integer_entry maxSize b' chk' h' u).2.2]
    exact fun ⟨h1, h2, h3⟩ => ⟨h1, h2, widens_contains b b' hw u h3⟩

/-- C67, `number`. -/
theorem C67_numbers (r r' : RangeOption α) (nan : TriAllow) (chk chk' : Number.Fl α → Out RangeError Unit)
    (h : Number.check (Props.Range.floats r) = some chk) (h' : Number.check (Props.Range.floats r') = some chk') (hr : Relaxes r r')
    (f g : Number.Fl α) (hok : Number.parseF chk nan f = .ok g) : Number.parseF chk' nan f = .ok g := by
  cases f with
  | none =>
    obtain ⟨rfl, hd, _⟩ := Props.Range.C20_nan_policy r nan chk h _ _ hok
    exact (Props.Range.C20_nan r' nan chk' h').1.2 fun e => hd e rfl
  | some x =>
    rw [Props.Range.C20_number r nan chk h] at hok
    rw [Props.Range.C20_number r' nan chk' h']
    exact ⟨hok.1, relaxes_satisfies r r' hr x hok.2.1, hok.2.2⟩

/-- C67, `length`. -/
theorem C67_lengths {κ : Type} (len : κ → Nat) (min max min' max' : Option Nat) (chk chk' : Nat → Out RangeError Unit)
    (h : Range.compileLength (Range.lengthCode min max) = some chk) (h' : Range.compileLength (Range.lengthCode min' max') = some chk')
    (ha : Length.accepts min max = true) (ha' : Length.accepts min' max' = true) (h1 : LowerMin min min') (h2 : HigherMax max max')
    (v w : κ) (hok : Length.parseCollection chk len v = .ok w) : Length.parseCollection chk' len v = .ok w := by
  rw [(Props.Range.C21_length len min max chk h ha v).1] at hok
  rw [(Props.Range.C21_length len min' max' chk' h' ha' v).1]
  refine ⟨hok.1, ?_, ?_⟩
  · intro m' hm'
    obtain ⟨m, hm, hle⟩ := h1 m' hm'
    exact le_trans hle (hok.2.1 m hm)
  · intro m' hm'
    obtain ⟨m, hm, hle⟩ := h2 m' hm'
    exact le_trans (hok.2.2 m hm) hle

/-- C67 for `line` and `text`, the full statement: lower minima and a higher maximum keep every accepted string. -/
def C67_text (k : Line.Kind) (b : Bool) (min trimmedMin max min' trimmedMin' max' : Option Nat) (s : List Char) : Prop :=
  Props.Line.InOrder min max → Props.Line.InOrder min' max' → LowerMin min min' → LowerMin trimmedMin trimmedMin' → HigherMax max max' →
    Line.parseStr k b min trimmedMin max s = .ok s → Line.parseStr k b min' trimmedMin' max' s = .ok s

/-- C67 for `line` and `text`, if `trimmed_min` is not dropped or the leading white space has no forbidden character. Missing:
otherwise, where it is false, see `C67_text_violated`. -/
theorem C67_text_partial (k : Line.Kind) (b : Bool) (min trimmedMin max min' trimmedMin' max' : Option Nat) (s : List Char)
    (hk : trimmedMin' = none → trimmedMin = none ∨ Clean k (leadingSpace s)) :
    C67_text k b min trimmedMin max min' trimmedMin' max' s := by
  intro ho ho' h1 h2 h3 hok
  have size : SizeOk b min max s → SizeOk b min' max' s := by
    rintro ⟨g1, g2⟩
    constructor
    · intro m' hm'
      obtain ⟨m, hm, hle⟩ := h1 m' hm'
      exact le_trans hle (g1 m hm)
    · intro m' hm'
      obtain ⟨m, hm, hle⟩ := h3 m' hm'
      exact le_trans (g2 m hm) hle
  cases ht' : trimmedMin' with
  | none =>
    rw [Props.Line.C23_language _ _ _ _ _ _ ho']
    cases ht : trimmedMin with
    | none =>
      rw [ht, Props.Line.C23_language _ _ _ _ _ _ ho] at hok
      exact ⟨rfl, hok.2.1, size hok.2.2⟩
    | some t =>
      have hl := (hk ht').resolve_left (by simp [ht])
      have := (Props.Line.C24_clean_start_partial k b min (some t) max s ho hl).1 ⟨s, by rw [← ht]; exact hok⟩
      exact ⟨rfl, this.1, size this.2.1⟩
  | some t' =>
    obtain ⟨t, ht, hle⟩ := h2 t' ht'
    rw [ht, Props.Line.C24_language_partial _ _ _ _ _ _ _ ho] at hok
    rw [Props.Line.C24_language_partial _ _ _ _ _ _ _ ho']
    refine ⟨rfl, hok.2.1, size hok.2.2.1, ?_⟩
    intro m hm
    cases hm
    exact le_trans hle (hok.2.2.2 t rfl)

/-- C67 for `line` and `text` exactly: an accepted string is kept unless `trimmed_min` is dropped and the leading white space has a
forbidden character. -/
theorem C67_text_exact_partial (k : Line.Kind) (b : Bool) (min trimmedMin max min' trimmedMin' max' : Option Nat) (s : List Char)
    (ho : Props.Line.InOrder min max) (ho' : Props.Line.InOrder min' max') (h1 : LowerMin min min') (h2 : LowerMin trimmedMin trimmedMin')
    (h3 : HigherMax max max') (hok : Line.parseStr k b min trimmedMin max s = .ok s) :
    Line.parseStr k b min' trimmedMin' max' s = .ok s ↔ (trimmedMin' = none → trimmedMin = none ∨ Clean k (leadingSpace s)) := by
  refine ⟨?_, fun hk => C67_text_partial k b min trimmedMin max min' trimmedMin' max' s hk ho ho' h1 h2 h3 hok⟩
  rintro h rfl
  rw [Props.Line.C23_language _ _ _ _ _ _ ho'] at h
  exact .inr fun c hc => h.2.1 c (List.takeWhile_subset _ hc)

/-- C67 fails for `line` and `text`: a string accepted with `trimmed_min = 1` is refused without it. -/
theorem C67_text_violated : ¬ C67_text .line true none (some 1) none none none none ['\n', 'a'] := by
  intro h
  have := h (by intro m h; cases h) (by intro m h; cases h) (by simp [LowerMin]) (by simp [LowerMin]) (by simp [HigherMax]) (by decide)
  exact absurd this (by decide)

/-! ## Instances -/

example : Relaxes (.inside ⟨some (2 : Int), some 9, false⟩) (.inside ⟨some 1, some 9, false⟩) ∧
    Relaxes (.inside ⟨some (2 : Int), some 9, true⟩) (.inside ⟨none, some 10, false⟩) ∧
    Relaxes (.outside ⟨some (2 : Int), none, true⟩) (.outside ⟨some 3, some 9, false⟩) ∧
    ¬ Relaxes (.inside ⟨some (2 : Int), some 9, true⟩) (.inside ⟨some 2, some 9, false⟩) := by
  refine ⟨?_, ?_, ?_, ?_⟩ <;> simp [Relaxes, Widens, LowerMin, HigherMax, Bounded]
example : ∃ chk chk', IntV.check .p64 false .w8 (.inside ⟨some 2, some 9, true⟩) = some chk ∧
    IntV.check .p64 true .w16 (.inside ⟨some 1, none, true⟩) = some chk' ∧
    IntV.parseStr chk false (bits .p64 .w8) (ascii "+09") = .ok 9 ∧ IntV.parseStr chk' true (bits .p64 .w16) (ascii "+09") = .ok 9 :=
  ⟨_, _, rfl, rfl, by decide, by decide⟩
example : Line.parseStr .line false (some 2) (some 1) (some 3) [' ', 'a'] = .ok [' ', 'a'] ∧ Clean .line (leadingSpace [' ', 'a']) := by
  refine ⟨by decide, ?_⟩
  intro c hc
  have : leadingSpace [' ', 'a'] = [' '] := by decide
  rw [this] at hc
  simp at hc
  subst hc
  simp [Forbidden]

end Verif.Props.Widen
