import Verif.Proof.Line

/-!
# Properties C23, C24, C25: `line` and `text`
-/

namespace Verif.Props.Line

open Verif.Line Verif.Spec.Line

/-- The macro only accepts bounds in order: `validators-derive/src/common/length.rs`. -/
abbrev InOrder (min max : Option Nat) : Prop := ∀ m, min = some m → ∀ n, max = some n → m ≤ n

theorem outcome (k : Kind) (b : Bool) (min trimmedMin max : Option Nat) (s : List Char) (ho : InOrder min max) :
    (check k b min trimmedMin max s = .ok () ↔
      Clean k (checked trimmedMin s) ∧ SizeOk b min max s ∧ TrimmedOk b trimmedMin s) ∧
    (check k b min trimmedMin max s = .err .invalid → ¬ Clean k (checked trimmedMin s)) ∧
    (check k b min trimmedMin max s = .err .tooLong → ∃ m, max = some m ∧ m < size b s) ∧
    (check k b min trimmedMin max s = .err .tooShort → (∃ m, min = some m ∧ size b s < m) ∨
      (∃ m, trimmedMin = some m ∧ size b (trim s) < m) ∨
      (b = false ∧ trimmedMin ≠ none ∧ ∃ m, max = some m ∧ m < size b s)) ∧
    check k b min trimmedMin max s ≠ .panic := by
  have h := check_spec k b min trimmedMin max s ho
  revert h
  generalize check k b min trimmedMin max s = r
  intro h
  rcases r with _ | e | _
  · simp only [true_iff, reduceCtorEq, false_imp_iff, ne_eq, not_false_eq_true, and_true]
    exact h
  · cases e
    · simp only [reduceCtorEq, false_iff, Out.err.injEq, false_imp_iff, true_imp_iff, ne_eq, not_false_eq_true, and_true]
      exact ⟨fun hh => h hh.1, h⟩
    · simp only [reduceCtorEq, false_iff, Out.err.injEq, false_imp_iff, true_imp_iff, ne_eq, not_false_eq_true, and_true,
        true_and]
      refine ⟨?_, h⟩
      rintro ⟨-, ⟨-, hm⟩, -⟩
      obtain ⟨m, he, hl⟩ := h
      have := hm m he
      omega
    · simp only [reduceCtorEq, false_iff, Out.err.injEq, false_imp_iff, true_imp_iff, ne_eq, not_false_eq_true, and_true,
        true_and]
      refine ⟨?_, h⟩
      rintro ⟨-, ⟨hn, hm⟩, ht⟩
      rcases h with ⟨m, he, hl⟩ | ⟨m, he, hl⟩ | ⟨-, -, m, he, hl⟩
      · have := hn m he; omega
      · have := ht m he; omega
      · have := hm m he; omega
  · exact h.elim

/-! ## C23 -/

/-- C23: without `trimmed_min`, a string is accepted, unchanged, exactly when it has no forbidden character and its length
is within the bounds. -/
theorem C23_language (k : Kind) (b : Bool) (min max : Option Nat) (s v : List Char) (ho : InOrder min max) :
    parseStr k b min none max s = .ok v ↔ v = s ∧ Clean k s ∧ SizeOk b min max s := by
  have h := (outcome k b min none max s ho).1
  unfold parseStr
  constructor
  · intro hp
    cases hc : check k b min none max s with
    | ok _ =>
      rw [hc] at hp
      simp only [Out.bind_ok, Out.ok.injEq] at hp
      exact ⟨hp.symm, (h.mp hc).1, (h.mp hc).2.1⟩
    | err e => rw [hc] at hp; simp at hp
    | panic => rw [hc] at hp; simp at hp
  · rintro ⟨rfl, h1, h2⟩
    rw [h.mpr ⟨h1, h2, by rintro _ ⟨⟩⟩]
    rfl

/-- C23: `validate_str` agrees with `parse_str`, with the same error, for all options; nothing panics. -/
theorem C23_validate_agrees (k : Kind) (b : Bool) (min trimmedMin max : Option Nat) (s : List Char) :
    validateStr k b min trimmedMin max s = (parseStr k b min trimmedMin max s).void := by
  unfold validateStr parseStr
  cases check k b min trimmedMin max s <;> rfl

theorem C23_no_panic (k : Kind) (b : Bool) (min trimmedMin max : Option Nat) (s : List Char) (ho : InOrder min max) :
    parseStr k b min trimmedMin max s ≠ .panic := by
  have h := (outcome k b min trimmedMin max s ho).2.2.2.2
  unfold parseStr
  cases hc : check k b min trimmedMin max s
  · simp
  · simp
  · exact absurd hc h

example : parseStr .line false (some 2) none (some 3) ['a', 'é'] = .ok ['a', 'é'] ∧
    parseStr .line true (some 2) none (some 2) ['a', 'é'] = .err .tooLong ∧
    parseStr .line true none none none ['a', '\n'] = .err .invalid ∧
    parseStr .text true none none none ['a', '\n'] = .ok ['a', '\n'] := by decide

example : InOrder (some 2) (some 3) := by rintro _ ⟨⟩ _ ⟨⟩; decide

/-! ## C24 -/

/-- C24, full statement for one string. -/
def C24 (k : Kind) (b : Bool) (min trimmedMin max : Option Nat) (s : List Char) : Prop :=
  (parseStr k b min trimmedMin max s).IsOk ↔ Clean k s ∧ SizeOk b min max s ∧ TrimmedOk b trimmedMin s

theorem parse_isOk (k : Kind) (b : Bool) (min trimmedMin max : Option Nat) (s : List Char) :
    (parseStr k b min trimmedMin max s).IsOk ↔ check k b min trimmedMin max s = .ok () := by
  unfold parseStr
  cases check k b min trimmedMin max s <;> simp

/-- C24, exact language of the code: it is the intended one except that the leading white space is not checked. Missing for
the full property: forbidden characters in the leading white space. -/
theorem C24_language_partial (k : Kind) (b : Bool) (min max : Option Nat) (t : Nat) (s v : List Char)
    (ho : InOrder min max) :
    parseStr k b min (some t) max s = .ok v ↔
      v = s ∧ Clean k (trimStart s) ∧ SizeOk b min max s ∧ TrimmedOk b (some t) s := by
  have h := (outcome k b min (some t) max s ho).1
  unfold parseStr
  constructor
  · intro hp
    cases hc : check k b min (some t) max s with
    | ok _ =>
      rw [hc] at hp
      simp only [Out.bind_ok, Out.ok.injEq] at hp
      exact ⟨hp.symm, h.mp hc⟩
    | err e => rw [hc] at hp; simp at hp
    | panic => rw [hc] at hp; simp at hp
  · rintro ⟨rfl, h1⟩
    rw [h.mpr h1]
    rfl

/-- C24 holds for every string whose leading white space has no forbidden character, for example every string that does
not start with a control character. -/
theorem C24_clean_start_partial (k : Kind) (b : Bool) (min trimmedMin max : Option Nat) (s : List Char)
    (ho : InOrder min max) (hl : Clean k (leadingSpace s)) : C24 k b min trimmedMin max s := by
  unfold C24
  rw [parse_isOk, (outcome k b min trimmedMin max s ho).1]
  cases trimmedMin with
  | none => rfl
  | some t =>
    have : Clean k (trimStart s) ↔ Clean k s := by
      have e : s = leadingSpace s ++ trimStart s := (List.takeWhile_append_dropWhile ..).symm
      constructor
      · intro h c hc
        rw [e, List.mem_append] at hc
        exact hc.elim (hl c) (h c)
      · intro h c hc
        exact h c (by rw [e, List.mem_append]; exact .inr hc)
    simp only [checked, this]

/-- C24 is false of the code: with `trimmed_min`, a line may start with a line feed and a text with a form feed. -/
theorem C24_violated : ¬ C24 .line true none (some 1) none ['\n', 'a'] ∧ ¬ C24 .text false (some 1) (some 1) (some 5) ['\x0C', 'a'] := by
  have h1 : parseStr .line true none (some 1) none ['\n', 'a'] = .ok ['\n', 'a'] := by decide
  have h2 : parseStr .text false (some 1) (some 1) (some 5) ['\x0C', 'a'] = .ok ['\x0C', 'a'] := by decide
  unfold C24
  rw [h1, h2]
  constructor
  · intro h
    exact (h.mp (by simp)).1 '\n' (by simp) (by unfold Forbidden; decide)
  · intro h
    exact (h.mp (by simp)).1 '\x0C' (by simp) (by unfold Forbidden; decide)

example : Clean .line (leadingSpace [' ', '\t', 'a', ' ']) ∧
    parseStr .line false none (some 1) (some 4) [' ', '\t', 'a', ' '] = .ok [' ', '\t', 'a', ' '] ∧
    parseStr .line false none (some 2) (some 4) [' ', '\t', 'a', ' '] = .err .tooShort ∧
    trim [' ', '\t', 'a', ' '] = ['a'] := by
  refine ⟨?_, by decide, by decide, by decide⟩
  have : leadingSpace [' ', '\t', 'a', ' '] = [' ', '\t'] := by decide
  rw [this]
  intro c hc
  simp only [List.mem_cons, List.not_mem_nil, or_false] at hc
  unfold Forbidden
  rcases hc with rfl | rfl <;> decide

/-! ## C25 -/

/-- C25, full statement for one string. -/
def C25 (k : Kind) (b : Bool) (min trimmedMin max : Option Nat) (s : List Char) : Prop :=
  (parseStr k b min trimmedMin max s = .err .tooLong → ∃ m, max = some m ∧ m < size b s) ∧
  (parseStr k b min trimmedMin max s = .err .tooShort →
    (∃ m, min = some m ∧ size b s < m) ∨ (∃ m, trimmedMin = some m ∧ size b (trim s) < m)) ∧
  (parseStr k b min trimmedMin max s = .err .invalid → ¬ Clean k s)

theorem parse_err (k : Kind) (b : Bool) (min trimmedMin max : Option Nat) (s : List Char) (e : LineError) :
    parseStr k b min trimmedMin max s = .err e ↔ check k b min trimmedMin max s = .err e := by
  unfold parseStr
  cases check k b min trimmedMin max s <;> simp

/-- C25 holds for every string when lengths are counted in bytes, or there is no `trimmed_min`, or the string is not longer
than the maximum. Missing: `TooShort` with `trimmed_min`, counting characters, for strings that are too long (they are
rejected, but the error may be `TooShort` although the trimmed length is sufficient). -/
theorem C25_truthful_partial (k : Kind) (b : Bool) (min trimmedMin max : Option Nat) (s : List Char) (ho : InOrder min max)
    (hx : b = true ∨ trimmedMin = none ∨ ∀ m, max = some m → size b s ≤ m) : C25 k b min trimmedMin max s := by
  obtain ⟨-, h1, h2, h3, -⟩ := outcome k b min trimmedMin max s ho
  unfold C25
  simp only [parse_err]
  refine ⟨h2, ?_, ?_⟩
  · intro he
    rcases h3 he with h | h | ⟨hb, ht, m, hm, hl⟩
    · exact .inl h
    · exact .inr h
    · exfalso
      rcases hx with hx | hx | hx
      · rw [hx] at hb; cases hb
      · exact ht hx
      · have := hx m hm; omega
  · intro he hc
    refine h1 he ?_
    cases trimmedMin with
    | none => exact hc
    | some t => exact fun c hcm => hc c ((List.dropWhile_suffix _).subset hcm)

/-- C25, for every string and all options: `TooLong` and `Invalid` are always truthful, and `TooShort` is never returned for
an acceptable string. -/
theorem C25_long_invalid_partial (k : Kind) (b : Bool) (min trimmedMin max : Option Nat) (s : List Char)
    (ho : InOrder min max) :
    (parseStr k b min trimmedMin max s = .err .tooLong → ∃ m, max = some m ∧ m < size b s) ∧
    (parseStr k b min trimmedMin max s = .err .invalid → ¬ Clean k s) ∧
    (parseStr k b min trimmedMin max s = .err .tooShort → ¬ (SizeOk b min max s ∧ TrimmedOk b trimmedMin s)) := by
  obtain ⟨-, h1, h2, h3, -⟩ := outcome k b min trimmedMin max s ho
  simp only [parse_err]
  refine ⟨h2, ?_, ?_⟩
  · intro he hc
    refine h1 he ?_
    cases trimmedMin with
    | none => exact hc
    | some t => exact fun c hcm => hc c ((List.dropWhile_suffix _).subset hcm)
  · rintro he ⟨⟨ha, hb⟩, ht⟩
    rcases h3 he with ⟨m, h, h'⟩ | ⟨m, h, h'⟩ | ⟨-, -, m, h, h'⟩
    · have := ha m h; omega
    · have := ht m h; omega
    · have := hb m h; omega

/-- C25, strings that are too long, counted in characters, with `trimmed_min`: the outcome is decided by the first `max + 1` characters
alone. -/
theorem C25_too_long (k : Kind) (min : Option Nat) (t m : Nat) (s : List Char) (ho : InOrder min (some m)) (hl : m < s.length) :
    (parseStr k false min (some t) (some m) s = .err .invalid ↔ ¬ Clean k (trimStart (s.take (m + 1)))) ∧
    (parseStr k false min (some t) (some m) s = .err .tooShort ↔
      Clean k (trimStart (s.take (m + 1))) ∧ (trim (s.take (m + 1))).length < t) ∧
    (parseStr k false min (some t) (some m) s = .err .tooLong ↔
      Clean k (trimStart (s.take (m + 1))) ∧ t ≤ (trim (s.take (m + 1))).length) := by
  simp only [parse_err]
  have h := outer_spec k false none none (.inl rfl) (s.take (m + 1)) 0 rfl
  have hs : size false (s.take (m + 1)) = m + 1 := by rw [size_false, List.length_take]; omega
  have hmin : ∀ n, min = some n → n ≤ m := fun n hn => ho n hn m rfl
  have hc : check k false min (some t) (some m) s = (outer k false none none (s.take (m + 1)) 0).bind fun
      | (_, some trimmed) => if t ≤ trimmed then .err .tooLong else .err .tooShort
      | (_, none) => if t = 0 then .err .tooLong else .err .tooShort := by
    cases hx : outer k false none none (s.take (m + 1)) 0 with
    | err e => cases min <;> simp [check, hx]
    | panic => cases min <;> simp [check, hx]
    | ok p =>
      obtain ⟨n, x⟩ := p
      rw [hx] at h
      cases x with
      | none =>
        obtain ⟨-, hn, -⟩ := h
        rw [hs] at hn
        cases min with
        | none => simp [check, hx, hn, show ¬ m + 1 ≤ m by omega]
        | some a =>
          have := hmin a rfl
          simp [check, hx, hn, show ¬ m + 1 < a by omega]
      | some x =>
        obtain ⟨-, hn, -⟩ := h
        rw [hs] at hn
        cases min with
        | none => simp [check, hx, hn, show ¬ m + 1 ≤ m by omega]
        | some a =>
          have := hmin a rfl
          simp [check, hx, hn, show a ≤ m + 1 by omega, show ¬ m + 1 ≤ m by omega]
  rw [hc]
  revert h
  generalize outer k false none none (s.take (m + 1)) 0 = r
  intro h
  rcases r with ⟨n, x⟩ | e | _
  · cases x with
    | none =>
      obtain ⟨h1, -, -⟩ := h
      have ht : trim (s.take (m + 1)) = [] := trim_nil_of h1
      simp only [h1, ht, clean_nil, Out.bind_ok, List.length_nil]
      by_cases h0 : t = 0 <;> simp [h0] <;> omega
    | some x =>
      obtain ⟨h1, -, h2, -⟩ := h
      rw [size_false] at h2
      simp only [h1, ← h2, Out.bind_ok]
      by_cases h0 : t ≤ x <;> simp [h0] <;> omega
  · cases e
    · have h : ¬ Clean k (trimStart (s.take (m + 1))) := h
      simp [h]
    · simp [OuterOk, tooLong] at h
    · exact h.elim
  · exact h.elim

/-- C25, exactly: it fails if and only if lengths are counted in characters, the string is too long, and the first `max + 1` characters
are clean and shorter than `trimmed_min` after trimming, while the string itself is not. -/
theorem C25_exact_partial (k : Kind) (b : Bool) (min trimmedMin max : Option Nat) (s : List Char) (ho : InOrder min max) :
    C25 k b min trimmedMin max s ↔ ¬ (b = false ∧ ∃ t m, trimmedMin = some t ∧ max = some m ∧ m < s.length ∧
      Clean k (trimStart (s.take (m + 1))) ∧ (trim (s.take (m + 1))).length < t ∧ t ≤ (trim s).length) := by
  constructor
  · rintro h ⟨rfl, t, m, rfl, rfl, hl, hc, ht, hs⟩
    rcases h.2.1 ((C25_too_long k min t m s ho hl).2.1.2 ⟨hc, ht⟩) with ⟨n, hn, hn'⟩ | ⟨n, hn, hn'⟩
    · have := ho n hn m rfl
      rw [size_false] at hn'
      omega
    · cases hn
      rw [size_false] at hn'
      omega
  · intro h
    by_cases hx : b = true ∨ trimmedMin = none ∨ ∀ m, max = some m → size b s ≤ m
    · exact C25_truthful_partial k b min trimmedMin max s ho hx
    · obtain ⟨h1, h2, -⟩ := C25_long_invalid_partial k b min trimmedMin max s ho
      refine ⟨h1, ?_, h2⟩
      intro he
      cases b with
      | true => simp at hx
      | false =>
        cases trimmedMin with
        | none => simp at hx
        | some t =>
          cases max with
          | none => simp at hx
          | some m =>
            have hl : m < s.length := by simpa [size_false] using hx
            obtain ⟨hc, ht⟩ := (C25_too_long k min t m s ho hl).2.1.1 he
            refine .inr ⟨t, rfl, ?_⟩
            rw [size_false]
            apply Nat.lt_of_not_le
            intro hs
            exact h ⟨rfl, t, m, rfl, rfl, hl, hc, ht, hs⟩

example : parseStr .line false none (some 1) (some 1) [' ', ' ', 'a'] = .err .tooShort ∧ trim ([' ', ' ', 'a'].take 2) = [] ∧
    trim [' ', ' ', 'a'] = ['a'] ∧ parseStr .line false none (some 1) (some 1) [' ', 'a', 'a'] = .err .tooLong ∧
    parseStr .line false none (some 1) (some 1) ['a', 'a', '\n'] = .err .tooLong := by decide

/-- C25 is false of the code: `"  a"` has three characters, one after trimming; with `max = 1` and `trimmed_min = 1` it is
reported as too short. -/
theorem C25_violated : ¬ C25 .line false none (some 1) (some 1) [' ', ' ', 'a'] := by
  have h : parseStr .line false none (some 1) (some 1) [' ', ' ', 'a'] = .err .tooShort := by decide
  have ht : trim [' ', ' ', 'a'] = ['a'] := by decide
  unfold C25
  rw [h]
  rintro ⟨-, h2, -⟩
  rcases h2 rfl with ⟨m, hm, -⟩ | ⟨m, hm, hl⟩
  · cases hm
  · cases hm
    rw [ht] at hl
    revert hl
    decide

example : parseStr .line true none (some 1) (some 1) [' ', ' ', 'a'] = .err .tooLong ∧
    parseStr .line true none (some 2) none [' ', ' ', 'a'] = .err .tooShort ∧
    parseStr .text false none (some 2) none [' ', 'a', '\x00'] = .err .invalid := by decide

end Verif.Props.Line
