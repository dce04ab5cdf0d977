import Verif.Proof.Phone

/-!
# C47: the `phone` validator
-/

namespace Verif.Props.Phone

open Verif Verif.Phone Verif.Spec.Phone

variable {C N : Type} [DecidableEq C]

/-- C47, no country: exactly the texts that are valid international numbers. -/
theorem C47_international (lib : Lib C N) (s : List UInt8) :
    (∀ v, parseStr lib [] s = .ok v ↔ ∃ n, v = .number n ∧ lib.parse none s = some n ∧ lib.isValid n = true) ∧
    (parseStr lib [] s = .err .failure ↔ lib.parse none s = none) ∧
    (parseStr lib [] s = .err .invalid ↔ ∃ n, lib.parse none s = some n ∧ lib.isValid n = false) ∧
    parseStr lib [] s ≠ .panic := by
  have e : parseStr lib [] s = (parseAny lib s).map .number := rfl
  rw [e]
  unfold parseAny
  cases hp : lib.parse none s with
  | none => simp
  | some n =>
    cases hv : lib.isValid n
    · simp [hv]
      grind
    · simp [hv]
      grind

/-- C47, one country: exactly the texts that, read for the country, are valid numbers of the country. -/
theorem C47_one (lib : Lib C N) (c : C) (s : List UInt8) :
    (∀ v, parseStr lib [c] s = .ok v ↔ ∃ n, v = .number n ∧ NumberOf lib c s n) ∧
    (parseStr lib [c] s = .err .failure ↔ ¬ Readable lib c s) ∧
    (parseStr lib [c] s = .err .invalid ↔ Readable lib c s ∧ ¬ ∃ n, NumberOf lib c s n) ∧
    parseStr lib [c] s ≠ .panic := by
  have e : parseStr lib [c] s = (parseOne lib c s).map .number := rfl
  rw [e]
  unfold parseOne Readable NumberOf
  cases hp : lib.parse (some c) s with
  | none => simp
  | some n =>
    cases hc : lib.country n with
    | none =>
      simp [hc]
      grind
    | some d =>
      by_cases hv : d = c ∧ lib.isValid n = true
      · simp [hc, hv]
        grind
      · simp [hc, hv]
        grind

/-- C47, several countries: the text must be readable for every country and be a valid number of at least one; the value
maps exactly those countries to the number, with one entry for each. -/
theorem C47_several (lib : Lib C N) (cs : List C) (hcs : 2 ≤ cs.length) (s : List UInt8) :
    ((∃ v, parseStr lib cs s = .ok v) ↔ (∀ c ∈ cs, Readable lib c s) ∧ ∃ c ∈ cs, ∃ n, NumberOf lib c s n) ∧
    (∀ v, parseStr lib cs s = .ok v → ∃ m, v = .numbers m ∧ MapsExactly lib cs s m ∧ (m.map (·.1)).Nodup) ∧
    (parseStr lib cs s = .err .failure ↔ ∃ c ∈ cs, ¬ Readable lib c s) ∧
    (parseStr lib cs s = .err .invalid ↔ (∀ c ∈ cs, Readable lib c s) ∧ ¬ ∃ c ∈ cs, ∃ n, NumberOf lib c s n) ∧
    parseStr lib cs s ≠ .panic := by
  have e : parseStr lib cs s = (parseMany lib cs s).map .numbers := by
    match cs, hcs with
    | _ :: _ :: _, _ => rfl
  rw [e]
  have hn : (∃ c ∈ cs, ¬ Readable lib c s) ↔ ¬ ∀ c ∈ cs, Readable lib c s := by
    simp
  rw [hn]
  rcases parseMany_spec lib cs s with ⟨e, h⟩ | ⟨e, h, h'⟩ | ⟨m, e, h, h', hm, hk⟩
  · rw [e]
    refine ⟨?_, by simp, by simp [h], ?_, by simp⟩
    · simp [h]
    · simp [h]
  · rw [e]
    refine ⟨?_, by simp, ?_, ?_, by simp⟩
    · exact ⟨fun ⟨_, k⟩ => by simp at k, fun k => absurd k.2 h'⟩
    · simp only [Out.map_err, Out.err.injEq, reduceCtorEq, false_iff, Classical.not_not]
      exact h
    · simp only [Out.map_err, true_iff]
      exact ⟨h, h'⟩
  · rw [e]
    refine ⟨?_, ?_, ?_, ?_, by simp⟩
    · simp only [Out.map_ok, Out.ok.injEq, exists_eq', true_iff]
      exact ⟨h, h'⟩
    · intro v hv
      cases hv
      exact ⟨m, rfl, hm, hk⟩
    · simp only [Out.map_ok, reduceCtorEq, false_iff, Classical.not_not]
      exact h
    · simp only [Out.map_ok, reduceCtorEq, false_iff]
      exact fun k => k.2 h'

/-- C47: the order in which the countries are tried does not matter. The entries of the maps are the same. -/
theorem C47_order (lib : Lib C N) (cs ds : List C) (hcs : 2 ≤ cs.length) (hds : 2 ≤ ds.length) (hp : ∀ c, c ∈ cs ↔ c ∈ ds)
    (s : List UInt8) :
    (∀ v, parseStr lib cs s = .ok v → ∃ m m', v = .numbers m ∧ parseStr lib ds s = .ok (.numbers m') ∧ ∀ e, e ∈ m ↔ e ∈ m') ∧
    ∀ e, parseStr lib cs s = .err e ↔ parseStr lib ds s = .err e := by
  obtain ⟨a1, a2, a3, a4, -⟩ := C47_several lib cs hcs s
  obtain ⟨b1, b2, b3, b4, -⟩ := C47_several lib ds hds s
  constructor
  · intro v hv
    obtain ⟨m, rfl, hm, -⟩ := a2 v hv
    obtain ⟨w, hw⟩ := b1.mpr (by simpa [hp] using a1.mp ⟨_, hv⟩)
    obtain ⟨m', rfl, hm', -⟩ := b2 w hw
    refine ⟨m, m', rfl, hw, ?_⟩
    rintro ⟨c, n⟩
    rw [hm c n, hm' c n, hp]
  · intro e
    cases e
    · rw [a3, b3]
      simp [hp]
    · rw [a4, b4]
      simp [hp]

/-- C47: `validate_str` succeeds or fails as parsing does. -/
theorem C47_validate (lib : Lib C N) (cs : List C) (s : List UInt8) : validateStr lib cs s = (parseStr lib cs s).void := by
  unfold validateStr
  cases parseStr lib cs s <;> rfl

/-- A library of two countries: the numbers are the lengths of the texts, the odd ones of country `true`. -/
def toy : Lib Bool Nat where
  parse c s := if s = [] ∨ (c = some false ∧ s.length = 9) then none else some s.length
  country n := some (decide (n % 2 = 1))
  isValid n := decide (n < 8)

/-- All outcomes occur, and the hypotheses of `C47_several` and `C47_order` are met. -/
example : parseMany toy [true, false] (ascii "12345") = .ok [(true, 5)] ∧
    parseMany toy [true, false] (ascii "12345678") = .err .invalid ∧
    parseMany toy [true, false] (ascii "123456789") = .err .failure ∧ parseMany toy [true] (ascii "123456789") = .err .invalid := by decide
example : 2 ≤ [true, false].length ∧ ∀ c, c ∈ [true, false] ↔ c ∈ [false, true] := by decide

end Verif.Props.Phone
