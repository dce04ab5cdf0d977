import Verif.Spec.Phone

/-!
# Lemmas on the `phone` validator
-/

namespace Verif.Phone

open Verif.Spec.Phone

variable {C N : Type} [DecidableEq C]

theorem numberOf_unique {lib : Lib C N} {c : C} {s : List UInt8} {n k : N} (h : NumberOf lib c s n) (h' : NumberOf lib c s k) :
    n = k := Option.some.inj (h.1.symm.trans h'.1)

theorem mem_insert (m : Map C N) (c d : C) (n k : N) : (d, k) ∈ Map.insert m c n ↔ (d = c ∧ k = n) ∨ ((d, k) ∈ m ∧ d ≠ c) := by
  simp [Map.insert]

theorem keys_insert (m : Map C N) (c : C) (n : N) (h : (m.map (·.1)).Nodup) : ((Map.insert m c n).map (·.1)).Nodup := by
  simp only [Map.insert, List.map_cons, List.nodup_cons]
  constructor
  · simp
  · exact List.Nodup.sublist (List.Sublist.map _ List.filter_sublist) h

/-- The statements fail exactly when the text is not readable for one of the countries; otherwise they add the entries of the
countries to the map. -/
theorem steps_spec (lib : Lib C N) (s : List UInt8) : ∀ (cs : List C) (m : Map C N),
    (steps lib s cs m = .err .failure ∧ ¬ ∀ c ∈ cs, Readable lib c s) ∨
    (∃ m', steps lib s cs m = .ok m' ∧ (∀ c ∈ cs, Readable lib c s) ∧
      (∀ c n, (c, n) ∈ m' ↔ (c ∈ cs ∧ NumberOf lib c s n) ∨ ((c, n) ∈ m ∧ ¬ ∃ k, c ∈ cs ∧ NumberOf lib c s k)) ∧
      ((m.map (·.1)).Nodup → (m'.map (·.1)).Nodup)) := by
  intro cs
  induction cs with
  | nil => intro m; exact .inr ⟨m, rfl, by simp, by simp, id⟩
  | cons c cs ih =>
    intro m
    unfold steps
    cases hp : lib.parse (some c) s with
    | none =>
      left
      exact ⟨rfl, fun h => by obtain ⟨n, hn⟩ := h c (by simp); rw [hp] at hn; cases hn⟩
    | some n =>
      have hr : Readable lib c s := ⟨n, hp⟩
      have skip : (¬ ∃ k, NumberOf lib c s k) →
          (steps lib s cs m = .err .failure ∧ ¬ ∀ d ∈ c :: cs, Readable lib d s) ∨
          (∃ m', steps lib s cs m = .ok m' ∧ (∀ d ∈ c :: cs, Readable lib d s) ∧
            (∀ d k, (d, k) ∈ m' ↔ (d ∈ c :: cs ∧ NumberOf lib d s k) ∨ ((d, k) ∈ m ∧ ¬ ∃ k, d ∈ c :: cs ∧ NumberOf lib d s k)) ∧
            ((m.map (·.1)).Nodup → (m'.map (·.1)).Nodup)) := by
        intro hno
        rcases ih m with ⟨e, h⟩ | ⟨m', e, h, hm, hk⟩
        · exact .inl ⟨e, fun k => h fun d hd => k d (by simp [hd])⟩
        · refine .inr ⟨m', e, ?_, ?_, hk⟩
          · intro d hd
            rcases List.mem_cons.mp hd with rfl | hd
            · exact hr
            · exact h d hd
          · intro d k
            rw [hm]
            grind
      have add : NumberOf lib c s n →
          (steps lib s cs (Map.insert m c n) = .err .failure ∧ ¬ ∀ d ∈ c :: cs, Readable lib d s) ∨
          (∃ m', steps lib s cs (Map.insert m c n) = .ok m' ∧ (∀ d ∈ c :: cs, Readable lib d s) ∧
            (∀ d k, (d, k) ∈ m' ↔ (d ∈ c :: cs ∧ NumberOf lib d s k) ∨ ((d, k) ∈ m ∧ ¬ ∃ k, d ∈ c :: cs ∧ NumberOf lib d s k)) ∧
            ((m.map (·.1)).Nodup → (m'.map (·.1)).Nodup)) := by
        intro hno
        rcases ih (Map.insert m c n) with ⟨e, h⟩ | ⟨m', e, h, hm, hk⟩
        · exact .inl ⟨e, fun k => h fun d hd => k d (by simp [hd])⟩
        · refine .inr ⟨m', e, ?_, ?_, fun x => hk (keys_insert m c n x)⟩
          · intro d hd
            rcases List.mem_cons.mp hd with rfl | hd
            · exact hr
            · exact h d hd
          · intro d k
            rw [hm, mem_insert]
            have hu : ∀ k, NumberOf lib c s k → k = n := fun k h => numberOf_unique h hno
            grind
      cases hc : lib.country n with
      | none =>
        simp only [hc]
        refine skip ?_
        rintro ⟨k, h1, h2, -⟩
        rw [hp] at h1
        cases h1
        rw [hc] at h2
        cases h2
      | some id =>
        simp only [hc]
        by_cases hv : id = c ∧ lib.isValid n = true
        · rw [if_pos hv]
          exact add ⟨hp, by rw [hc, hv.1], hv.2⟩
        · rw [if_neg hv]
          refine skip ?_
          rintro ⟨k, h1, h2, h3⟩
          rw [hp] at h1
          cases h1
          rw [hc] at h2
          cases h2
          exact hv ⟨rfl, h3⟩

theorem parseMany_spec (lib : Lib C N) (cs : List C) (s : List UInt8) :
    (parseMany lib cs s = .err .failure ∧ ¬ ∀ c ∈ cs, Readable lib c s) ∨
    (parseMany lib cs s = .err .invalid ∧ (∀ c ∈ cs, Readable lib c s) ∧ ¬ ∃ c ∈ cs, ∃ n, NumberOf lib c s n) ∨
    (∃ m, parseMany lib cs s = .ok m ∧ (∀ c ∈ cs, Readable lib c s) ∧ (∃ c ∈ cs, ∃ n, NumberOf lib c s n) ∧ MapsExactly lib cs s m ∧
      (m.map (·.1)).Nodup) := by
  unfold parseMany
  rcases steps_spec lib s cs [] with ⟨e, h⟩ | ⟨m, e, h, hm, hk⟩
  · exact .inl ⟨by rw [e]; rfl, h⟩
  · rw [e]
    have hx : MapsExactly lib cs s m := by
      intro c n
      rw [hm]
      simp
    cases m with
    | nil =>
      refine .inr (.inl ⟨rfl, h, ?_⟩)
      rintro ⟨c, hc, n, hn⟩
      exact absurd ((hx c n).mpr ⟨hc, hn⟩) (by simp)
    | cons x m =>
      refine .inr (.inr ⟨_, rfl, h, ?_, hx, hk (by simp)⟩)
      obtain ⟨hc, hn⟩ := (hx x.1 x.2).mp (by simp)
      exact ⟨x.1, hc, x.2, hn⟩

end Verif.Phone
