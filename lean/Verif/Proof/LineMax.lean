import Verif.Model.LineMax
import Verif.Proof.Line

/-!
# Lemmas for C73
-/

namespace Verif.Line

open Verif.Spec.Line (size Clean)

theorem inner_early (k : Kind) (b : Bool) (m : Nat) (cs : List Char) (counter trimmed temp : Nat)
    (h : counter + size b cs ≤ m) : inner k b (some m) cs counter trimmed temp = inner k b none cs counter trimmed temp := by
  induction cs generalizing counter trimmed temp with
  | nil => rfl
  | cons c cs ih =>
    rw [size_cons] at h
    have h1 : ¬ counter + step b c > m := by omega
    simp only [inner, tooLong, h1, decide_false, Bool.false_eq_true, if_false]
    rw [ih _ _ _ (by omega), ih _ _ _ (by omega)]

theorem outer_early (k : Kind) (b : Bool) (m : Nat) (cs : List Char) (counter : Nat) (h : counter + size b cs ≤ m) :
    outer k b (some m) none cs counter = outer k b none none cs counter ∧
    outer k b (some m) (some m) cs counter = outer k b none none cs counter := by
  induction cs generalizing counter with
  | nil => exact ⟨rfl, rfl⟩
  | cons c cs ih =>
    rw [size_cons] at h
    have h1 : ¬ counter + step b c > m := by omega
    have h2 := ih (counter + step b c) (by omega)
    simp only [outer, tooLong, h1, decide_false, Bool.false_eq_true, if_false, h2.1, h2.2,
      inner_early k b m cs (counter + step b c) (step b c) 0 (by omega), true_and]

theorem check_take (k : Kind) (min trimmedMin : Option Nat) (m : Nat) (s : List Char) :
    check k false min trimmedMin (some m) (s.take (m + 1)) = check k false min trimmedMin (some m) s := by
  cases min <;> cases trimmedMin <;> simp [check, List.take_take]

theorem outer_counter (k : Kind) (b : Bool) (s : List Char) (n : Nat) (c : Nat) (t : Option Nat)
    (h : outer k b none none s n = .ok (c, t)) : c = n + size b s := by
  have inner_counter : ∀ (cs : List Char) (n tr te c t : Nat), inner k b none cs n tr te = .ok (c, t) → c = n + size b cs := by
    intro cs
    induction cs with
    | nil => intro n tr te c t h; simp only [inner, Out.ok.injEq, Prod.mk.injEq] at h; simp [h.1]
    | cons x cs ih =>
      intro n tr te c t h
      simp only [inner, tooLong, Bool.false_eq_true, if_false] at h
      rw [size_cons]
      split at h
      · cases h
      · split at h <;> have := ih _ _ _ _ _ h <;> omega
  induction s generalizing n with
  | nil => simp only [outer, Out.ok.injEq, Prod.mk.injEq] at h; simp [h.1]
  | cons x cs ih =>
    simp only [outer, tooLong, Bool.false_eq_true, if_false] at h
    rw [size_cons]
    split at h
    · have := ih _ h; omega
    · split at h
      · cases h
      · cases hi : inner k b none cs (n + step b x) (step b x) 0 with
        | ok p =>
          obtain ⟨c', t'⟩ := p
          rw [hi] at h
          simp only [Out.map, Out.ok.injEq, Prod.mk.injEq] at h
          have := inner_counter _ _ _ _ _ _ hi
          omega
        | err e => rw [hi] at h; simp [Out.map] at h
        | panic => rw [hi] at h; simp [Out.map] at h

theorem countChars_counter (k : Kind) (s : List Char) (n c : Nat) (h : countChars k s n = .ok c) : c = n + s.length := by
  induction s generalizing n with
  | nil => simp only [countChars, Out.ok.injEq] at h; simp [h]
  | cons x cs ih =>
    simp only [countChars] at h
    split at h
    · cases h
    · have := ih _ h; simp only [List.length_cons]; omega

theorem bind_congr {ε α β : Type} (x : Out ε α) (f g : α → Out ε β) (h : ∀ a, x = .ok a → f a = g a) : x.bind f = x.bind g := by
  cases x with
  | ok a => exact h a rfl
  | err e => rfl
  | panic => rfl

/-- A maximum that the string does not exceed changes nothing. -/
theorem check_max (k : Kind) (b : Bool) (min trimmedMin : Option Nat) (m : Nat) (s : List Char) (h : size b s ≤ m) :
    check k b min trimmedMin (some m) s = check k b min trimmedMin none s := by
  have ho := outer_early k b m s 0 (by omega)
  cases b with
  | true =>
    have hb : ¬ (BaseN.strBytes s).length > m := by simpa [size] using h
    cases min <;> cases trimmedMin <;> simp only [check, if_true, hb, if_false, ho.1, ho.2]
    all_goals
      apply bind_congr
      rintro ⟨c, t⟩ hc
      have hc := outer_counter _ _ _ _ _ _ hc
      cases t <;> grind
  | false =>
    have hl : s.length ≤ m := h
    have ht : s.take (m + 1) = s := List.take_of_length_le (by omega)
    cases min <;> cases trimmedMin <;> simp only [check, Bool.false_eq_true, if_false, ht]
    · by_cases hc : Clean k s
      · rw [(checkBytes_spec k s).1 hc, (countChars_spec k s 0).1 hc]
        simp [hl]
      · rw [(checkBytes_spec k s).2 hc, (countChars_spec k s 0).2 hc]
        rfl
    · apply bind_congr
      rintro ⟨c, t⟩ hc
      have hc := outer_counter _ _ _ _ _ _ hc
      have : size false s = s.length := rfl
      cases t <;> grind
    · apply bind_congr
      rintro c hc
      have hc := countChars_counter _ _ _ _ hc
      grind
    · apply bind_congr
      rintro ⟨c, t⟩ hc
      have hc := outer_counter _ _ _ _ _ _ hc
      have : size false s = s.length := rfl
      cases t <;> grind

end Verif.Line
