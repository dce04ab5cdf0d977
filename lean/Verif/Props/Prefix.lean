import Verif.Props.TextOrder
import Verif.Props.Order

/-!
# C92: of a string that is too long only the beginning counts
-/

namespace Verif.Props.Prefix

open Verif.Line Verif.Spec.Line Verif.Spec.TextOrder Verif.Spec.Order
open Verif.Props.Line (InOrder)
open Verif.Props.TextOrder (C84_line)

theorem size_append (b : Bool) (p s : List Char) : size b (p ++ s) = size b p + size b s := by
  induction p with
  | nil => simp
  | cons c p ih => rw [List.cons_append, size_cons, size_cons, ih]; omega

/-- Checks after one that finds something do not count. -/
theorem cut {ε α : Type} {P : Prop} {e : ε} (hP : P) : ∀ (l1 l2 : List (Prop × ε)) (r : Out ε α), Decide (l1 ++ (P, e) :: l2) r →
    ∃ e', r = .err e' ∧ FirstOf (l1 ++ [(P, e)]) e' := by
  intro l1 l2 r h
  cases r with
  | ok a => exact absurd hP (h (P, e) (by simp))
  | panic => exact h.elim
  | err e' =>
    refine ⟨e', rfl, ?_⟩
    obtain ⟨before, w, after, h1, h2, h3⟩ := h
    rcases List.append_eq_append_iff.1 h1 with ⟨a, k1, k2⟩ | ⟨a, k1, k2⟩
    · cases a with
      | nil =>
        simp only [List.nil_append, List.cons.injEq, List.append_nil] at k1 k2
        obtain ⟨k2, -⟩ := k2
        exact ⟨before, w, [], by rw [k1, k2], h2, h3⟩
      | cons x a =>
        simp only [List.cons_append, List.cons.injEq] at k2
        exact absurd hP (h3 (P, e) (by rw [k1, ← k2.1]; simp))
    · cases a with
      | nil =>
        simp only [List.nil_append, List.cons.injEq, List.append_nil] at k1 k2
        obtain ⟨k2, -⟩ := k2
        exact ⟨before, w, [], by rw [k1, k2], h2, h3⟩
      | cons x a =>
        simp only [List.cons_append, List.cons.injEq] at k2
        exact ⟨before, w, a ++ [(P, e)], by rw [k1, ← k2.1]; simp, h2, h3⟩

/-- The same checks up to one that finds something give the same error. -/
theorem same {ε α β : Type} {P P' : Prop} {e : ε} (hP : P) (hP' : P') (l1 l1' l2 l2' : List (Prop × ε)) (hl : l1 = l1') (r : Out ε α) (r' : Out ε β)
    (h : Decide (l1 ++ (P, e) :: l2) r) (h' : Decide (l1' ++ (P', e) :: l2') r') : ∃ e, r = .err e ∧ r' = .err e := by
  obtain ⟨x, k1, k2⟩ := cut hP l1 l2 r h
  obtain ⟨x', k3, k4⟩ := cut hP' l1' l2' r' h'
  have : P = P' := propext ⟨fun _ => hP', fun _ => hP⟩
  subst this hl
  exact ⟨x, k1, by rw [k3, Verif.Props.Order.C84_one_error _ _ _ k2 k4]⟩

/-- The beginning is white space throughout, or it has the whole leading white space. -/
theorem leading (p s : List Char) : (∀ c ∈ p, c ∈ whiteSpace) ∧ leadingSpace (p ++ s) = p ++ leadingSpace s ∨
    trimStart p ≠ [] ∧ leadingSpace (p ++ s) = leadingSpace p ∧ trimStart (p ++ s) = trimStart p ++ s := by
  induction p with
  | nil => exact .inl ⟨fun _ k => (by cases k), rfl⟩
  | cons c p ih =>
    by_cases hc : c ∈ whiteSpace
    · simp only [leadingSpace, trimStart, List.cons_append, List.takeWhile_cons, List.dropWhile_cons, hc, decide_true, if_true, List.mem_cons, List.cons.injEq, true_and]
      rcases ih with ⟨k1, k2⟩ | k
      · refine .inl ⟨?_, k2⟩
        rintro d (rfl | hd)
        · exact hc
        · exact k1 d hd
      · exact .inr k
    · refine .inr ?_
      simp [leadingSpace, trimStart, hc]

theorem trimStart_blank (p : List Char) (h : ∀ c ∈ p, c ∈ whiteSpace) : trimStart p = [] := by
  induction p with
  | nil => rfl
  | cons c p ih =>
    simp only [trimStart, List.dropWhile_cons, h c (by simp), decide_true, if_true]
    exact ih fun d hd => h d (by simp [hd])

theorem lead_trim (p : List Char) : leadingSpace p ++ trimStart p = p := List.takeWhile_append_dropWhile

theorem early_prefix (k : Kind) (m : Nat) (p s : List Char) (hm : m < size true p) (ht : leadingSpace (p ++ s) = leadingSpace p)
    (hs : trimStart (p ++ s) = trimStart p ++ s) : EarlyForbidden k true m (p ++ s) ↔ EarlyForbidden k true m p := by
  unfold EarlyForbidden
  rw [ht, hs]
  constructor
  · rintro ⟨pre, c, post, h1, h2, h3⟩
    have hp := congrArg (size true) (lead_trim p)
    rw [size_append] at hp h3
    rcases List.append_eq_append_iff.1 h1 with ⟨a, k1, k2⟩ | ⟨a, k1, k2⟩
    · rw [k1, size_append] at h3
      omega
    · cases a with
      | nil =>
        rw [List.append_nil] at k1
        rw [← k1] at h3
        omega
      | cons x a =>
        simp only [List.cons_append, List.cons.injEq] at k2
        refine ⟨pre, c, a, ?_, h2, ?_⟩
        · rw [k1, ← k2.1]
        · rw [size_append]; exact h3
  · rintro ⟨pre, c, post, h1, h2, h3⟩
    exact ⟨pre, c, post ++ s, by rw [h1]; simp, h2, h3⟩

theorem start_prefix (p s : List Char) (h0 : trimStart p ≠ []) (ht : leadingSpace (p ++ s) = leadingSpace p)
    (hs : trimStart (p ++ s) = trimStart p ++ s) : start (p ++ s) = start p := by
  unfold start
  rw [ht, hs]
  cases h : trimStart p with
  | nil => exact absurd h h0
  | cons c q => rfl

theorem readPart_prefix (m : Nat) (p s : List Char) (hm : m < p.length) : readPart (some m) (p ++ s) = p.take (m + 1) := by
  unfold readPart
  exact List.take_append_of_le_length hm

theorem same_error (k : Kind) (b : Bool) (min trimmedMin : Option Nat) (m : Nat) (ho : InOrder min (some m))
    (hx : ¬ (b = true ∧ min = none ∧ trimmedMin ≠ none)) (p s s' : List Char) (hm : m < size b p) {α β : Type} (r : Out LineError α) (r' : Out LineError β)
    (h : Decide (line k b min trimmedMin (some m) (p ++ s)) r) (h' : Decide (line k b min trimmedMin (some m) (p ++ s')) r') :
    ∃ e, r = .err e ∧ r' = .err e := by
  have hl : ∀ s, m < size b (p ++ s) := fun s => by rw [size_append]; omega
  have hlong : ∀ s, Long b (some m) (p ++ s) := fun s => ⟨m, rfl, hl s⟩
  have hshort : ∀ s, Short b min (p ++ s) = False := by
    refine fun s => eq_false ?_
    rintro ⟨n, h1, h2⟩
    have := ho n h1 m rfl
    have := hl s
    omega
  cases trimmedMin with
  | none =>
    cases b with
    | true => exact same (hlong s) (hlong s') [] [] _ _ rfl r r' h h'
    | false =>
      unfold line at h h'
      rw [readPart_prefix _ _ _ hm, hshort] at h h'
      exact same (hlong s) (hlong s') [_, _] [_, _] [] [] rfl r r' h h'
  | some t =>
    cases b with
    | false =>
      unfold line at h h'
      rw [readPart_prefix _ _ _ hm, hshort] at h h'
      exact same (hlong s) (hlong s') [_, _] [_, _] [] [] rfl r r' h h'
    | true =>
      cases min with
      | none => exact absurd ⟨rfl, rfl, by simp⟩ hx
      | some n =>
        unfold line at h h'
        by_cases hw : ∀ c ∈ p, c ∈ whiteSpace
        · have hst : ∀ s, m < size true (start (p ++ s)) := by
            intro s
            rcases leading p s with ⟨-, k⟩ | ⟨k, -⟩
            · unfold start
              rw [k, size_append, size_append]
              omega
            · refine absurd ?_ k
              exact trimStart_blank p hw
          exact same (hst s) (hst s') [] [] _ _ rfl r r' h h'
        · have hs : ∀ s, trimStart p ≠ [] ∧ leadingSpace (p ++ s) = leadingSpace p ∧ trimStart (p ++ s) = trimStart p ++ s :=
            fun s => (leading p s).resolve_left fun k => hw k.1
          refine same (hl s) (hl s') [_, _] [_, _] [_] [_] ?_ r r' h h'
          rw [start_prefix p s (hs s).1 (hs s).2.1 (hs s).2.2, start_prefix p s' (hs s').1 (hs s').2.1 (hs s').2.2,
            propext (early_prefix k m p s hm (hs s).2.1 (hs s).2.2), propext (early_prefix k m p s' hm (hs s').2.1 (hs s').2.2)]

/-- C92: what follows a beginning that exceeds the maximum does not change the error. Missing: `byte_length` with a maximum and no minimum, and
`trimmed_min`. -/
theorem C92_beginning_partial (k : Kind) (b : Bool) (min trimmedMin : Option Nat) (m : Nat) (ho : InOrder min (some m))
    (hx : ¬ (b = true ∧ min = none ∧ trimmedMin ≠ none)) (p s s' : List Char) (hm : m < size b p) :
    ∃ e, parseStr k b min trimmedMin (some m) (p ++ s) = .err e ∧ parseStr k b min trimmedMin (some m) (p ++ s') = .err e ∧
      validateStr k b min trimmedMin (some m) (p ++ s) = .err e ∧ validateStr k b min trimmedMin (some m) (p ++ s') = .err e := by
  have A := C84_line k b min trimmedMin (some m) (p ++ s) ho
  have B := C84_line k b min trimmedMin (some m) (p ++ s') ho
  obtain ⟨e, e1, e2⟩ := same_error k b min trimmedMin m ho hx p s s' hm _ _ A.1 B.1
  obtain ⟨f, f1, f2⟩ := same_error k b min trimmedMin m ho hx p s s hm _ _ A.1 A.2
  obtain ⟨g, g1, g2⟩ := same_error k b min trimmedMin m ho hx p s s' hm _ _ A.1 B.2
  rw [e1] at f1 g1
  cases f1; cases g1
  exact ⟨e, e1, e2, f2, g2⟩

/-- C92 in the remaining case: the string is refused all the same. -/
theorem C92_refused (k : Kind) (b : Bool) (min trimmedMin : Option Nat) (m : Nat) (ho : InOrder min (some m)) (p s : List Char) (hm : m < size b p) :
    (∃ e, parseStr k b min trimmedMin (some m) (p ++ s) = .err e) ∧ ∃ e, validateStr k b min trimmedMin (some m) (p ++ s) = .err e := by
  by_cases hx : b = true ∧ min = none ∧ trimmedMin ≠ none
  · obtain ⟨rfl, rfl, hx⟩ := hx
    cases trimmedMin with
    | none => exact absurd rfl hx
    | some t =>
      have hl : m < size true (p ++ s) := by rw [size_append]; omega
      have A := C84_line k true none (some t) (some m) (p ++ s) ho
      obtain ⟨e, h, -⟩ := cut hl [_, _, _] [] _ A.1
      obtain ⟨f, h', -⟩ := cut hl [_, _, _] [] _ A.2
      exact ⟨⟨e, h⟩, f, h'⟩
  · obtain ⟨e, h1, -, h2, -⟩ := C92_beginning_partial k b min trimmedMin m ho hx p s s hm
    exact ⟨⟨e, h1⟩, e, h2⟩

/-- C92 is false in the remaining case: `byte_length(max = 2, trimmed_min = 2)` reads on, so that the end of the string decides between all
three errors. -/
theorem C92_violated (k : Kind) : 2 < size true "a  ".toList ∧ InOrder none (some 2) ∧
    parseStr k true none (some 2) (some 2) ("a  ".toList ++ "b".toList) = .err .tooLong ∧
    parseStr k true none (some 2) (some 2) ("a  ".toList ++ " ".toList) = .err .tooShort ∧
    parseStr k true none (some 2) (some 2) ("a  ".toList ++ "\x00".toList) = .err .invalid := by
  cases k <;> exact ⟨by decide +kernel, (fun _ k => by cases k), by decide +kernel, by decide +kernel, by decide +kernel⟩

/-- Beginnings and what follows them. -/
example : 3 < size false "abcd".toList ∧ InOrder (some 1) (some 3) ∧
    parseStr .line false (some 1) none (some 3) ("abcd".toList ++ "\x00".toList) = .err .tooLong ∧
    parseStr .line false (some 1) none (some 3) ("ab\x00d".toList ++ "x".toList) = .err .invalid ∧
    parseStr .line true (some 1) (some 1) (some 3) ("abcd".toList ++ "\x00".toList) = .err .tooLong ∧
    parseStr .line true (some 1) (some 1) (some 3) (" \x00cd".toList ++ "x".toList) = .err .invalid := by
  refine ⟨by decide +kernel, ?_, by decide +kernel, by decide +kernel, by decide +kernel, by decide +kernel⟩
  rintro _ ⟨⟩ _ ⟨⟩; omega

end Verif.Props.Prefix
