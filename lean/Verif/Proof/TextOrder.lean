import Verif.Spec.TextOrder
import Verif.Proof.Order
import Verif.Proof.Line
import Verif.Proof.BaseN
import Verif.Model.Uuid
import Verif.Model.Mac

/-! The order of the checks of `line`, `text`, the base-N texts, `uuid` and `mac_address`: lemmas. -/

namespace Verif.TextOrder

open Verif.Spec Verif.Spec.Line Verif.Spec.Order Verif.Spec.TextOrder Verif.Order Verif.Line
open Verif.BaseN (strBytes)

theorem leadingSpace_ws {c : Char} {cs : List Char} (h : isWhitespace c = true) : leadingSpace (c :: cs) = c :: leadingSpace cs := by
  simp [leadingSpace, whiteSpace_fun, h]

theorem leadingSpace_nws {c : Char} {cs : List Char} (h : ¬ isWhitespace c = true) : leadingSpace (c :: cs) = [] := by
  simp [leadingSpace, whiteSpace_fun, h]

theorem start_ws {c : Char} {cs : List Char} (h : isWhitespace c = true) : start (c :: cs) = c :: start cs := by
  simp [start, leadingSpace_ws h, trimStart_ws h]

theorem start_nws {c : Char} {cs : List Char} (h : ¬ isWhitespace c = true) : start (c :: cs) = [c] := by
  simp [start, leadingSpace_nws h, trimStart_nws h]

/-- Too long before the first character that counts. -/
theorem outer_long (k : Kind) (b : Bool) (eo ei : Option Nat) (s : List Char) (n : Nat) (h0 : tooLong eo n = false)
    (h : tooLong eo (n + size b (start s)) = true) : outer k b eo ei s n = .err .tooLong := by
  induction s generalizing n with
  | nil => rw [show start [] = [] from rfl, size_nil, Nat.add_zero, h0] at h; cases h
  | cons c cs ih =>
    unfold outer
    by_cases ht : tooLong eo (n + step b c) = true
    · simp only [ht, if_true]
    · have ht' : tooLong eo (n + step b c) = false := by simpa using ht
      simp only [ht', Bool.false_eq_true, if_false]
      by_cases hw : isWhitespace c = true
      · simp only [hw, if_true]
        rw [start_ws hw, size_cons, ← Nat.add_assoc] at h
        exact ih _ ht' h
      · rw [start_nws hw, size_cons, size_nil, Nat.add_zero, ht'] at h
        cases h

theorem inner_not_long (k : Kind) (b : Bool) (cs : List Char) (n t u : Nat) : inner k b none cs n t u ≠ .err .tooLong := by
  intro h
  have := inner_spec k b none cs n t u rfl
  rw [h] at this
  cases this

/-- Otherwise it is not too long for the outer loop. -/
theorem outer_not_long (k : Kind) (b : Bool) (eo : Option Nat) (s : List Char) (n : Nat) (h : tooLong eo (n + size b (start s)) = false) :
    outer k b eo none s n ≠ .err .tooLong := by
  induction s generalizing n with
  | nil => simp [outer]
  | cons c cs ih =>
    unfold outer
    by_cases hw : isWhitespace c = true
    · rw [start_ws hw, size_cons, ← Nat.add_assoc] at h
      have ht : tooLong eo (n + step b c) = false := by
        cases k : tooLong eo (n + step b c) with
        | false => rfl
        | true => rw [tooLong_mono (by omega) k] at h; cases h
      simp only [ht, Bool.false_eq_true, if_false, hw, if_true]
      exact ih _ h
    · rw [start_nws hw, size_cons, size_nil, Nat.add_zero] at h
      simp only [h, Bool.false_eq_true, if_false, hw]
      split
      · simp
      · cases hi : inner k b none cs (n + step b c) (step b c) 0 with
        | ok p => simp
        | panic => simp
        | err e =>
          intro k'
          cases k'
          exact inner_not_long _ _ _ _ _ _ hi

theorem inner_invalid (k : Kind) (b : Bool) (m : Nat) (cs : List Char) (n t u : Nat) (h0 : n ≤ m) :
    inner k b (some m) cs n t u = .err .invalid ↔ ∃ pre c post, cs = pre ++ c :: post ∧ Forbidden k c ∧ n + size b pre ≤ m := by
  induction cs generalizing n t u with
  | nil => simp [inner]
  | cons d cs ih =>
    unfold inner
    by_cases hb : bad k d.toNat = true
    · simp only [hb, if_true]
      exact ⟨fun _ => ⟨[], d, cs, rfl, (bad_iff k d).1 hb, by simpa using h0⟩, fun _ => trivial⟩
    · simp only [hb, Bool.false_eq_true, if_false]
      have hstep : (∃ pre c post, d :: cs = pre ++ c :: post ∧ Forbidden k c ∧ n + size b pre ≤ m) ↔
          ∃ pre c post, cs = pre ++ c :: post ∧ Forbidden k c ∧ n + step b d + size b pre ≤ m := by
        constructor
        · rintro ⟨pre, c, post, h1, h2, h3⟩
          cases pre with
          | nil => cases h1; exact absurd ((bad_iff k _).2 h2) hb
          | cons e pre =>
            cases h1
            exact ⟨pre, c, post, rfl, h2, by rw [size_cons] at h3; omega⟩
        · rintro ⟨pre, c, post, rfl, h2, h3⟩
          exact ⟨d :: pre, c, post, rfl, h2, by rw [size_cons]; omega⟩
      rw [hstep]
      by_cases ht : n + step b d ≤ m
      · have : tooLong (some m) (n + step b d) = false := by simpa [tooLong] using ht
        simp only [this, Bool.false_eq_true, if_false]
        split
        · exact ih _ _ _ ht
        · exact ih _ _ _ ht
      · have : tooLong (some m) (n + step b d) = true := by simpa [tooLong] using ht
        simp only [this, if_true]
        refine ⟨fun h => by simp at h, ?_⟩
        rintro ⟨pre, c, post, -, -, h⟩
        omega

theorem outer_invalid (k : Kind) (b : Bool) (m : Nat) (s : List Char) (n : Nat) (h : n + size b (start s) ≤ m) :
    outer k b (some m) (some m) s n = .err .invalid ↔
      ∃ pre c post, trimStart s = pre ++ c :: post ∧ Forbidden k c ∧ n + size b (leadingSpace s ++ pre) ≤ m := by
  induction s generalizing n with
  | nil => simp [outer, trimStart]
  | cons d cs ih =>
    unfold outer
    by_cases hw : isWhitespace d = true
    · rw [start_ws hw, size_cons, ← Nat.add_assoc] at h
      have ht : tooLong (some m) (n + step b d) = false := by simp [tooLong]; omega
      simp only [ht, Bool.false_eq_true, if_false, hw, if_true]
      rw [ih _ h, trimStart_ws hw, leadingSpace_ws hw]
      simp only [List.cons_append, size_cons, Nat.add_assoc]
    · rw [start_nws hw, size_cons, size_nil, Nat.add_zero] at h
      have ht : tooLong (some m) (n + step b d) = false := by simp [tooLong]; omega
      simp only [ht, Bool.false_eq_true, if_false, hw]
      rw [trimStart_nws hw, leadingSpace_nws hw]
      by_cases hb : bad k d.toNat = true
      · simp only [hb, if_true, List.nil_append]
        exact ⟨fun _ => ⟨[], d, cs, rfl, (bad_iff k d).1 hb, by simp; omega⟩, fun _ => trivial⟩
      · simp only [hb, Bool.false_eq_true, if_false, List.nil_append]
        have e : ∀ r : Out LineError (Nat × Nat), (r.map fun p => (p.1, some p.2)) = .err .invalid ↔ r = .err .invalid := by
          intro r
          cases r <;> simp
        rw [e, inner_invalid k b m cs _ _ _ h]
        constructor
        · rintro ⟨pre, c, post, rfl, h2, h3⟩
          exact ⟨d :: pre, c, post, rfl, h2, by rw [size_cons]; omega⟩
        · rintro ⟨pre, c, post, h1, h2, h3⟩
          cases pre with
          | nil => cases h1; exact absurd ((bad_iff k _).2 h2) hb
          | cons e pre =>
            cases h1
            exact ⟨pre, c, post, rfl, h2, by rw [size_cons] at h3; omega⟩

/-- The loops without an early end: the first failure is that of a character. -/
theorem outer_plain (k : Kind) (b : Bool) (s : List Char) (l : List (Prop × LineError)) (f : Nat × Option Nat → Out LineError Unit)
    (h1 : Clean k (trimStart s) → Decide l (f (size b s, some (size b (trim s)))))
    (h2 : trimStart s = [] → Decide l (f (size b s, none))) :
    Decide ((¬ Clean k (trimStart s), .invalid) :: l) ((outer k b none none s 0).bind f) := by
  have h := outer_spec k b none none (.inl rfl) s 0 rfl
  revert h
  rcases outer k b none none s 0 with ⟨n, _ | t⟩ | e | _
  · rintro ⟨h, rfl, -⟩
    rw [Nat.zero_add]
    exact decide_skip _ _ _ _ (fun k' => k' (by rw [h]; exact clean_nil k)) (h2 h)
  · rintro ⟨h, rfl, rfl, -⟩
    rw [Nat.zero_add]
    exact decide_skip _ _ _ _ (fun k' => k' h) (h1 h)
  · cases e with
    | invalid => intro h; exact decide_err _ _ _ h
    | tooLong => intro h; cases h
    | tooShort => intro h; cases h
  · intro h; cases h

theorem trim_zero (b : Bool) {s : List Char} (h : trimStart s = []) : size b (trim s) = 0 := by rw [trim_nil_of h, size_nil]

/-- Too short, then too long, then accepted. -/
theorem two (a c : Prop) [Decidable a] [Decidable c] (A C : Prop) (ha : a ↔ A) (hc : c ↔ C) (e e' : LineError) :
    Decide [(A, e), (C, e')] (if a then .err e else if c then .err e' else .ok () : Out LineError Unit) := by
  by_cases h : a
  · rw [if_pos h]; exact decide_err _ _ _ (ha.1 h)
  · rw [if_neg h]
    refine decide_skip _ _ _ _ (fun k => h (ha.2 k)) ?_
    by_cases h' : c
    · rw [if_pos h']; exact decide_err _ _ _ (hc.1 h')
    · rw [if_neg h']
      exact decide_skip _ _ _ _ (fun k => h' (hc.2 k)) ((decide_nil _).2 ⟨(), rfl⟩)

theorem one (a : Prop) [Decidable a] (A : Prop) (ha : a ↔ A) (e : LineError) :
    Decide [(A, e)] (if a then .err e else .ok () : Out LineError Unit) := by
  by_cases h : a
  · rw [if_pos h]; exact decide_err _ _ _ (ha.1 h)
  · rw [if_neg h]
    exact decide_skip _ _ _ _ (fun k => h (ha.2 k)) ((decide_nil _).2 ⟨(), rfl⟩)

theorem bytes_last (k : Kind) (s : List Char) : Decide [(¬ Clean k s, .invalid)] (checkBytes k (strBytes s)) := by
  by_cases h : Clean k s
  · rw [(checkBytes_spec k s).1 h]
    exact decide_skip _ _ _ _ (fun k' => k' h) ((decide_nil _).2 ⟨(), rfl⟩)
  · rw [(checkBytes_spec k s).2 h]
    exact decide_err _ _ _ h

theorem count_first (k : Kind) (s : List Char) (l : List (Prop × LineError)) (f : Nat → Out LineError Unit) (h : Decide l (f s.length)) :
    Decide ((¬ Clean k s, .invalid) :: l) ((countChars k s 0).bind f) := by
  by_cases hc : Clean k s
  · rw [(countChars_spec k s 0).1 hc, Nat.zero_add]
    exact decide_skip _ _ _ _ (fun k' => k' hc) h
  · rw [(countChars_spec k s 0).2 hc]
    exact decide_err _ _ _ hc

theorem long_none (b : Bool) (s : List Char) : ¬ Long b none s := by rintro ⟨m, h, -⟩; cases h

theorem short_none (b : Bool) (s : List Char) : ¬ Short b none s := by rintro ⟨m, h, -⟩; cases h

theorem long_some (b : Bool) (m : Nat) (s : List Char) : Long b (some m) s ↔ m < size b s := by simp [Long]

theorem short_some (b : Bool) (m : Nat) (s : List Char) : Short b (some m) s ↔ size b s < m := by simp [Short]

theorem decide_three {ε : Type} {A C : Prop} {e e' : ε} (r : Out ε Unit) (h1 : A → r = .err e) (h2 : ¬ A → C → r = .err e')
    (h3 : ¬ A → ¬ C → r = .ok ()) : Decide [(A, e), (C, e')] r := by
  by_cases h : A
  · rw [h1 h]; exact decide_err _ _ _ h
  refine decide_skip _ _ _ _ h ?_
  by_cases h' : C
  · rw [h2 h h']; exact decide_err _ _ _ h'
  rw [h3 h h']
  exact decide_skip _ _ _ _ h' ((decide_nil _).2 ⟨(), rfl⟩)

theorem decide_two {ε : Type} {A : Prop} {e : ε} (r : Out ε Unit) (h1 : A → r = .err e) (h2 : ¬ A → r = .ok ()) : Decide [(A, e)] r := by
  by_cases h : A
  · rw [h1 h]; exact decide_err _ _ _ h
  rw [h2 h]
  exact decide_skip _ _ _ _ h ((decide_nil _).2 ⟨(), rfl⟩)

theorem line_checks (k : Kind) (b : Bool) (min trimmedMin max : Option Nat) (s : List Char) (ho : ∀ m, min = some m → ∀ n, max = some n → m ≤ n) :
    Decide (TextOrder.line k b min trimmedMin max s) (check k b min trimmedMin max s) := by
  cases trimmedMin with
  | none =>
    cases b with
    | true =>
      unfold TextOrder.line
      have sz : size true s = (strBytes s).length := rfl
      simp only
      cases max with
      | some m =>
        rw [long_some]
        cases min with
        | some n =>
          rw [short_some]
          unfold check
          simp only [if_true]
          by_cases h : (strBytes s).length > m
          · rw [if_pos h]; exact decide_err _ _ _ h
          rw [if_neg h]
          refine decide_skip _ _ _ _ h ?_
          by_cases h' : (strBytes s).length < n
          · rw [if_pos h']; exact decide_err _ _ _ h'
          rw [if_neg h']
          exact decide_skip _ _ _ _ h' (bytes_last k s)
        | none =>
          unfold check
          simp only [if_true]
          by_cases h : (strBytes s).length > m
          · rw [if_pos h]; exact decide_err _ _ _ h
          rw [if_neg h]
          exact decide_skip _ _ _ _ h (decide_skip _ _ _ _ (short_none _ _) (bytes_last k s))
      | none =>
        refine decide_skip _ _ _ _ (long_none _ _) ?_
        cases min with
        | some n =>
          rw [short_some]
          unfold check
          simp only [if_true]
          by_cases h' : (strBytes s).length < n
          · rw [if_pos h']; exact decide_err _ _ _ h'
          rw [if_neg h']
          exact decide_skip _ _ _ _ h' (bytes_last k s)
        | none => exact decide_skip _ _ _ _ (short_none _ _) (bytes_last k s)
    | false =>
      unfold TextOrder.line
      simp only
      cases max with
      | some m =>
        cases min with
        | some n =>
          have := ho n rfl m rfl
          unfold check
          simp only [Bool.false_eq_true, if_false]
          refine count_first k _ _ _ ?_
          refine two _ _ _ _ ?_ ?_ _ _
          · rw [short_some, size_false]; simp only [readPart, List.length_take]; omega
          · rw [long_some, size_false]; simp only [readPart, List.length_take]; omega
        | none =>
          unfold check
          simp only [Bool.false_eq_true, if_false]
          refine count_first k _ _ _ (decide_skip _ _ _ _ (short_none _ _) ?_)
          have := one (¬ (readPart (some m) s).length ≤ m) (Long false (some m) s) (by
            rw [long_some, size_false]; simp only [readPart, List.length_take]; omega) .tooLong
          rwa [ite_not] at this
      | none =>
        cases min with
        | some n =>
          unfold check
          simp only [Bool.false_eq_true, if_false]
          refine count_first k _ _ _ ?_
          have := two (¬ (readPart none s).length ≥ n) False (Short false (some n) s) (Long false none s) (by
            rw [short_some, size_false]; simp only [readPart]; omega) (by simp [long_none]) .tooShort .tooLong
          rwa [ite_not, if_neg not_false] at this
        | none =>
          have h1 : check k false none none none s = (countChars k s 0).bind fun _ => .ok () := by
            show checkBytes k (strBytes s) = _
            by_cases hc : Clean k s
            · rw [(checkBytes_spec k s).1 hc, (countChars_spec k s 0).1 hc]; rfl
            · rw [(checkBytes_spec k s).2 hc, (countChars_spec k s 0).2 hc]; rfl
          rw [h1]
          exact count_first k _ _ _ (decide_skip _ _ _ _ (short_none _ _) (decide_skip _ _ _ _ (long_none _ _) ((decide_nil _).2 ⟨(), rfl⟩)))
  | some t =>
    cases b with
    | false =>
      unfold TextOrder.line
      simp only
      cases max with
      | some m =>
        have hm : m < (readPart (some m) s).length ↔ m < s.length := by simp only [readPart, List.length_take]; omega
        cases min with
        | some n =>
          have := ho n rfl m rfl
          have hn : (readPart (some m) s).length < n ↔ s.length < n := by simp only [readPart, List.length_take]; omega
          unfold check
          simp only [Bool.false_eq_true, if_false]
          refine outer_plain k false (readPart (some m) s) _ _ (fun _ => ?_) fun h0 => ?_
          · rw [short_some, long_some, size_false s, size_false (readPart (some m) s), ← hm, ← hn]
            refine decide_three _ ?_ ?_ ?_
            · intro h; simp only; rw [if_neg (by omega)]
            · intro h h'; simp only; rw [if_pos (by omega), if_neg (by omega)]
            · intro h h'; simp only; rw [if_pos (by omega), if_pos (by omega)]
          · rw [short_some, long_some, size_false s, size_false (readPart (some m) s), ← hm, ← hn, trim_zero false h0]
            refine decide_three _ ?_ ?_ ?_
            · intro h; simp only; repeat' split
              all_goals first | rfl | omega
            · intro h h'; simp only; rw [if_pos (by omega), if_neg (by omega), if_pos (by omega)]
            · intro h h'; simp only; rw [if_pos (by omega), if_neg (by omega), if_neg (by omega)]
        | none =>
          unfold check
          simp only [Bool.false_eq_true, if_false]
          refine outer_plain k false (readPart (some m) s) _ _ (fun _ => ?_) fun h0 => ?_
          · rw [or_iff_left (short_none _ _), long_some, size_false s, size_false (readPart (some m) s), ← hm]
            refine decide_three _ ?_ ?_ ?_
            · intro h; simp only; rw [if_neg (by omega)]
            · intro h h'; simp only; rw [if_pos (by omega), if_neg (by omega)]
            · intro h h'; simp only; rw [if_pos (by omega), if_pos (by omega)]
          · rw [or_iff_left (short_none _ _), long_some, size_false s, size_false (readPart (some m) s), ← hm, trim_zero false h0]
            refine decide_three _ ?_ ?_ ?_
            · intro h; simp only; rw [if_neg (by omega)]
            · intro h h'; simp only; rw [if_pos (by omega), if_neg (by omega)]
            · intro h h'; simp only; rw [if_pos (by omega), if_pos (by omega)]
      | none =>
        cases min with
        | some n =>
          unfold check
          simp only
          refine outer_plain k false s _ _ (fun _ => ?_) fun h0 => ?_
          · rw [short_some, show readPart none s = s from rfl]
            refine decide_three _ ?_ ?_ ?_
            · intro h; simp only; rw [if_neg (by omega)]
            · intro h h'; exact absurd h' (long_none _ _)
            · intro h h'; simp only; rw [if_pos (by omega)]
          · rw [short_some, show readPart none s = s from rfl, trim_zero false h0]
            refine decide_three _ ?_ ?_ ?_
            · intro h; simp only; repeat' split
              all_goals first | rfl | omega
            · intro h h'; exact absurd h' (long_none _ _)
            · intro h h'; simp only; rw [if_pos (by omega), if_pos (by omega)]
        | none =>
          unfold check
          simp only
          refine outer_plain k false s _ _ (fun _ => ?_) fun h0 => ?_
          · rw [or_iff_left (short_none _ _), show readPart none s = s from rfl]
            refine decide_three _ ?_ ?_ ?_
            · intro h; simp only; rw [if_neg (by omega)]
            · intro h h'; exact absurd h' (long_none _ _)
            · intro h h'; simp only; rw [if_pos (by omega)]
          · rw [or_iff_left (short_none _ _), show readPart none s = s from rfl, trim_zero false h0]
            refine decide_three _ ?_ ?_ ?_
            · intro h; simp only; rw [if_neg (by omega)]
            · intro h h'; exact absurd h' (long_none _ _)
            · intro h h'; simp only; rw [if_pos (by omega)]
    | true =>
      cases max with
      | none =>
        unfold TextOrder.line
        simp only
        cases min with
        | some n =>
          unfold check
          simp only
          refine outer_plain k true s _ _ (fun _ => ?_) fun h0 => ?_
          · rw [short_some]
            refine decide_two _ ?_ ?_
            · intro h; simp only; rw [if_neg (by omega)]
            · intro h; simp only; rw [if_pos (by omega)]
          · rw [short_some, trim_zero true h0]
            refine decide_two _ ?_ ?_
            · intro h; simp only; repeat' split
              all_goals first | rfl | omega
            · intro h; simp only; rw [if_pos (by omega), if_pos (by omega)]
        | none =>
          unfold check
          simp only
          refine outer_plain k true s _ _ (fun _ => ?_) fun h0 => ?_
          · rw [or_iff_left (short_none _ _)]
            refine decide_two _ ?_ ?_
            · intro h; simp only; rw [if_neg (by omega)]
            · intro h; simp only; rw [if_pos (by omega)]
          · rw [or_iff_left (short_none _ _), trim_zero true h0]
            refine decide_two _ ?_ ?_
            · intro h; simp only; rw [if_neg (by omega)]
            · intro h; simp only; rw [if_pos (by omega)]
      | some m =>
        have h0 : tooLong (some m) 0 = false := by simp [tooLong]
        cases min with
        | none =>
          unfold TextOrder.line check
          simp only [if_true]
          by_cases hl : m < size true (start s)
          · rw [outer_long k true (some m) none s 0 h0 (by simpa [tooLong] using hl)]
            exact decide_err _ _ _ hl
          refine decide_skip _ _ _ _ hl ?_
          have hnl := outer_not_long k true (some m) s 0 (by simpa [tooLong] using hl)
          have hsp := outer_spec k true (some m) none (.inl rfl) s 0 h0
          revert hnl hsp
          rcases outer k true (some m) none s 0 with ⟨n', _ | t'⟩ | e | _
          · rintro - ⟨h, rfl, h'⟩
            have hm : ¬ m < size true s := by simpa [tooLong] using h'
            refine decide_skip _ _ _ _ (fun k' => k' (by rw [h]; exact clean_nil k)) ?_
            refine decide_three _ ?_ ?_ ?_ <;> rw [trim_zero true h]
            · intro h; simp only [Out.bind_ok]; rw [if_neg (by omega)]
            · intro _ h'; exact absurd h' hm
            · intro h _; simp only [Out.bind_ok]; rw [if_pos (by omega)]
          · rintro - ⟨h, rfl, rfl, -⟩
            rw [Nat.zero_add]
            refine decide_skip _ _ _ _ (fun k' => k' h) (decide_three _ ?_ ?_ ?_)
            · intro h; simp only [Out.bind_ok]; rw [if_neg (by omega)]
            · intro h h'; simp only [Out.bind_ok]; rw [if_pos (by omega), if_neg (by omega)]
            · intro h h'; simp only [Out.bind_ok]; rw [if_pos (by omega), if_pos (by omega)]
          · intro hnl h
            cases e with
            | invalid => exact decide_err _ _ _ h
            | tooLong => exact absurd rfl hnl
            | tooShort => cases h
          · intro _ h; cases h
        | some n =>
          have hnm := ho n rfl m rfl
          unfold TextOrder.line check
          simp only [if_true]
          by_cases hl : m < size true (start s)
          · rw [outer_long k true (some m) (some m) s 0 h0 (by simpa [tooLong] using hl)]
            exact decide_err _ _ _ hl
          refine decide_skip _ _ _ _ hl ?_
          have hin := outer_invalid k true m s 0 (by omega)
          simp only [Nat.zero_add] at hin
          by_cases he : EarlyForbidden k true m s
          · rw [hin.2 he]; exact decide_err _ _ _ he
          refine decide_skip _ _ _ _ he ?_
          have hne : outer k true (some m) (some m) s 0 ≠ .err .invalid := fun h => he (hin.1 h)
          have hsp := outer_spec k true (some m) (some m) (.inr rfl) s 0 h0
          revert hne hsp
          rcases outer k true (some m) (some m) s 0 with ⟨n', _ | t'⟩ | e | _
          · rintro - ⟨h, rfl, h'⟩
            have hm : ¬ m < size true s := by simpa [tooLong] using h'
            rw [Nat.zero_add]
            refine decide_skip _ _ _ _ hm (decide_two _ ?_ ?_) <;> rw [trim_zero true h]
            · intro h; simp only [Out.bind_ok]; repeat' split
              all_goals first | rfl | omega
            · intro h; simp only [Out.bind_ok]; rw [if_pos (by omega), if_neg (by omega)]
          · rintro - ⟨h, rfl, rfl, h'⟩
            have hm : ¬ m < size true s := by simpa [tooLong] using h'
            rw [Nat.zero_add]
            refine decide_skip _ _ _ _ hm (decide_two _ ?_ ?_)
            · intro h; simp only [Out.bind_ok]; rw [if_neg (by omega)]
            · intro h; simp only [Out.bind_ok]; rw [if_pos (by omega), if_pos (by omega)]
          · intro hne h
            cases e with
            | invalid => exact absurd rfl hne
            | tooLong => exact decide_err _ _ _ (by simpa [OuterOk, tooLong] using h)
            | tooShort => cases h
          · intro _ h; cases h

/-! ## The base-N texts -/

open Verif.BaseN (Variant Matches BaseError lastLoop lastLen)
open Verif.Spec.BaseN (Notation padByte)

theorem lastLoop_disallow (B : Variant) (pad : TriAllow) (n : Nat) (rest : List UInt8) (p : Nat) (hp : p + rest.length = n)
    (hB : B.sym padByte = false) :
    lastLoop B pad n rest p = .err .paddingDisallow ↔
      pad = .disallow ∧ ∃ body post, rest = body ++ padByte :: post ∧ ∀ b ∈ body, B.sym b = true := by
  induction rest generalizing p with
  | nil => unfold lastLoop; rw [if_pos (by simpa using hp)]; simp
  | cons e rest ih =>
    simp only [List.length_cons] at hp
    unfold lastLoop
    rw [if_neg (by omega)]
    simp only
    by_cases hs : B.sym e = true
    · rw [if_pos hs, ih (p + 1) (by omega)]
      refine and_congr_right fun _ => ⟨?_, ?_⟩
      · rintro ⟨body, post, rfl, h⟩
        exact ⟨e :: body, post, rfl, by simpa [hs] using h⟩
      · rintro ⟨body, post, h0, h⟩
        cases body with
        | nil => simp at h0; rw [h0.1, hB] at hs; cases hs
        | cons c body => simp at h0 h; exact ⟨body, post, h0.2, h.2⟩
    · rw [if_neg hs]
      by_cases he : e = asc '='
      · subst he
        rw [if_pos rfl]
        cases pad with
        | disallow => simp only [true_and, true_iff]; exact ⟨[], rest, rfl, by simp⟩
        | allow => simp; (repeat' split) <;> simp
        | must => simp; (repeat' split) <;> simp
      · rw [if_neg he]
        refine ⟨fun h => (by cases h), ?_⟩
        rintro ⟨-, body, post, h0, h⟩
        cases body with
        | nil => simp at h0; exact absurd h0.1 he
        | cons c body => simp at h0 h; exact absurd (h0.1 ▸ h.1) hs

theorem div_block {m q x : Nat} (h : x < m) : (m * q + x) / m = q := by
  rw [Nat.mul_add_div (by omega), Nat.div_eq_of_lt h, Nat.add_zero]

theorem check_errors (B : Variant) (L : Notation) (M : Matches B L) (pad : TriAllow) (v : List UInt8) (hv : v ≠ [])
    (hm : ¬ (pad = .must ∧ v.length % L.block ≠ 0)) :
    Verif.BaseN.check B pad v ≠ .err .paddingMust ∧ Verif.BaseN.check B pad v ≠ .err .decode := by
  rw [Verif.BaseN.check_eq B L M pad v hv, if_neg hm]
  split
  · constructor <;> intro h <;> rcases Verif.BaseN.lastLoop_err _ _ _ _ _ _ h with h | h <;> simp at h
  · simp

theorem base_checks (B : Variant) (L : Notation) (M : Matches B L) (pad : TriAllow) (v : List UInt8) :
    Decide (TextOrder.base L pad v) (Verif.BaseN.check B pad v) := by
  unfold TextOrder.base
  by_cases hv : v = []
  · rw [show Verif.BaseN.check B pad v = .err .invalid from by subst hv; rfl]
    exact decide_err _ _ _ hv
  refine decide_skip _ _ _ _ hv ?_
  have hok := Verif.BaseN.check_ok_iff B L M pad v
  have hnp := Verif.BaseN.check_ne_panic B L M pad v
  have hB : B.sym padByte = false := by
    have := M.noPad; rw [← M.sym] at this; simpa using this
  by_cases hm : pad = .must ∧ v.length % L.block ≠ 0
  · rw [Verif.BaseN.check_eq B L M pad v hv, if_pos hm]
    exact decide_err _ _ _ hm
  refine decide_skip _ _ _ _ hm ?_
  obtain ⟨h1, h2, h3, h4⟩ := Verif.BaseN.lastLen_le L M.pos v hv
  have hd := Nat.div_add_mod (v.length - lastLen L v) L.block
  rw [h4, Nat.add_zero] at hd
  generalize hq : (v.length - lastLen L v) / L.block = q at hd
  have hlast : (v.length - 1) / L.block = q := by
    rw [show v.length - 1 = L.block * q + (lastLen L v - 1) from by omega]
    exact div_block (by omega)
  have hiff : Verif.BaseN.check B pad v = .err .paddingDisallow ↔ pad = .disallow ∧ ∃ body rest, v = body ++ padByte :: rest ∧
      (∀ b ∈ body, b ∈ L.alphabet) ∧ body.length / L.block = (v.length - 1) / L.block := by
    rw [Verif.BaseN.check_eq B L M pad v hv, if_neg hm, hlast]
    have hsplit : v = v.take (v.length - lastLen L v) ++ v.drop (v.length - lastLen L v) := (List.take_append_drop _ _).symm
    by_cases ha : (v.take (v.length - lastLen L v)).all B.sym = true
    · rw [if_pos ha, lastLoop_disallow B pad _ _ 0 (by simp; omega) hB]
      rw [List.all_eq_true] at ha
      refine and_congr_right fun _ => ⟨?_, ?_⟩
      · rintro ⟨body, post, h0, h⟩
        refine ⟨v.take (v.length - lastLen L v) ++ body, post, ?_, ?_, ?_⟩
        · rw [List.append_assoc, ← h0]; exact hsplit
        · intro b hb
          rw [← M.sym]
          exact (List.mem_append.1 hb).elim (ha b) (h b)
        · have hl := congrArg List.length h0
          simp at hl
          rw [List.length_append, List.length_take, Nat.min_eq_left (by omega), ← hd]
          exact div_block (by omega)
      · rintro ⟨body, rest, h0, h, hl⟩
        have hbl : v.length - lastLen L v ≤ body.length := by
          have := Nat.div_mul_le_self body.length L.block
          rw [hl, Nat.mul_comm] at this; omega
        refine ⟨body.drop (v.length - lastLen L v), rest, ?_, fun b hb => (M.sym b).2 (h b (List.mem_of_mem_drop hb))⟩
        conv => lhs; rw [h0]
        rw [List.drop_append_of_le_length (by rwa [← h0]), ← h0]
    · rw [if_neg ha]
      refine ⟨fun h => (by cases h), ?_⟩
      rintro ⟨-, body, rest, h0, h, hl⟩
      refine absurd (List.all_eq_true.2 fun b hb => (M.sym b).2 (h b ?_)) ha
      have hbl : v.length - lastLen L v ≤ body.length := by
        have := Nat.div_mul_le_self body.length L.block
        rw [hl, Nat.mul_comm] at this; omega
      rw [h0, List.take_append_of_le_length (by rwa [← h0])] at hb
      exact List.mem_of_mem_take hb
  obtain ⟨hmust, hdec⟩ := check_errors B L M pad v hv hm
  by_cases hp : Verif.BaseN.check B pad v = .err .paddingDisallow
  · rw [hp]; exact decide_err _ _ _ (hiff.1 hp)
  refine decide_skip _ _ _ _ (fun h => hp (hiff.2 h)) ?_
  rw [← hok]
  revert hp hmust hdec hnp
  rcases Verif.BaseN.check B pad v with _ | e | _
  · intros; exact decide_skip _ _ _ _ (fun h => h rfl) ((decide_nil _).2 ⟨(), rfl⟩)
  · cases e <;> intros
    · exact decide_err _ _ _ (by simp)
    all_goals simp_all
  · intros; simp_all

/-! ## `uuid` and `mac_address` -/

open Verif.Hex (HexError)

/-- Not an error on the separator. -/
def Plain {α : Type} (r : Out HexError α) : Prop := r ≠ .err .separatorMust ∧ r ≠ .err .separatorDisallow

theorem plain_bind {α β : Type} {r : Out HexError α} {f : α → Out HexError β} (h : Plain r) (hf : ∀ a, Plain (f a)) : Plain (r >>= f) := by
  cases r with
  | ok a => exact hf a
  | err e => exact ⟨fun k => h.1 (by cases k; rfl), fun k => h.2 (by cases k; rfl)⟩
  | panic => exact ⟨fun k => (by cases k), fun k => (by cases k)⟩

theorem plain_ok {α : Type} (a : α) : Plain (.ok a) := ⟨fun k => (by cases k), fun k => (by cases k)⟩
theorem plain_pure {α : Type} (a : α) : Plain (pure a) := plain_ok a
theorem plain_invalid {α : Type} : Plain (α := α) (.err .invalid) := ⟨fun k => (by cases k), fun k => (by cases k)⟩

theorem plain_ite {α : Type} {c : Prop} [Decidable c] {x y : Out HexError α} (hx : Plain x) (hy : Plain y) : Plain (if c then x else y) := by
  split
  · exact hx
  · exact hy

theorem plain_slice (v : List UInt8) (i j : Nat) : Plain (slice v i j) := by
  unfold slice; split <;> exact ⟨fun k => (by cases k), fun k => (by cases k)⟩

theorem plain_sliceFrom (v : List UInt8) (i : Nat) : Plain (sliceFrom v i) := by
  unfold sliceFrom; split <;> exact ⟨fun k => (by cases k), fun k => (by cases k)⟩

theorem plain_idx (v : List UInt8) (i : Nat) : Plain (idx v i) := by
  unfold idx; split <;> exact ⟨fun k => (by cases k), fun k => (by cases k)⟩

theorem plain_group (sep : UInt8) (v : List UInt8) (lo hi c : Nat) : Plain (Hex.group sep v lo hi c) := by
  unfold Hex.group
  exact plain_bind (plain_slice _ _ _) fun _ => plain_bind (plain_idx _ _) fun _ => plain_pure _

theorem plain_decode (case : CaseOption) (w acc : Nat) (v : List UInt8) : Plain (Hex.decode case w acc v) := by
  induction v generalizing acc with
  | nil => exact plain_ok _
  | cons e v ih =>
    unfold Hex.decode
    simp only
    split
    · exact ih _
    · exact plain_invalid

theorem uuid_plain (sep : SeparatorOption) (case : CaseOption) (v : List UInt8)
    (hm : ∀ s, sep = .must s → v.length = 36) (hd : sep = .disallow → v.length = 32) : Plain (Uuid.parseStr sep case v) := by
  unfold Uuid.parseStr
  refine plain_bind ?_ fun _ => plain_decode _ _ _ _
  unfold Uuid.digits
  cases sep with
  | must s =>
    simp only
    rw [if_neg (by simp [hm s rfl])]
    repeat' first | exact plain_pure _ | exact plain_invalid | refine plain_bind (plain_slice _ _ _) fun _ => ?_ | refine plain_bind (plain_sliceFrom _ _) fun _ => ?_ | refine plain_bind (plain_idx _ _) fun _ => ?_ | refine plain_ite ?_ ?_
  | disallow =>
    simp only
    rw [if_neg (by simp [hd rfl])]
    exact plain_ok _
  | allow s =>
    simp only
    repeat' first | exact plain_pure _ | exact plain_invalid | refine plain_bind (plain_slice _ _ _) fun _ => ?_ | refine plain_bind (plain_sliceFrom _ _) fun _ => ?_ | refine plain_bind (plain_idx _ _) fun _ => ?_ | refine plain_bind (plain_group _ _ _ _ _) fun _ => ?_ | refine plain_ite ?_ ?_

theorem mac_plain (sep : SeparatorOption) (case : CaseOption) (v : List UInt8)
    (hm : ∀ s, sep = .must s → v.length = 17) (hd : sep = .disallow → v.length = 12) : Plain (Mac.parseStr sep case v) := by
  unfold Mac.parseStr
  refine plain_bind ?_ fun _ => plain_decode _ _ _ _
  unfold Mac.digits
  cases sep with
  | must s =>
    simp only
    rw [if_neg (by simp [hm s rfl])]
    repeat' first | exact plain_pure _ | exact plain_invalid | refine plain_bind (plain_slice _ _ _) fun _ => ?_ | refine plain_bind (plain_sliceFrom _ _) fun _ => ?_ | refine plain_bind (plain_idx _ _) fun _ => ?_ | refine plain_ite ?_ ?_
  | disallow =>
    simp only
    rw [if_neg (by simp [hd rfl])]
    exact plain_ok _
  | allow s =>
    simp only
    repeat' first | exact plain_pure _ | exact plain_invalid | refine plain_bind (plain_slice _ _ _) fun _ => ?_ | refine plain_bind (plain_sliceFrom _ _) fun _ => ?_ | refine plain_bind (plain_idx _ _) fun _ => ?_ | refine plain_bind (plain_group _ _ _ _ _) fun _ => ?_ | refine plain_ite ?_ ?_

/-- From the language and the errors to the order. -/
theorem hex_checks (sep : SeparatorOption) (case : CaseOption) (sizes : List Nat) (v : List UInt8) (r : Out HexError Nat)
    (hok : ∀ n, r = .ok n ↔ Spec.Hex.Reads sep case sizes v n) (hp : r ≠ .panic)
    (hm : ∀ s, sep = .must s → v.length ≠ sizes.sum + (sizes.length - 1) → r = .err .separatorMust)
    (hd : sep = .disallow → v.length ≠ sizes.sum → r = .err .separatorDisallow)
    (hpl : (∀ s, sep = .must s → v.length = sizes.sum + (sizes.length - 1)) → (sep = .disallow → v.length = sizes.sum) → Plain r) :
    Decide (TextOrder.hex sep case sizes v) r := by
  have last (hpl : Plain r) : Decide [(¬ ∃ n, Spec.Hex.Reads sep case sizes v n, HexError.invalid)] r := by
    revert hok hp hpl
    clear hm hd
    rcases r with n | e | _
    · intro hok _ _
      exact decide_skip _ _ _ _ (fun h => h ⟨n, (hok n).1 rfl⟩) ((decide_nil _).2 ⟨n, rfl⟩)
    · intro hok _ hpl
      obtain rfl : e = .invalid := by
        cases e with
        | invalid => rfl
        | separatorMust => exact absurd rfl hpl.1
        | separatorDisallow => exact absurd rfl hpl.2
      refine decide_err _ _ _ ?_
      rintro ⟨n, h⟩
      exact absurd ((hok n).2 h) (by simp)
    · intro _ hp; exact absurd rfl hp
  unfold TextOrder.hex
  cases sep with
  | must s =>
    simp only
    by_cases h : v.length ≠ sizes.sum + (sizes.length - 1)
    · rw [hm s rfl h]; exact decide_err _ _ _ h
    · exact decide_skip _ _ _ _ h (last (hpl (fun _ _ => by omega) (by simp)))
  | disallow =>
    simp only
    by_cases h : v.length ≠ sizes.sum
    · rw [hd rfl h]; exact decide_err _ _ _ h
    · exact decide_skip _ _ _ _ h (last (hpl (by simp) (fun _ => by omega)))
  | allow s => exact last (hpl (by simp) (by simp))

end Verif.TextOrder
