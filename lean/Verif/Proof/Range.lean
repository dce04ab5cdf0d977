import Verif.Model.Int
import Verif.Model.Number
import Verif.Spec.Range
import Mathlib.Order.Compare
import Mathlib.Data.Int.Order.Basic
import Mathlib.Data.Nat.Basic

/-! # Lemmas about the generated range checks -/

namespace Verif.Range

open Verif.Spec.Range

variable {α : Type} [LinearOrder α]

/-- A comparison that is the linear order. -/
def linCmp (a b : α) : Option Ordering := some (compare a b)

theorem linCmp_lt (a b : α) : evalOp (linCmp a b) .lt = decide (a < b) := by
  by_cases h : a < b <;> simp [evalOp, linCmp, compare_lt_iff_lt, h]

theorem linCmp_gt (a b : α) : evalOp (linCmp a b) .gt = decide (b < a) := by
  by_cases h : b < a <;> simp [evalOp, linCmp, compare_gt_iff_gt, h]

theorem linCmp_eq (a b : α) : evalOp (linCmp a b) .eq = decide (a = b) := by
  by_cases h : a = b <;> simp [evalOp, linCmp, compare_eq_iff_eq, h]

theorem linCmp_le (a b : α) : evalOp (linCmp a b) .le = decide (a ≤ b) := by
  have : (evalOp (linCmp a b) .le) = (decide (a < b) || decide (a = b)) := by
    rw [← linCmp_lt, ← linCmp_eq]; rfl
  rw [this]
  by_cases h : a ≤ b
  · rcases lt_or_eq_of_le h with h1 | h1 <;> simp [h, h1]
  · have h1 := not_le.mp h
    simp [h, not_lt.mpr (le_of_lt h1), ne_of_gt h1]

theorem linCmp_ge (a b : α) : evalOp (linCmp a b) .ge = decide (b ≤ a) := by
  have : (evalOp (linCmp a b) .ge) = (decide (b < a) || decide (a = b)) := by
    rw [← linCmp_gt, ← linCmp_eq]; rfl
  rw [this]
  by_cases h : b ≤ a
  · rcases lt_or_eq_of_le h with h1 | h1
    · simp [h, h1]
    · simp [h, h1]
  · have h1 := not_le.mp h
    simp [h, not_lt.mpr (le_of_lt h1), ne_of_lt h1]


/-- Bounds over `α` seen as bounds over the number type. -/
def Bounds.map {α γ : Type} (emb : α → γ) (b : Bounds α) : Bounds γ :=
  { min := b.min.map emb, max := b.max.map emb, inclusive := b.inclusive }

/-- How a number type `γ` carries the linear order `α`: everything in `γ` that is not NaN. -/
structure Carries {γ : Type} (pcmp : γ → γ → Option Ordering) (num : Num γ) (emb : α → γ) : Prop where
  cmp : ∀ a b, pcmp (emb a) (emb b) = linCmp a b
  eq : ∀ a b, num.eq (emb a) (emb b) = decide (a = b)
  inc : ∀ a c, num.isFloat = false → num.inc (emb a) = some c → ∃ d, c = emb d ∧ ∀ x, x < d ↔ x ≤ a

/-- The environment with one parameter. -/
def single {γ : Type} (param : Name) (x : γ) : Name → Option γ := fun n => if n = param then some x else none

theorem single_self {γ : Type} (param : Name) (x : γ) : single param x param = some x := by simp [single]

variable {γ : Type} {pcmp : γ → γ → Option Ordering} {num : Num γ} {emb : α → γ}

/-- When `range_equal` holds, the range contains exactly the minimum. -/
theorem rangeEqual_true (h : Carries pcmp num emb) (b : Bounds α) (he : rangeEqual num (b.map emb) = true) :
    ∃ m, b.min = some m ∧ ∃ n, b.max = some n ∧ ∀ x, (if b.inclusive then n < x else n ≤ x) ↔ m < x := by
  obtain ⟨mn, mx, incl⟩ := b
  cases mn with
  | none => simp [rangeEqual, Bounds.map] at he
  | some m =>
    cases mx with
    | none => simp [rangeEqual, Bounds.map] at he
    | some n =>
      refine ⟨m, rfl, n, rfl, ?_⟩
      cases incl with
      | true =>
        simp [rangeEqual, Bounds.map, h.eq] at he
        simp [he]
      | false =>
        simp only [rangeEqual, Bounds.map, Option.map_some, Bool.false_eq_true, if_false] at he
        cases hf : num.isFloat with
        | true => simp [hf] at he
        | false =>
          rw [hf] at he
          cases hi : num.inc (emb m) with
          | none => simp [hi] at he
          | some c =>
            obtain ⟨d, rfl, hd⟩ := h.inc m c hf hi
            simp only [hi, h.eq, Bool.false_eq_true, if_false, decide_eq_true_eq] at he
            intro x
            subst he
            simp only [Bool.false_eq_true, if_false]
            rw [← not_lt, hd, not_le]

theorem run_inside (h : Carries pcmp num emb) (p : Name) (ng : Bool) (b : Bounds α) (a : α) :
    (BelowMin b a → run pcmp none (single p (emb a)) (insideCode num p ng (b.map emb)) = .err .tooSmall) ∧
    (¬ BelowMin b a → AboveMax b a →
      run pcmp none (single p (emb a)) (insideCode num p ng (b.map emb)) = .err .tooLarge) ∧
    (Contains b a → run pcmp none (single p (emb a)) (insideCode num p ng (b.map emb)) = .ok ()) := by
  by_cases he : rangeEqual num (b.map emb) = true
  · obtain ⟨m, hm, n, hn, hx⟩ := rangeEqual_true h b he
    have hcode : insideCode num p ng (b.map emb) = [.matchCmp p (emb m) ng] := by
      rw [insideCode, if_pos he]; simp [Bounds.map, hm]
    rw [hcode]
    simp only [run, single_self, h.cmp, linCmp]
    refine ⟨?_, ?_, ?_⟩
    · rintro ⟨m', hm', hlt⟩
      rw [hm] at hm'; cases hm'
      rw [compare_lt_iff_lt.mpr hlt]
    · intro hb ⟨n', hn', hgt⟩
      rw [hn] at hn'; cases hn'
      have : m < a := by
        rw [← hx]
        cases hi : b.inclusive
        · simp [hi] at hgt ⊢
          rcases hgt with h1 | h1
          · exact le_of_lt h1
          · exact le_of_eq h1.symm
        · simp [hi] at hgt ⊢; exact hgt
      rw [compare_gt_iff_gt.mpr this]
    · rintro ⟨h1, h2⟩
      have hle := h1 m hm
      have hnot : ¬ m < a := by
        rw [← hx]
        obtain ⟨h3, h4⟩ := h2 n hn
        cases hi : b.inclusive
        · simp only [Bool.false_eq_true, if_false, not_le]
          exact lt_of_le_of_ne h3 (h4 hi)
        · simp only [if_true, not_lt]; exact h3
      have : a = m := le_antisymm (not_lt.mp hnot) hle
      rw [compare_eq_iff_eq.mpr this]
  · have he' : rangeEqual num (b.map emb) = false := by simpa using he
    obtain ⟨mn, mx, incl⟩ := b
    have hmin : ∀ m, ¬ a < m → evalOp (pcmp (emb a) (emb m)) CmpOp.lt = false := by
      intro m hm; rw [h.cmp, linCmp_lt]; simp [hm]
    refine ⟨?_, ?_, ?_⟩
    · rintro ⟨m, hm, hlt⟩
      simp only at hm; subst hm
      rw [insideCode, if_neg he]
      simp [Bounds.map, run, single_self, Cond.name, evalCond, h.cmp, linCmp_lt, hlt]
    · intro hb ⟨n, hn, hgt⟩
      simp only at hn; subst hn
      simp only at hgt
      have hmax : evalOp (pcmp (emb a) (emb n)) (beyond incl) = true := by
        rw [h.cmp]
        cases incl
        · simp only [beyond, Bool.false_eq_true, if_false, linCmp_ge, decide_eq_true_eq]
          rcases hgt with h1 | h1
          · exact le_of_lt h1
          · exact le_of_eq h1.2.symm
        · simp only [beyond, if_true, linCmp_gt, decide_eq_true_eq]
          rcases hgt with h1 | h1
          · exact h1
          · simp at h1
      cases mn with
      | none =>
        rw [insideCode, if_neg he]
        simp [Bounds.map, run, single_self, Cond.name, evalCond, hmax]
      | some m =>
        have hb' : ¬ a < m := fun hlt => hb ⟨m, rfl, hlt⟩
        rw [insideCode, if_neg he]
        simp [Bounds.map, run, single_self, Cond.name, evalCond, hmax, hmin m hb']
    · rintro ⟨h1, h2⟩
      simp only at h1 h2
      have hmax : ∀ n, mx = some n → evalOp (pcmp (emb a) (emb n)) (beyond incl) = false := by
        intro n hn
        obtain ⟨h3, h4⟩ := h2 n hn
        rw [h.cmp]
        cases incl
        · simp only [beyond, Bool.false_eq_true, if_false, linCmp_ge, decide_eq_false_iff_not, not_le]
          exact lt_of_le_of_ne h3 (h4 rfl)
        · simp only [beyond, if_true, linCmp_gt, decide_eq_false_iff_not, not_lt]; exact h3
      cases mn with
      | none =>
        cases mx with
        | none => rw [insideCode, if_neg he]; simp [Bounds.map, run]
        | some n =>
          rw [insideCode, if_neg he]
          simp [Bounds.map, run, single_self, Cond.name, evalCond, hmax n rfl]
      | some m =>
        have hb' : ¬ a < m := not_lt.mpr (h1 m rfl)
        cases mx with
        | none =>
          rw [insideCode, if_neg he]
          simp [Bounds.map, run, single_self, Cond.name, evalCond, h.cmp, linCmp_lt, hb']
        | some n =>
          rw [insideCode, if_neg he]
          simp [Bounds.map, run, single_self, Cond.name, evalCond, hmax n rfl, hmin m hb']

theorem contains_or (b : Bounds α) (a : α) : Contains b a ∨ BelowMin b a ∨ (¬ BelowMin b a ∧ AboveMax b a) := by
  by_cases h1 : BelowMin b a
  · exact .inr (.inl h1)
  · by_cases h2 : AboveMax b a
    · exact .inr (.inr ⟨h1, h2⟩)
    · left
      refine ⟨fun m hm => not_lt.mp fun hlt => h1 ⟨m, hm, hlt⟩, fun m hm => ⟨not_lt.mp fun hlt => h2 ⟨m, hm, .inl hlt⟩, ?_⟩⟩
      exact fun hi he => h2 ⟨m, hm, .inr ⟨hi, he⟩⟩

theorem not_contains_of_below (b : Bounds α) (a : α) (h : BelowMin b a) : ¬ Contains b a := by
  obtain ⟨m, hm, hlt⟩ := h
  exact fun hc => absurd (hc.1 m hm) (not_le.mpr hlt)

theorem not_contains_of_above (b : Bounds α) (a : α) (h : AboveMax b a) : ¬ Contains b a := by
  obtain ⟨m, hm, hlt⟩ := h
  intro hc
  obtain ⟨h1, h2⟩ := hc.2 m hm
  rcases hlt with h3 | ⟨h3, h4⟩
  · exact absurd h1 (not_le.mpr h3)
  · exact h2 h3 h4

theorem run_outside (h : Carries pcmp num emb) (p q : Name) (b : Bounds α) (a : α) (hq : closed [p] (outsideCode num p q (b.map emb)) = true) :
    (Contains b a → Bounded b →
      run pcmp none (single p (emb a)) (outsideCode num p q (b.map emb)) = .err .forbidden) ∧
    (¬ (Contains b a ∧ Bounded b) →
      run pcmp none (single p (emb a)) (outsideCode num p q (b.map emb)) = .ok ()) := by
  by_cases he : rangeEqual num (b.map emb) = true
  · obtain ⟨m, hm, n, hn, hx⟩ := rangeEqual_true h b he
    have hcode : outsideCode num p q (b.map emb) = [.failIf (.cmp p .eq (emb m)) .forbidden] := by
      rw [outsideCode, if_pos he]; simp [Bounds.map, hm]
    have hcon : Contains b a ↔ a = m := by
      constructor
      · rintro ⟨h1, h2⟩
        have hle := h1 m hm
        have hnot : ¬ m < a := by
          rw [← hx]
          obtain ⟨h3, h4⟩ := h2 n hn
          cases hi : b.inclusive
          · simp only [Bool.false_eq_true, if_false, not_le]
            exact lt_of_le_of_ne h3 (h4 hi)
          · simp only [if_true, not_lt]; exact h3
        exact le_antisymm (not_lt.mp hnot) hle
      · rintro rfl
        refine ⟨fun m' hm' => ?_, fun n' hn' => ?_⟩
        · rw [hm] at hm'; cases hm'; exact le_refl _
        · rw [hn] at hn'; cases hn'
          have := (hx a).not.mpr (lt_irrefl a)
          cases hi : b.inclusive
          · simp [hi] at this
            exact ⟨le_of_lt this, fun _ => ne_of_lt this⟩
          · simp [hi] at this
            exact ⟨this, fun h => by cases h⟩
    rw [hcode]
    have hbd : Bounded b := .inl (by simp [hm])
    simp only [run, single_self, Cond.name, evalCond, h.cmp, linCmp_eq, hcon, hbd]
    by_cases ha : a = m <;> simp [ha]
  · have he' : rangeEqual num (b.map emb) = false := by simpa using he
    obtain ⟨mn, mx, incl⟩ := b
    cases mn with
    | none =>
      cases mx with
      | none => rw [outsideCode, if_neg he]; simp [Bounds.map, run, Bounded]
      | some n =>
        have hcon : Contains ⟨none, some n, incl⟩ a ↔ evalOp (pcmp (emb a) (emb n)) (upTo incl) = true := by
          rw [h.cmp]
          cases incl
          · simp [Contains, upTo, linCmp_lt, lt_iff_le_and_ne]
          · simp [Contains, upTo, linCmp_le]
        have hbd : Bounded (⟨none, some n, incl⟩ : Bounds α) := .inr (by simp)
        simp only [hcon, hbd]
        rw [outsideCode, if_neg he]
        simp only [Bounds.map, Option.map_none, Option.map_some, run,
          Cond.name, single_self, evalCond]
        by_cases hk : evalOp (pcmp (emb a) (emb n)) (upTo incl) = true <;> simp [hk]
    | some m =>
      cases mx with
      | none =>
        have hcon : Contains ⟨some m, none, incl⟩ a ↔ evalOp (pcmp (emb a) (emb m)) CmpOp.ge = true := by
          rw [h.cmp]
          simp [Contains, upTo, linCmp_ge]
        have hbd : Bounded (⟨some m, none, incl⟩ : Bounds α) := .inl (by simp)
        simp only [hcon, hbd]
        rw [outsideCode, if_neg he]
        simp only [Bounds.map, Option.map_none, Option.map_some, run,
          Cond.name, single_self, evalCond]
        by_cases hk : evalOp (pcmp (emb a) (emb m)) CmpOp.ge = true <;> simp [hk]
      | some n =>
        have hcon : Contains ⟨some m, some n, incl⟩ a ↔
            (evalOp (pcmp (emb m) (emb a)) CmpOp.le && evalOp (pcmp (emb a) (emb n)) (upTo incl)) = true := by
          rw [h.cmp, h.cmp]
          cases incl
          · simp [Contains, upTo, linCmp_lt, linCmp_le, lt_iff_le_and_ne]
          · simp [Contains, upTo, linCmp_le]
        have hbd : Bounded (⟨some m, some n, incl⟩ : Bounds α) := .inl (by simp)
        have hpq : q = p := by
          rw [outsideCode, if_neg he] at hq
          simpa [Bounds.map, closed, Cond.name] using hq
        subst hpq
        simp only [hcon, hbd]
        rw [outsideCode, if_neg he]
        simp only [Bounds.map, Option.map_some, run,
          Cond.name, single_self, evalCond]
        by_cases hk : (evalOp (pcmp (emb m) (emb a)) CmpOp.le && evalOp (pcmp (emb a) (emb n)) (upTo incl)) = true <;> simp [hk]

theorem closed_inside (p : Name) (ng : Bool) (b : Bounds γ) : closed [p] (insideCode num p ng b) = true := by
  unfold insideCode
  split
  · split <;> simp [closed]
  · split <;> split <;> simp [closed, Cond.name]

theorem closed_outside_same (p : Name) (b : Bounds γ) : closed [p] (outsideCode num p p b) = true := by
  unfold outsideCode
  split
  · split <;> simp [closed, Cond.name]
  · split <;> split <;> simp [closed, Cond.name]

/-- With two different names the code is closed unless it is the two-sided check. -/
theorem closed_outside_diff (p q : Name) (hpq : q ≠ p) (b : Bounds γ) :
    closed [p] (outsideCode num p q b) = false ↔ rangeEqual num b = false ∧ b.min.isSome ∧ b.max.isSome := by
  obtain ⟨mn, mx, incl⟩ := b
  cases he : rangeEqual num ⟨mn, mx, incl⟩
  · cases mn <;> cases mx <;> simp [outsideCode, he, closed, Cond.name, hpq]
  · cases mn <;> simp [outsideCode, he, closed, Cond.name]

/-- A check read off a run. -/
theorem compile_some {param : Name} {code : List (Stmt γ)} {chk : γ → Out RangeError Unit}
    (h : compile pcmp param code = some chk) :
    closed [param] code = true ∧ ∀ x, chk x = run pcmp none (single param x) code := by
  unfold compile at h
  split at h
  · rename_i hc
    simp only [Option.some.injEq] at h
    exact ⟨hc, fun x => by rw [← h]; rfl⟩
  · cases h

theorem carries_int (signed : Bool) (bits : Nat) : Carries IntV.icmp (IntV.num signed bits) (id : Int → Int) where
  cmp a b := rfl
  eq a b := by simp [IntV.num]; rfl
  inc a c _ h := by
    simp only [IntV.num, id] at h
    split at h
    · simp only [Option.some.injEq] at h
      exact ⟨c, rfl, fun x => by omega⟩
    · cases h

theorem carries_size : Carries Size.ncmp Size.u128 (id : Nat → Nat) where
  cmp a b := rfl
  eq a b := by simp [Size.u128]; rfl
  inc a c _ h := by
    simp only [Size.u128, id] at h
    split at h
    · simp only [Option.some.injEq] at h
      exact ⟨c, rfl, fun x => by omega⟩
    · cases h

theorem carries_float : Carries (Number.fcmp (α := α)) Number.fnum (some : α → Option α) where
  cmp a b := rfl
  eq a b := by
    simp only [Number.fnum, Number.fcmp]
    by_cases h : a = b
    · subst h; simp
    · have : compare a b ≠ .eq := fun hc => h (compare_eq_iff_eq.mp hc)
      cases hc : compare a b <;> simp_all
  inc a c h _ := by simp [Number.fnum] at h

omit [LinearOrder α] in
theorem map_id (b : Bounds α) : b.map id = b := by
  cases b; simp [Bounds.map]

end Verif.Range
