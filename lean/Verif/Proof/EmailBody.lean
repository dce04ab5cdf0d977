import Verif.Proof.EmailLocal

/-! The local part of an email. -/

namespace Verif.Email

open Verif.Spec Verif.Spec.Email
open Verif.Ip (Str str_cut str_append boundary_cut boundary_byte strSlice strSliceFrom strSlice_mid strSliceFrom_cut isCharBoundary)
open Verif.Domain (bind_ok_iff bind_err_iff bind_panic_iff)

theorem fits_nil (l p : Nat) : Fits l p [] := by intro i b h; simp at h

theorem fits_cons (l p : Nat) (b : UInt8) (t : List UInt8) : Fits l p (b :: t) ↔ (p = l → 128 ≤ b.toNat) ∧ Fits l (p + 1) t := by
  constructor
  · intro h
    refine ⟨fun hp => h 0 b rfl (by omega), fun i c hi hl => h (i + 1) c (by simpa using hi) (by omega)⟩
  · rintro ⟨h1, h2⟩ i c hi hl
    cases i with
    | zero => simp only [List.getElem?_cons_zero, Option.some.injEq] at hi; subst hi; exact h1 (by omega)
    | succ i => exact h2 i c (by simpa using hi) (by omega)

/-! ### Quoted -/

/-- How a byte changes `escaping`. -/
def escStep (e : Bool) (b : UInt8) : Bool := if b = asc '\\' then !e else if b = asc ' ' ∨ b = asc '\t' then e else false

def escAfter : Bool → List UInt8 → Bool
  | e, [] => e
  | e, b :: t => escAfter (escStep e b) t

/-- A byte may follow in a quoted local part. -/
def QByte (na : Allow) (e : Bool) (b : UInt8) : Prop := b ∈ atext ∨ b ∈ ascii ".\\ \t" ∨ Wide na b ∨ b ∈ specials ∧ e = true

instance (na : Allow) (e : Bool) (b : UInt8) : Decidable (QByte na e b) := inferInstanceAs (Decidable (_ ∨ _))

def QBytes (na : Allow) : Bool → List UInt8 → Prop
  | _, [] => True
  | e, b :: t => QByte na e b ∧ QBytes na (escStep e b) t

/-- How a byte changes `last_dot` and `need_quoted`. -/
def dotStep (ld : Bool) (b : UInt8) : Bool := if b = asc '.' then true else if b ∈ specials ∨ b ∈ ascii "\\ \t" then ld else false
def needStep (ld : Bool) (b : UInt8) : Bool := if b = asc '.' then ld else decide (b ∈ ascii "\\ \t")

def needs : Bool → List UInt8 → Bool
  | _, [] => false
  | ld, b :: t => needStep ld b || needs (dotStep ld b) t

theorem specials_lt : ∀ b ∈ specials, b.toNat < 128 := by decide

theorem blank_sub : ∀ b ∈ ascii "\\ \t", b ∈ ascii ".\\ \t" := by decide

theorem quotedLoop_cons (na : Allow) (x : UInt8) (r : List UInt8) (p : Nat) (e nq ld : Bool) :
    quotedLoop na (x :: r) p e nq ld =
      if x = asc '"' ∧ e = false then .ok (p, nq)
      else if QByte na e x ∧ (p = 63 → 128 ≤ x.toNat) then quotedLoop na r (p + 1) (escStep e x) (nq || needStep ld x) (dotStep ld x)
      else .err .invalid := by
  rcases classes x with h | rfl | rfl | (rfl | rfl) | h | rfl | h
  · obtain ⟨h1, h2, h3, h4, h5, h6, h7, h8, h9⟩ := h
    have e1 : ¬ x = asc '\\' := by rintro rfl; exact absurd h2 (by decide)
    have e2 : ¬ x = asc ' ' := by rintro rfl; exact absurd h2 (by decide)
    have e3 : ¬ x = asc '\t' := by rintro rfl; exact absurd h2 (by decide)
    have e4 : x ∉ ascii "\\ \t" := fun k => h5 (blank_sub x k)
    have hq : QByte na e x := .inl h2
    have hnot : ¬ 128 ≤ x.toNat := by omega
    simp only [quotedLoop, h1, if_true, if_neg (show ¬ (x = asc '"' ∧ e = false) from fun k => h6 k.1), hq, true_and, hnot, imp_false,
      escStep, dotStep, needStep, e1, e2, e3, h9, e4, h4, or_self, if_false, decide_false, Bool.or_false]
    split <;> simp_all
  · have hq : QByte na e (asc '.') := .inr (.inl (by decide))
    have hnot : ¬ 128 ≤ (asc '.').toNat := by decide
    have f1 : isAtext (asc '.') = false := by decide
    have f2 : escStep e (asc '.') = false := by cases e <;> decide
    have f3 : dotStep ld (asc '.') = true := by simp [dotStep]
    have f4 : needStep ld (asc '.') = ld := by simp [needStep]
    have f5 : ¬ (asc '.' = asc '"' ∧ e = false) := fun k => absurd k.1 (by decide)
    simp only [quotedLoop, f1, if_true, if_neg f5, hq, true_and, hnot, imp_false, f2, f3, f4, Bool.false_eq_true, if_false]
    cases ld <;> (split <;> simp_all)
  · have hq : QByte na e (asc '\\') := .inr (.inl (by decide))
    have hnot : ¬ 128 ≤ (asc '\\').toNat := by decide
    have f1 : isAtext (asc '\\') = false := by decide
    have f2 : escStep e (asc '\\') = !e := by cases e <;> decide
    have f3 : dotStep ld (asc '\\') = ld := by cases ld <;> decide
    have f4 : needStep ld (asc '\\') = true := by cases ld <;> decide
    have f5 : ¬ (asc '\\' = asc '"' ∧ e = false) := fun k => absurd k.1 (by decide)
    have f6 : ¬ asc '\\' = asc '.' := by decide
    simp only [quotedLoop, f1, if_true, if_neg f5, hq, true_and, hnot, imp_false, f2, f3, f4, Bool.false_eq_true, if_false, f6, Bool.or_true]
    split <;> simp_all
  · have hq : QByte na e (asc ' ') := .inr (.inl (by decide))
    have hnot : ¬ 128 ≤ (asc ' ').toNat := by decide
    have f1 : isAtext (asc ' ') = false := by decide
    have f2 : escStep e (asc ' ') = e := by cases e <;> decide
    have f3 : dotStep ld (asc ' ') = ld := by cases ld <;> decide
    have f4 : needStep ld (asc ' ') = true := by cases ld <;> decide
    have f5 : ¬ (asc ' ' = asc '"' ∧ e = false) := fun k => absurd k.1 (by decide)
    have f6 : ¬ asc ' ' = asc '.' := by decide
    have f7 : ¬ asc ' ' = asc '\\' := by decide
    simp only [quotedLoop, f1, if_true, if_neg f5, hq, true_and, hnot, imp_false, f2, f3, f4, Bool.false_eq_true, if_false, f6, f7, Bool.or_true, true_or]
    split <;> simp_all
  · have hq : QByte na e (asc '\t') := .inr (.inl (by decide))
    have hnot : ¬ 128 ≤ (asc '\t').toNat := by decide
    have f1 : isAtext (asc '\t') = false := by decide
    have f2 : escStep e (asc '\t') = e := by cases e <;> decide
    have f3 : dotStep ld (asc '\t') = ld := by cases ld <;> decide
    have f4 : needStep ld (asc '\t') = true := by cases ld <;> decide
    have f5 : ¬ (asc '\t' = asc '"' ∧ e = false) := fun k => absurd k.1 (by decide)
    have f6 : ¬ asc '\t' = asc '.' := by decide
    have f7 : ¬ asc '\t' = asc '\\' := by decide
    simp only [quotedLoop, f1, if_true, if_neg f5, hq, true_and, hnot, imp_false, f2, f3, f4, Bool.false_eq_true, if_false, f6, f7, Bool.or_true, or_true]
    split <;> simp_all
  · obtain ⟨h1, h2, h3, h4, h5, h6, h7⟩ := h
    have e0 : ¬ x = asc '.' := by rintro rfl; exact h6 (by decide)
    have e1 : ¬ x = asc '\\' := by rintro rfl; exact h6 (by decide)
    have e2 : ¬ x = asc ' ' := by rintro rfl; exact h6 (by decide)
    have e3 : ¬ x = asc '\t' := by rintro rfl; exact h6 (by decide)
    have e4 : x ∉ ascii "\\ \t" := fun k => h6 (blank_sub x k)
    have hnot : ¬ 128 ≤ x.toNat := by omega
    have hq : QByte na e x ↔ e = true := by
      unfold QByte Wide
      simp [h3, h5, h6, hnot]
    simp only [quotedLoop, h1, h2, if_true, if_neg (show ¬ (x = asc '"' ∧ e = false) from fun k => h7 k.1), hq, hnot, imp_false,
      escStep, dotStep, needStep, e0, e1, e2, e3, e4, h5, or_self, true_or, if_false, decide_false, Bool.or_false, Bool.false_eq_true]
    cases e <;> simp <;> split <;> simp_all
  · have hnot : ¬ 128 ≤ (asc '"').toNat := by decide
    have f1 : isAtext (asc '"') = false := by decide
    have f0 : isSpecial (asc '"') = false := by decide
    have f2 : escStep e (asc '"') = false := by cases e <;> decide
    have f3 : dotStep ld (asc '"') = ld := by cases ld <;> decide
    have f4 : needStep ld (asc '"') = false := by cases ld <;> decide
    have f6 : ¬ asc '"' = asc '.' := by decide
    have f7 : ¬ asc '"' = asc '\\' := by decide
    have f8 : ¬ asc '"' = asc ' ' := by decide
    have f9 : ¬ asc '"' = asc '\t' := by decide
    have hq : QByte na e (asc '"') ↔ e = true := by
      unfold QByte Wide
      have a1 : asc '"' ∉ atext := by decide
      have a2 : asc '"' ∉ ascii ".\\ \t" := by decide
      have a3 : asc '"' ∈ specials := by decide
      simp [a1, a2, a3, hnot]
    simp only [quotedLoop, f0, f1, if_true, hq, hnot, imp_false, f2, f3, f4, Bool.false_eq_true, if_false, f6, f7, f8, f9, or_self, Bool.or_false, true_and]
    cases e <;> simp <;> split <;> simp_all
  · obtain ⟨h1, h2, h3, h4, h5, h6, h7, h8⟩ := h
    have e0 : ¬ x = asc '.' := by rintro rfl; exact h5 (by decide)
    have e1 : ¬ x = asc '\\' := by rintro rfl; exact h5 (by decide)
    have e2 : ¬ x = asc ' ' := by rintro rfl; exact h5 (by decide)
    have e3 : ¬ x = asc '\t' := by rintro rfl; exact h5 (by decide)
    have e4 : x ∉ ascii "\\ \t" := fun k => h5 (blank_sub x k)
    have hq : QByte na e x ∧ (p = 63 → 128 ≤ x.toNat) ↔ otherByte na x = true := by
      rw [other_iff]
      unfold QByte
      simp only [h3, h4, h5, false_or, false_and, or_false]
      exact ⟨fun k => k.1, fun k => ⟨k, fun _ => k.2⟩⟩
    simp only [quotedLoop, h1, h2, hq,
      escStep, dotStep, needStep, e0, e1, e2, e3, e4, h4, h6, false_and, or_self, if_false, decide_false, Bool.or_false, Bool.false_eq_true]

theorem quotedLoop_ok (na : Allow) (r : List UInt8) (p : Nat) (e nq ld : Bool) (q : Nat) (nq' : Bool) :
    quotedLoop na r p e nq ld = .ok (q, nq') ↔
      ∃ body rest, r = body ++ asc '"' :: rest ∧ q = p + body.length ∧ QBytes na e body ∧ escAfter e body = false ∧ Fits 63 p body ∧
        nq' = (nq || needs ld body) := by
  induction r generalizing p e nq ld with
  | nil => simp [quotedLoop]
  | cons x r ih =>
    rw [quotedLoop_cons]
    by_cases h1 : x = asc '"' ∧ e = false
    · obtain ⟨rfl, rfl⟩ := h1
      rw [if_pos ⟨rfl, rfl⟩]
      constructor
      · intro h; cases h
        exact ⟨[], r, rfl, rfl, trivial, rfl, fits_nil _ _, by simp [needs]⟩
      · rintro ⟨body, rest, hr, rfl, hb, he, hf, rfl⟩
        cases body with
        | nil => simp [needs]
        | cons b body =>
          have : b = asc '"' := (List.cons.inj hr).1.symm
          subst this
          have := hb.1
          unfold QByte Wide at this
          revert this
          have a1 : asc '"' ∉ atext := by decide
          have a2 : asc '"' ∉ ascii ".\\ \t" := by decide
          have a3 : ¬ 128 ≤ (asc '"').toNat := by decide
          simp [a1, a2, a3]
    · rw [if_neg h1]
      by_cases h2 : QByte na e x ∧ (p = 63 → 128 ≤ x.toNat)
      · rw [if_pos h2, ih]
        constructor
        · rintro ⟨body, rest, rfl, rfl, hb, he, hf, rfl⟩
          exact ⟨x :: body, rest, rfl, by simp; omega, ⟨h2.1, hb⟩, he, (fits_cons _ _ _ _).2 ⟨h2.2, hf⟩, by simp [needs, Bool.or_assoc]⟩
        · rintro ⟨body, rest, hr, rfl, hb, he, hf, rfl⟩
          cases body with
          | nil =>
            have : x = asc '"' := (List.cons.inj hr).1
            exact absurd ⟨this, he⟩ h1
          | cons b body =>
            obtain ⟨rfl, rfl⟩ := List.cons.inj hr
            exact ⟨body, rest, rfl, by simp; omega, hb.2, he, ((fits_cons _ _ _ _).1 hf).2, by simp [needs, Bool.or_assoc]⟩
      · rw [if_neg h2]
        constructor
        · intro h; cases h
        · rintro ⟨body, rest, hr, rfl, hb, he, hf, rfl⟩
          cases body with
          | nil =>
            have : x = asc '"' := (List.cons.inj hr).1
            exact absurd ⟨this, he⟩ h1
          | cons b body =>
            obtain ⟨rfl, rfl⟩ := List.cons.inj hr
            exact absurd ⟨hb.1, ((fits_cons _ _ _ _).1 hf).1⟩ h2

/-- The loop fails with `Invalid` only. -/
theorem quotedLoop_other (na : Allow) (r : List UInt8) (p : Nat) (e nq ld : Bool) :
    (∃ v, quotedLoop na r p e nq ld = .ok v) ∨ quotedLoop na r p e nq ld = .err .invalid := by
  induction r generalizing p e nq ld with
  | nil => exact .inr rfl
  | cons x r ih =>
    rw [quotedLoop_cons]
    split
    · exact .inl ⟨_, rfl⟩
    · split
      · exact ih _ _ _ _
      · exact .inr rfl

/-- The first byte is one step of the loop that starts after a dot. -/
theorem quotedFirst_eq (na : Allow) (x : UInt8) :
    quotedFirst na x = if QByte na false x then .ok (false || escStep false x, needStep true x, dotStep false x) else .err .invalid := by
  rcases classes x with h | rfl | rfl | (rfl | rfl) | h | rfl | h
  · obtain ⟨h1, h2, h3, h4, h5, h6, h7, h8, h9⟩ := h
    have e1 : ¬ x = asc '\\' := by rintro rfl; exact absurd h2 (by decide)
    have e2 : ¬ x = asc ' ' := by rintro rfl; exact absurd h2 (by decide)
    have e3 : ¬ x = asc '\t' := by rintro rfl; exact absurd h2 (by decide)
    have e4 : x ∉ ascii "\\ \t" := fun k => h5 (blank_sub x k)
    have hq : QByte na false x := .inl h2
    simp [quotedFirst, h1, hq, escStep, needStep, dotStep, e1, e2, e3, e4, h9, h4]
  · cases na <;> decide
  · cases na <;> decide
  · cases na <;> decide
  · cases na <;> decide
  · obtain ⟨h1, h2, h3, h4, h5, h6, h7⟩ := h
    have e0 : ¬ x = asc '.' := by rintro rfl; exact h6 (by decide)
    have e1 : ¬ x = asc '\\' := by rintro rfl; exact h6 (by decide)
    have e2 : ¬ x = asc ' ' := by rintro rfl; exact h6 (by decide)
    have e3 : ¬ x = asc '\t' := by rintro rfl; exact h6 (by decide)
    have hnot : ¬ 128 ≤ x.toNat := by omega
    have hq : ¬ QByte na false x := by unfold QByte Wide; simp [h3, h6, hnot]
    have ho : otherByte na x = false := by rw [← Bool.not_eq_true, other_iff]; exact fun k => hnot k.2
    simp [quotedFirst, h1, e0, e1, e2, e3, hq, ho]
  · cases na <;> decide
  · obtain ⟨h1, h2, h3, h4, h5, h6, h7, h8⟩ := h
    have e0 : ¬ x = asc '.' := by rintro rfl; exact h5 (by decide)
    have e1 : ¬ x = asc '\\' := by rintro rfl; exact h5 (by decide)
    have e2 : ¬ x = asc ' ' := by rintro rfl; exact h5 (by decide)
    have e3 : ¬ x = asc '\t' := by rintro rfl; exact h5 (by decide)
    have e4 : x ∉ ascii "\\ \t" := fun k => h5 (blank_sub x k)
    have hq : QByte na false x ↔ otherByte na x = true := by rw [other_iff]; unfold QByte; simp [h3, h4, h5]
    simp [quotedFirst, h1, e0, e1, e2, e3, hq, escStep, needStep, dotStep, h4, e4]

theorem esc_snoc (e : Bool) (pre : List UInt8) (b : UInt8) : escAfter e (pre ++ [b]) = escStep (escAfter e pre) b := by
  induction pre generalizing e with
  | nil => rfl
  | cons x pre ih => exact ih _

theorem escape_rev (r : List UInt8) : escAfter false r.reverse = true ↔ Escape r.reverse := by
  induction r with
  | nil => simp [escAfter, Escape]
  | cons b r ih =>
    rw [List.reverse_cons, esc_snoc]
    unfold Escape at ih ⊢
    rw [List.reverse_append, List.reverse_reverse, List.reverse_singleton, List.singleton_append]
    rw [List.reverse_reverse] at ih
    by_cases h1 : b = asc '\\'
    · subst h1
      rw [List.takeWhile_cons, if_pos (by decide), List.count_cons_self]
      have : escStep (escAfter false r.reverse) (asc '\\') = !(escAfter false r.reverse) := by simp [escStep]
      rw [this]
      cases h : escAfter false r.reverse
      · rw [h] at ih; simp at ih ⊢; omega
      · rw [h] at ih; simp at ih ⊢; omega
    · by_cases h2 : b = asc ' ' ∨ b = asc '\t'
      · have hm : decide (b ∈ ascii "\\ \t") = true := by rcases h2 with rfl | rfl <;> decide
        rw [List.takeWhile_cons, if_pos hm, List.count_cons_of_ne h1]
        simp only [escStep, h1, h2, if_true, if_false]
        exact ih
      · have hm : ¬ decide (b ∈ ascii "\\ \t") = true := by
          rw [decide_eq_true_eq]
          intro k
          have : b ∈ [asc '\\', asc ' ', asc '\t'] := k
          simp only [List.mem_cons, List.not_mem_nil, or_false] at this
          rcases this with h | h | h
          · exact h1 h
          · exact h2 (.inl h)
          · exact h2 (.inr h)
        rw [List.takeWhile_cons, if_neg hm]
        simp [escStep, h1, h2]

theorem escape_iff (t : List UInt8) : escAfter false t = true ↔ Escape t := by
  have := escape_rev t.reverse
  rwa [List.reverse_reverse] at this

theorem qBytes_iff (na : Allow) (e : Bool) (t : List UInt8) :
    QBytes na e t ↔ ∀ pre b post, t = pre ++ b :: post → QByte na (escAfter e pre) b := by
  induction t generalizing e with
  | nil => simp [QBytes]
  | cons x t ih =>
    unfold QBytes
    rw [ih]
    constructor
    · rintro ⟨h1, h2⟩ pre b post h
      cases pre with
      | nil => cases h; exact h1
      | cons y pre => obtain ⟨rfl, rfl⟩ := List.cons.inj h; exact h2 pre b post rfl
    · intro h
      exact ⟨h [] x t rfl, fun pre b post k => h (x :: pre) b post (by rw [k]; rfl)⟩

theorem quoted_iff (na : Allow) (t : List UInt8) :
    Quoted Escape na t ↔ t ≠ [] ∧ QBytes na false t ∧ escAfter false t = false := by
  unfold Quoted
  rw [qBytes_iff]
  have : ¬ Escape t ↔ escAfter false t = false := by rw [← escape_iff]; simp
  rw [this]
  simp only [QByte, escape_iff]

theorem dots_cons (b : UInt8) (t : List UInt8) :
    ascii ".." <:+: b :: t ↔ (b = asc '.' ∧ t.head? = some (asc '.')) ∨ ascii ".." <:+: t := by
  rw [List.infix_cons_iff]
  apply or_congr_left
  show [asc '.', asc '.'] <+: b :: t ↔ _
  rw [List.cons_prefix_cons]
  constructor
  · rintro ⟨rfl, h⟩
    obtain ⟨r, rfl⟩ := h
    exact ⟨rfl, rfl⟩
  · rintro ⟨rfl, h⟩
    cases t with
    | nil => cases h
    | cons c t => simp only [List.head?_cons, Option.some.injEq] at h; subst h; exact ⟨rfl, by simp⟩

/-- The bytes of an unquoted local part. -/
def UByte (na : Allow) (b : UInt8) : Prop := b ∈ atext ∨ b = asc '.' ∨ Wide na b

instance (na : Allow) (b : UInt8) : Decidable (UByte na b) := inferInstanceAs (Decidable (_ ∨ _))

theorem atext_plain : ∀ b ∈ atext, b ∉ specials ∧ b ∉ ascii ".\\ \t" ∧ b.toNat < 128 := by decide

theorem uByte_false (na : Allow) (b : UInt8) (h : QByte na false b) : UByte na b ∨ b ∈ ascii "\\ \t" := by
  rcases h with h | h | h | h
  · exact .inl (.inl h)
  · have : b ∈ [asc '.', asc '\\', asc ' ', asc '\t'] := h
    simp only [List.mem_cons, List.not_mem_nil, or_false] at this
    rcases this with h | h | h | h
    · exact .inl (.inr (.inl h))
    all_goals subst h; exact .inr (by decide)
  · exact .inl (.inr (.inr h))
  · cases h.2

theorem blank_not (na : Allow) (b : UInt8) (h : b ∈ ascii "\\ \t") : ¬ UByte na b := by
  have h1 : ∀ b ∈ ascii "\\ \t", b ∉ atext ∧ b ≠ asc '.' ∧ ¬ 128 ≤ b.toNat := by decide
  rintro (k | k | k)
  · exact (h1 b h).1 k
  · exact (h1 b h).2.1 k
  · exact (h1 b h).2.2 k.2

theorem uByte_steps (na : Allow) (b : UInt8) (ld : Bool) (h : UByte na b) :
    escStep false b = false ∧ needStep ld b = (decide (b = asc '.') && ld) ∧ dotStep ld b = decide (b = asc '.') := by
  have hn : b ∉ ascii "\\ \t" := fun k => blank_not na b k h
  have h1 : b ≠ asc '\\' := by rintro rfl; exact hn (by decide)
  have h2 : b ≠ asc ' ' := by rintro rfl; exact hn (by decide)
  have h3 : b ≠ asc '\t' := by rintro rfl; exact hn (by decide)
  have h4 : b ∉ specials := by
    rcases h with h | rfl | h
    · exact (atext_plain b h).1
    · decide
    · intro k; have := specials_lt b k; have := h.2; omega
  refine ⟨by simp [escStep, h1, h2, h3], ?_, ?_⟩
  · unfold needStep
    by_cases hd : b = asc '.'
    · simp [hd]
    · simp [hd, hn]
  · unfold dotStep
    by_cases hd : b = asc '.'
    · simp [hd]
    · simp [hd, hn, h4]

theorem needs_iff (na : Allow) (t : List UInt8) (ld : Bool) (h : QBytes na false t) :
    needs ld t = false ↔ (∀ b ∈ t, UByte na b) ∧ (ld = true → t.head? ≠ some (asc '.')) ∧ ¬ ascii ".." <:+: t := by
  induction t generalizing ld with
  | nil => simp [needs, ascii]
  | cons b t ih =>
    rcases uByte_false na b h.1 with hb | hb
    · obtain ⟨s1, s2, s3⟩ := uByte_steps na b ld hb
      have h2 : QBytes na false t := by have := h.2; rwa [s1] at this
      unfold needs
      rw [s2, s3, Bool.or_eq_false_iff, ih _ h2, dots_cons]
      simp only [List.mem_cons, forall_eq_or_imp, List.head?_cons, ne_eq, Option.some.injEq, decide_eq_true_eq, Bool.and_eq_false_iff,
        decide_eq_false_iff_not, not_or, not_and]
      constructor
      · rintro ⟨h1, h2, h3, h4⟩
        refine ⟨⟨hb, h2⟩, fun hl => ?_, h3, h4⟩
        rcases h1 with h1 | h1
        · exact h1
        · rw [hl] at h1; cases h1
      · rintro ⟨⟨_, h1⟩, h2, h3, h4⟩
        refine ⟨?_, h1, h3, h4⟩
        cases ld
        · exact .inr rfl
        · exact .inl (h2 rfl)
    · have : needStep ld b = true := by
        have h1 : ∀ b ∈ ascii "\\ \t", b ≠ asc '.' := by decide
        simp [needStep, h1 b hb, hb]
      constructor
      · intro k
        unfold needs at k
        rw [this] at k; cases k
      · rintro ⟨k, _⟩
        exact absurd (k b (by simp)) (blank_not na b hb)

/-- `need_quoted` says that the text needs quotation marks. -/
theorem needQuoted_iff (na : Allow) (b : UInt8) (t : List UInt8) (h : QBytes na false (b :: t)) :
    (needStep true b || needs (dotStep false b) t) = true ↔ ¬ Unquoted na (b :: t) := by
  have key : (needStep true b || needs (dotStep false b) t) = needs true (b :: t) := by
    show _ = (needStep true b || needs (dotStep true b) t)
    rcases uByte_false na b h.1 with hb | hb
    · rw [(uByte_steps na b true hb).2.2, (uByte_steps na b false hb).2.2]
    · have : needStep true b = true := by
        have h1 : ∀ b ∈ ascii "\\ \t", b ≠ asc '.' := by decide
        simp [needStep, h1 b hb, hb]
      simp [this]
  rw [key, ← Bool.not_eq_false, needs_iff na _ _ h]
  apply not_congr
  unfold Unquoted UByte
  constructor
  · rintro ⟨h1, h2, h3⟩; exact ⟨by simp, h2 rfl, h1, h3⟩
  · rintro ⟨_, h1, h2, h3⟩; exact ⟨h2, fun _ => h1, h3⟩

/-! ### Unquoted -/

theorem unquotedLoop_cons (na : Allow) (x : UInt8) (r : List UInt8) (p : Nat) (ld : Bool) :
    unquotedLoop na (x :: r) p ld =
      if x = asc '@' ∨ x = asc '(' then .ok p
      else if UByte na x ∧ (x = asc '.' → ld = false) ∧ (p = 64 → 128 ≤ x.toNat) then unquotedLoop na r (p + 1) (decide (x = asc '.'))
      else .err .invalid := by
  rcases classes x with h | rfl | rfl | (rfl | rfl) | h | rfl | h
  · obtain ⟨h1, h2, h3, h4, h5, h6, h7, h8, h9⟩ := h
    have hq : UByte na x := .inl h2
    have hnot : ¬ 128 ≤ x.toNat := by omega
    simp only [unquotedLoop, h1, h7, h8, h9, hq, hnot, if_true, or_self, if_false, imp_false, true_and, false_implies, decide_false]
    split <;> simp_all
  · have hq : UByte na (asc '.') := .inr (.inl rfl)
    have hnot : ¬ 128 ≤ (asc '.').toNat := by decide
    have f1 : isAtext (asc '.') = false := by decide
    have f2 : ¬ asc '.' = asc '@' := by decide
    have f3 : ¬ asc '.' = asc '(' := by decide
    simp only [unquotedLoop, f1, f2, f3, hq, hnot, if_true, or_self, if_false, imp_false, true_and, true_implies, decide_true, Bool.false_eq_true]
    cases ld <;> simp
  all_goals first
    | (obtain ⟨h1, h2, h3, h4, h5, h6, h7⟩ := h
       have hnot : ¬ 128 ≤ x.toNat := by omega
       have e0 : ¬ x = asc '.' := by rintro rfl; exact h6 (by decide)
       have hq : ¬ UByte na x := by unfold UByte Wide; simp [h3, e0, hnot]
       have ho : otherByte na x = false := by rw [← Bool.not_eq_true, other_iff]; exact fun k => hnot k.2
       simp only [unquotedLoop, h1, e0, hq, ho, if_false, false_and, Bool.false_eq_true])
    | (obtain ⟨h1, h2, h3, h4, h5, h6, h7, h8⟩ := h
       have e0 : ¬ x = asc '.' := by rintro rfl; exact h5 (by decide)
       have hq : UByte na x ∧ (x = asc '.' → ld = false) ∧ (p = 64 → 128 ≤ x.toNat) ↔ otherByte na x = true := by
         rw [other_iff]
         unfold UByte
         simp only [h3, e0, false_or, false_implies, true_and]
         exact ⟨fun k => k.1, fun k => ⟨k, fun _ => k.2⟩⟩
       simp only [hq]
       simp only [unquotedLoop, h1, e0, h7, h8, or_self, if_false, Bool.false_eq_true, decide_false])
    | (rw [if_neg (by decide), if_neg (by
         rintro ⟨k | k | k, _⟩
         · exact absurd k (by decide)
         · exact absurd k (by decide)
         · exact absurd k.2 (by decide))]
       unfold unquotedLoop
       rw [if_neg (by decide), if_neg (by decide), if_neg (by decide), if_neg (by cases na <;> decide)])

theorem unquotedLoop_ok (na : Allow) (r : List UInt8) (p : Nat) (ld : Bool) (q : Nat) :
    unquotedLoop na r p ld = .ok q ↔
      ∃ body rest, r = body ++ rest ∧ q = p + body.length ∧ (rest.head? = some (asc '@') ∨ rest.head? = some (asc '(')) ∧
        (∀ b ∈ body, UByte na b) ∧ (ld = true → body.head? ≠ some (asc '.')) ∧ ¬ ascii ".." <:+: body ∧ Fits 64 p body := by
  induction r generalizing p ld with
  | nil =>
    constructor
    · intro h; cases h
    · rintro ⟨body, rest, h, _, hr, _⟩
      have : rest = [] := (List.append_eq_nil_iff.1 h.symm).2
      subst this
      simp at hr
  | cons x r ih =>
    rw [unquotedLoop_cons]
    by_cases h1 : x = asc '@' ∨ x = asc '('
    · rw [if_pos h1]
      constructor
      · intro h; cases h
        exact ⟨[], x :: r, rfl, rfl, by simpa using h1, by simp, by simp, by simp [ascii], fits_nil _ _⟩
      · rintro ⟨body, rest, hr, rfl, _, hb, _⟩
        cases body with
        | nil => rfl
        | cons b body =>
          have : x = b := (List.cons.inj hr).1
          subst this
          rcases hb x (by simp) with k | k | k
          · rcases h1 with rfl | rfl <;> exact absurd k (by decide)
          · rcases h1 with rfl | rfl <;> exact absurd k (by decide)
          · rcases h1 with rfl | rfl <;> exact absurd k.2 (by decide)
    · rw [if_neg h1]
      have hnil : ∀ rest : List UInt8, x :: r = [] ++ rest → ¬ (rest.head? = some (asc '@') ∨ rest.head? = some (asc '(')) := by
        rintro rest rfl k
        exact h1 (by simpa using k)
      by_cases h2 : UByte na x ∧ (x = asc '.' → ld = false) ∧ (p = 64 → 128 ≤ x.toNat)
      · rw [if_pos h2, ih]
        constructor
        · rintro ⟨body, rest, rfl, rfl, hr, hb, hd, hdd, hf⟩
          refine ⟨x :: body, rest, rfl, by simp; omega, hr, ?_, ?_, ?_, (fits_cons _ _ _ _).2 ⟨h2.2.2, hf⟩⟩
          · intro b hm
            rcases List.mem_cons.1 hm with rfl | hm
            · exact h2.1
            · exact hb b hm
          · intro hl k
            have : x = asc '.' := by simpa using k
            rw [h2.2.1 this] at hl; cases hl
          · rw [dots_cons, not_or]
            exact ⟨fun k => hd (by simp [k.1]) k.2, hdd⟩
        · rintro ⟨body, rest, hr, rfl, hh, hb, hd, hdd, hf⟩
          cases body with
          | nil => exact absurd hh (hnil rest hr)
          | cons b body =>
            obtain ⟨rfl, rfl⟩ := List.cons.inj hr
            rw [dots_cons, not_or] at hdd
            exact ⟨body, rest, rfl, by simp; omega, hh, fun c hc => hb c (by simp [hc]), fun k => by
              intro k2
              exact hdd.1 ⟨by simpa using k, k2⟩, hdd.2, ((fits_cons _ _ _ _).1 hf).2⟩
      · rw [if_neg h2]
        constructor
        · intro h; cases h
        · rintro ⟨body, rest, hr, rfl, hh, hb, hd, hdd, hf⟩
          cases body with
          | nil => exact absurd hh (hnil rest hr)
          | cons b body =>
            obtain ⟨rfl, rfl⟩ := List.cons.inj hr
            refine absurd ⟨hb x (by simp), fun k => ?_, ((fits_cons _ _ _ _).1 hf).1⟩ h2
            cases ld
            · rfl
            · exact absurd (by simp [k]) (hd rfl)

theorem unquotedLoop_other (na : Allow) (r : List UInt8) (p : Nat) (ld : Bool) :
    (∃ v, unquotedLoop na r p ld = .ok v) ∨ unquotedLoop na r p ld = .err .invalid := by
  induction r generalizing p ld with
  | nil => exact .inr rfl
  | cons x r ih =>
    rw [unquotedLoop_cons]
    split
    · exact .inl ⟨_, rfl⟩
    · split
      · exact ih _ _
      · exact .inr rfl

end Verif.Email
