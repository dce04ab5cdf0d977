import Verif.Proof.EmailShow
import Verif.Proof.Mailbox
import Verif.Proof.Uri
import Verif.Proof.MacUuidPrint

/-!
# Lemmas: texts that identify what was written
-/

namespace Verif.Written

open Verif.Spec Verif.Spec.Ip Verif.Spec.Email Verif.StdIp Verif.Hex
open Verif.Spec.IntV (decDigits)
open Verif.IntV (showNat showNat_value showNat_digits showNat_ne_nil)

/-! ## Cutting -/

/-- Lists cut at a first occurrence. -/
theorem cut_first {c : UInt8} {a b x y : List UInt8} (ha : c ∉ a) (hb : c ∉ b) (h : a ++ c :: x = b ++ c :: y) : a = b ∧ x = y := by
  induction a generalizing b with
  | nil =>
    cases b with
    | nil => exact ⟨rfl, (List.cons.inj h).2⟩
    | cons d b => exact absurd (List.mem_cons.2 (.inl (List.cons.inj h).1)) hb
  | cons e a ih =>
    cases b with
    | nil => exact absurd (List.mem_cons.2 (.inl (List.cons.inj h).1.symm)) ha
    | cons d b =>
      obtain ⟨h1, h2⟩ := List.cons.inj h
      obtain ⟨h3, h4⟩ := ih (fun k => ha (List.mem_cons_of_mem _ k)) (fun k => hb (List.mem_cons_of_mem _ k)) h2
      exact ⟨by rw [h1, h3], h4⟩

/-- Lists cut at a last occurrence. -/
theorem cut_last {c : UInt8} {a b x y : List UInt8} (hx : c ∉ x) (hy : c ∉ y) (h : a ++ c :: x = b ++ c :: y) : a = b ∧ x = y := by
  have := congrArg List.reverse h
  simp only [List.reverse_append, List.reverse_cons, List.append_assoc, List.singleton_append] at this
  obtain ⟨h1, h2⟩ := cut_first (by simpa using hx) (by simpa using hy) this
  exact ⟨List.reverse_inj.1 h2, List.reverse_inj.1 h1⟩

theorem showNat_inj {m n : Nat} (h : showNat m = showNat n) : m = n := by
  rw [← showNat_value m, h, showNat_value]

theorem showNat_no {c : UInt8} (hc : c ∉ decDigits) (n : Nat) : c ∉ showNat n := fun h => hc (showNat_digits n c h)

/-- A text and a port. -/
def withPort (t : List UInt8) : Option Nat → List UInt8
  | some n => t ++ asc ':' :: showNat n
  | none => t

/-- The last byte of a port is a digit. -/
theorem withPort_last {t : List UInt8} {n : Nat} : ∃ b ∈ decDigits, (withPort t (some n)).getLast? = some b := by
  obtain ⟨b, hb⟩ : ∃ b, (showNat n).getLast? = some b := by
    cases h : (showNat n).getLast? with
    | none => exact absurd (List.getLast?_eq_none_iff.1 h) (showNat_ne_nil n)
    | some b => exact ⟨b, rfl⟩
  refine ⟨b, showNat_digits n b (List.mem_of_getLast? hb), ?_⟩
  simp [withPort, hb, List.getLast?_cons]

/-- A text without colons and a port. -/
theorem withPort_inj {a b : List UInt8} {p q : Option Nat} (ha : p = none → asc ':' ∉ a) (hb : q = none → asc ':' ∉ b)
    (h : withPort a p = withPort b q) : a = b ∧ p = q := by
  cases p with
  | none =>
    cases q with
    | none => exact ⟨h, rfl⟩
    | some n => exact absurd (show asc ':' ∈ a by rw [show a = b ++ asc ':' :: showNat n from h]; simp) (ha rfl)
  | some m =>
    cases q with
    | none => exact absurd (show asc ':' ∈ b by rw [← show a ++ asc ':' :: showNat m = b from h]; simp) (hb rfl)
    | some n =>
      obtain ⟨h1, h2⟩ := cut_last (showNat_no (by decide) m) (showNat_no (by decide) n) (show a ++ asc ':' :: showNat m = b ++ asc ':' :: showNat n from h)
      exact ⟨h1, by rw [showNat_inj h2]⟩

/-- A text in brackets and a port. -/
theorem bracket_inj {a b : List UInt8} {p q : Option Nat} (ha : asc ']' ∉ a) (hb : asc ']' ∉ b)
    (h : withPort (asc '[' :: a ++ [asc ']']) p = withPort (asc '[' :: b ++ [asc ']']) q) : a = b ∧ p = q := by
  have e : ∀ (t : List UInt8) (p : Option Nat), withPort (asc '[' :: t ++ [asc ']']) p = asc '[' :: (t ++ asc ']' :: withPort [] p) := by
    intro t p
    cases p <;> simp [withPort]
  rw [e, e] at h
  obtain ⟨h1, h2⟩ := cut_first ha hb (List.cons.inj h).2
  exact ⟨h1, (withPort_inj (fun _ => by simp) (fun _ => by simp) h2).2⟩

/-! ## Addresses -/

theorem showV4_inj {x y : V4} (h : showV4 x = showV4 y) : x = y := by
  rw [showV4_eq, showV4_eq] at h
  exact Ip.text_inj x y h

theorem showV6_inj {x y : V6} (h : showV6 x = showV6 y) : x = y := by
  have h1 := (parseV6_iff _ _).2 (showV6_text x)
  have h2 := (parseV6_iff _ _).2 (showV6_text y)
  rw [h, h2] at h1
  exact (Option.some.inj h1).symm

theorem showV4_no_colon (x : V4) : asc ':' ∉ showV4 x := by
  rw [showV4_eq]; exact Ip.text_no_colon x

theorem showV6_no_bracket (x : V6) : asc ']' ∉ showV6 x := (Ip.v6Text_no_bracket _ _ (showV6_text x)).2

theorem uriV4_eq (p : V4 × Option Nat) : Ip.uriV4 p = withPort (showV4 p.1) p.2 := by
  obtain ⟨a, p⟩ := p; cases p <;> rfl

theorem uriV6_eq (p : V6 × Option Nat) : Ip.uriV6 p = withPort (asc '[' :: showV6 p.1 ++ [asc ']']) p.2 := by
  obtain ⟨a, p⟩ := p; cases p <;> simp [Ip.uriV6, withPort]

theorem uriV4_head (p : V4 × Option Nat) : (Ip.uriV4 p).head? ≠ some (asc '[') := by
  have h : (showV4 p.1).head? ≠ some (asc '[') ∧ showV4 p.1 ≠ [] := by
    rw [showV4_eq]
    refine ⟨fun h => ?_, fun h => ?_⟩
    · rcases Ip.text_bytes p.1 _ (List.mem_of_mem_head? h) with k | k <;> revert k <;> decide
    · have : asc '.' ∈ p.1.text := by simp [V4.text, dotted, ascii]
      rw [h] at this; cases this
  rw [uriV4_eq]
  obtain ⟨a, p⟩ := p
  cases hs : showV4 a with
  | nil => exact absurd hs h.2
  | cons b t =>
    rw [hs] at h
    cases p <;> simpa [withPort] using h.1

theorem uriV6_head (p : V6 × Option Nat) : (Ip.uriV6 p).head? = some (asc '[') := by
  rw [uriV6_eq]; obtain ⟨a, p⟩ := p; cases p <;> simp [withPort]

/-! ## Hexadecimal -/

theorem fmtHex_inj (case : CaseOption) {w m n : Nat} (hw : 0 < w) (hw' : w ≤ 32) (hm : m < 16 ^ w) (hn : n < 16 ^ w)
    (h : fmtHex (caseUpper case) w m = fmtHex (caseUpper case) w n) : m = n := by
  rw [← (fmtHex_spec case w m hw hw' hm).2.2, h, (fmtHex_spec case w n hw hw' hn).2.2]

theorem byte_inj (case : CaseOption) {m n i : Nat} {x y : List UInt8}
    (h : fmtHex (caseUpper case) 2 (leByte m i) ++ x = fmtHex (caseUpper case) 2 (leByte n i) ++ y) : leByte m i = leByte n i ∧ x = y := by
  have hl : ∀ n, (fmtHex (caseUpper case) 2 (leByte n i)).length = 2 := fun n => (fmtHex_spec case 2 _ (by decide) (by decide) (leByte_lt n i)).1
  obtain ⟨h1, h2⟩ := List.append_inj h (by rw [hl, hl])
  exact ⟨fmtHex_inj case (by decide) (by decide) (leByte_lt m i) (leByte_lt n i) h1, h2⟩

theorem leBytes_inj (k : Nat) : ∀ {m n : Nat}, m < 256 ^ k → n < 256 ^ k → (∀ i < k, leByte m i = leByte n i) → m = n := by
  induction k with
  | zero => intro m n hm hn _; simp at hm hn; omega
  | succ k ih =>
    intro m n hm hn h
    have h0 := h 0 (by omega)
    have hd : m / 256 = n / 256 := by
      apply ih
      · rw [Nat.pow_succ] at hm; exact Nat.div_lt_of_lt_mul (by omega)
      · rw [Nat.pow_succ] at hn; exact Nat.div_lt_of_lt_mul (by omega)
      · intro i hi
        have := h (i + 1) (by omega)
        simp only [leByte, Nat.div_div_eq_div_mul] at this ⊢
        rw [Nat.pow_succ, Nat.mul_comm] at this
        exact this
    simp only [leByte, Nat.pow_zero, Nat.div_one] at h0
    omega

/-! ## Emails -/

/-- Comments. -/
theorem comment_inj {c d : Option (List UInt8)} {x y : List UInt8} (hc : Closed c) (hd : Closed d) (hx : x.head? ≠ some (asc '(')) (hy : y.head? ≠ some (asc '('))
    (h : comment c ++ x = comment d ++ y) : c = d ∧ x = y := by
  have e : ∀ (t x : List UInt8), comment (some t) ++ x = asc '(' :: (t ++ asc ')' :: x) := by intro t x; simp [comment, ascii]
  cases c with
  | none =>
    cases d with
    | none => exact ⟨rfl, h⟩
    | some t =>
      rw [e] at h
      exact absurd (show x.head? = _ by rw [show x = _ from h]; rfl) hx
  | some s =>
    cases d with
    | none =>
      rw [e] at h
      exact absurd (show y.head? = _ by rw [← show _ = y from h]; rfl) hy
    | some t =>
      rw [e, e] at h
      obtain ⟨h1, h2⟩ := cut_first (hc s rfl) (hd t rfl) (List.cons.inj h).2
      exact ⟨by rw [h1], h2⟩

/-- Texts in quotation marks. -/
theorem quoted_inj (na : Allow) {s t x y : List UInt8} (hs : Quoted Escape na s) (ht : Quoted Escape na t) (h : s ++ asc '"' :: x = t ++ asc '"' :: y) : s = t ∧ x = y := by
  have key : ∀ {s t x y : List UInt8}, Quoted Escape na s → Quoted Escape na t → s ++ asc '"' :: x = t ++ asc '"' :: y → ∀ r, t = s ++ r → r = [] := by
    intro s t x y hs ht h r e
    cases r with
    | nil => rfl
    | cons b r =>
      subst e
      rw [List.append_assoc] at h
      have hb : b = asc '"' := (List.cons.inj (List.append_cancel_left h)).1.symm
      subst hb
      rcases ht.2.1 s _ r rfl with k | k | k | k
      · exact absurd k (by decide)
      · exact absurd k (by decide)
      · exact absurd k.2 (by decide)
      · exact absurd k.2 hs.2.2
  rcases List.append_eq_append_iff.1 h with ⟨r, e, _⟩ | ⟨r, e, _⟩
  · have := key hs ht h r e
    subst this
    rw [List.append_nil] at e
    subst e
    exact ⟨rfl, (List.cons.inj (List.append_cancel_left h)).2⟩
  · have := key ht hs h.symm r e
    subst this
    rw [List.append_nil] at e
    subst e
    exact ⟨rfl, (List.cons.inj (List.append_cancel_left h)).2⟩

/-- Texts that end where the first byte without the property is. -/
theorem stop_inj {P : UInt8 → Prop} {a b x y : List UInt8} (ha : ∀ c ∈ a, P c) (hb : ∀ c ∈ b, P c) (hx : ∀ c, x.head? = some c → ¬ P c)
    (hy : ∀ c, y.head? = some c → ¬ P c) (h : a ++ x = b ++ y) : a = b ∧ x = y := by
  induction a generalizing b with
  | nil =>
    cases b with
    | nil => exact ⟨rfl, h⟩
    | cons d b =>
      have : x = d :: (b ++ y) := h
      exact absurd (hb d (by simp)) (hx d (by rw [this]; rfl))
  | cons e a ih =>
    cases b with
    | nil =>
      have : e :: (a ++ x) = y := h
      exact absurd (ha e (by simp)) (hy e (by rw [← this]; rfl))
    | cons d b =>
      obtain ⟨h1, h2⟩ := List.cons.inj h
      obtain ⟨h3, h4⟩ := ih (fun c k => ha c (List.mem_cons_of_mem _ k)) (fun c k => hb c (List.mem_cons_of_mem _ k)) h2
      exact ⟨by rw [h1, h3], h4⟩

end Verif.Written
