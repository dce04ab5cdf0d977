import Verif.Proof.FloatRound
import Verif.Proof.BaseN

/-!
# Lemmas about floats: the texts that are read
-/

namespace Verif.Float

open Verif.Spec.Float
open Verif.Spec.IntV (decDigits decValue Numeral)

variable {F : Fmt}

theorem isDigit_iff (b : UInt8) : isDigit b = true ↔ b ∈ decDigits := by
  revert b; apply BaseN.forall_uint8; decide +kernel

theorem digit_value (b : UInt8) (h : b ∈ decDigits) : decDigits.idxOf b = b.toNat - 48 := by
  revert b; apply BaseN.forall_uint8; decide +kernel

theorem digits_eq (acc : ℕ) (ds : List UInt8) (h : ∀ b ∈ ds, b ∈ decDigits) : digits acc ds = acc * 10 ^ ds.length + decValue ds := by
  induction ds generalizing acc with
  | nil => exact (Nat.mul_one acc).symm
  | cons b ds ih =>
    have e : digits acc (b :: ds) = digits (acc * 10 + (b.toNat - 48)) ds := rfl
    rw [e, ih _ fun c hc => h c (by simp [hc]), decValue, digit_value b (h b (by simp)), List.length_cons, pow_succ]
    ring

theorem digits_zero (ds : List UInt8) (h : ∀ b ∈ ds, b ∈ decDigits) : digits 0 ds = decValue ds := by
  rw [digits_eq 0 ds h]; simp

theorem minus_not_digit : asc '-' ∉ decDigits := by decide
theorem plus_not_digit : asc '+' ∉ decDigits := by decide
theorem plus_ne_minus : asc '+' ≠ asc '-' := by decide

theorem all_digits (t : List UInt8) : t.all isDigit = true ↔ ∀ b ∈ t, b ∈ decDigits := by
  simp [List.all_eq_true, isDigit_iff]

theorem exponent_iff (s : List UInt8) (x : ℤ) : exponent s = some x ↔ Numeral true s x := by
  have hcore : ∀ (neg : Bool) (t : List UInt8), (if t ≠ [] ∧ t.all isDigit = true then
      some (if neg = true then -(digits 0 t : ℤ) else (digits 0 t : ℤ)) else none) = some x ↔
      t ≠ [] ∧ (∀ b ∈ t, b ∈ decDigits) ∧ x = if neg = true then -(decValue t : ℤ) else decValue t := by
    intro neg t
    simp only [all_digits]
    constructor
    · intro h
      split at h
      · rename_i hc
        rw [digits_zero t hc.2] at h
        exact ⟨hc.1, hc.2, (Option.some.inj h).symm⟩
      · exact absurd h (by simp)
    · rintro ⟨h1, h2, rfl⟩
      rw [if_pos ⟨h1, h2⟩, digits_zero t h2]
  have hm := minus_not_digit
  have hp := plus_not_digit
  have hpm := plus_ne_minus
  unfold exponent Numeral
  cases s with
  | nil =>
    simp only [hcore]
    constructor
    · rintro ⟨h, -⟩; exact absurd rfl h
    · rintro ⟨ds, h, -, (⟨h' | h', -⟩ | ⟨-, h', -⟩)⟩
      · exact absurd h'.symm h
      · exact absurd h' (by simp)
      · exact absurd h' (by simp)
  | cons b rest =>
    by_cases h1 : b = asc '-'
    · subst h1
      refine Iff.trans (hcore true rest) ?_
      simp only [if_true]
      constructor
      · rintro ⟨a, b, c⟩; exact ⟨rest, a, b, .inr ⟨trivial, rfl, c⟩⟩
      · rintro ⟨ds, a, b, (⟨h' | h', c⟩ | ⟨-, h', c⟩)⟩
        · subst h'; exact absurd (b _ (by simp)) hm
        · rw [List.cons.injEq] at h'; exact absurd h'.1.symm hpm
        · rw [List.cons.injEq] at h'; obtain ⟨-, rfl⟩ := h'; exact ⟨a, b, c⟩
    · by_cases h2 : b = asc '+'
      · subst h2
        simp only [if_true, if_neg h1, hcore]
        constructor
        · rintro ⟨a, b, c⟩; exact ⟨rest, a, b, .inl ⟨.inr rfl, by simpa using c⟩⟩
        · rintro ⟨ds, a, b, (⟨h' | h', c⟩ | ⟨-, h', c⟩)⟩
          · subst h'; exact absurd (b _ (by simp)) hp
          · rw [List.cons.injEq] at h'; obtain ⟨-, rfl⟩ := h'; exact ⟨a, b, by simpa using c⟩
          · rw [List.cons.injEq] at h'; exact absurd h'.1 hpm
      · simp only [if_neg h1, if_neg h2, hcore]
        constructor
        · rintro ⟨a, b, c⟩; exact ⟨_, a, b, .inl ⟨.inl rfl, by simpa using c⟩⟩
        · rintro ⟨ds, a, b, (⟨h' | h', c⟩ | ⟨-, h', c⟩)⟩
          · subst h'; exact ⟨a, b, by simpa using c⟩
          · rw [List.cons.injEq] at h'; exact absurd h'.1 h2
          · rw [List.cons.injEq] at h'; exact absurd h'.1 h1

theorem split_digits (a r : List UInt8) (ha : ∀ b ∈ a, b ∈ decDigits) (hr : ∀ b t, r = b :: t → b ∉ decDigits) :
    (a ++ r).takeWhile isDigit = a ∧ (a ++ r).dropWhile isDigit = r := by
  induction a with
  | nil =>
    cases r with
    | nil => simp
    | cons b t =>
      have : ¬ isDigit b = true := mt (isDigit_iff b).mp (hr b t rfl)
      simp [this]
  | cons c a ih =>
    have h1 : isDigit c = true := (isDigit_iff c).mpr (ha c (by simp))
    obtain ⟨h2, h3⟩ := ih fun b hb => ha b (by simp [hb])
    simp [h1, h2, h3]

theorem takeWhile_digits (s : List UInt8) : ∀ b ∈ s.takeWhile isDigit, b ∈ decDigits := by
  intro b hb
  rw [← isDigit_iff]
  have h := List.all_takeWhile (p := isDigit) (l := s)
  rw [List.all_eq_true] at h
  exact h b hb

theorem expPart_head {exp : List UInt8} {x : ℤ} (h : ExpPart exp x) : ∀ b t, exp = b :: t → b = asc 'e' ∨ b = asc 'E' := by
  rintro b t rfl
  rcases h with ⟨h, -⟩ | ⟨e, n, h, he, -⟩
  · exact absurd h (by simp)
  · rw [List.cons.injEq] at h; rw [h.1]; exact he

theorem e_not_digit (b : UInt8) (h : b = asc 'e' ∨ b = asc 'E') : b ∉ decDigits ∧ b ≠ asc '.' := by
  rcases h with rfl | rfl <;> decide

theorem point_not_digit : asc '.' ∉ decDigits := by decide

/-- A decimal text without sign. -/
def Body (t : List UInt8) (n : ℕ) (e : ℤ) : Prop :=
  ∃ int point frac exp x, t = int ++ point ++ frac ++ exp ∧ (∀ b ∈ int ++ frac, b ∈ decDigits) ∧ int ++ frac ≠ [] ∧
    (point = [] ∧ frac = [] ∨ point = [asc '.']) ∧ ExpPart exp x ∧ n = decValue (int ++ frac) ∧ e = x - frac.length

/-- The end of `number`. -/
def tail (int frac rest : List UInt8) : Option (ℕ × ℤ) :=
  if int.length + frac.length = 0 then none
  else
    match rest with
    | [] => some (digits 0 (int ++ frac), -(frac.length : ℤ))
    | b :: r =>
      if b = asc 'e' ∨ b = asc 'E' then (exponent r).map fun x => (digits 0 (int ++ frac), x - frac.length)
      else none

theorem tail_iff (int frac rest : List UInt8) (hd : ∀ b ∈ int ++ frac, b ∈ decDigits) (n : ℕ) (e : ℤ) :
    tail int frac rest = some (n, e) ↔
      int ++ frac ≠ [] ∧ ∃ x, ExpPart rest x ∧ n = decValue (int ++ frac) ∧ e = x - frac.length := by
  have h0 : int.length + frac.length = 0 ↔ int ++ frac = [] := by simp
  unfold tail
  simp only [h0]
  by_cases h : int ++ frac = []
  · simp [h]
  · simp only [h, if_false, ne_eq, not_false_eq_true, true_and, digits_zero _ hd]
    cases rest with
    | nil =>
      constructor
      · intro hh
        simp only [Option.some.injEq, Prod.mk.injEq] at hh
        exact ⟨0, .inl ⟨rfl, rfl⟩, hh.1.symm, by omega⟩
      · rintro ⟨x, (⟨-, rfl⟩ | ⟨_, _, h', -⟩), rfl, rfl⟩
        · simp
        · exact absurd h' (by simp)
    | cons b r =>
      by_cases hb : b = asc 'e' ∨ b = asc 'E'
      · simp only [hb, if_true]
        constructor
        · intro hh
          rw [Option.map_eq_some_iff] at hh
          obtain ⟨x, hx, hh⟩ := hh
          rw [Prod.mk.injEq] at hh
          exact ⟨x, .inr ⟨b, r, rfl, hb, (exponent_iff r x).mp hx⟩, hh.1.symm, hh.2.symm⟩
        · rintro ⟨x, (⟨h', -⟩ | ⟨_, _, h', -, hx⟩), rfl, rfl⟩
          · exact absurd h' (by simp)
          · rw [List.cons.injEq] at h'
            obtain ⟨rfl, rfl⟩ := h'
            rw [(exponent_iff _ x).mpr hx]; rfl
      · simp only [hb, if_false]
        constructor
        · intro hh; exact absurd hh (by simp)
        · rintro ⟨x, hx, -⟩
          exact absurd (expPart_head hx b r rfl) hb

theorem number_eq (s : List UInt8) : number s = match s.dropWhile isDigit with
    | [] => tail (s.takeWhile isDigit) [] []
    | b :: r => if b = asc '.' then tail (s.takeWhile isDigit) (r.takeWhile isDigit) (r.dropWhile isDigit)
      else tail (s.takeWhile isDigit) [] (b :: r) := by
  unfold number
  cases h : s.dropWhile isDigit with
  | nil => rfl
  | cons b r =>
    by_cases hb : b = asc '.'
    · simp only [hb, if_true]; rfl
    · simp only [hb, if_false]; rfl

theorem number_iff (s : List UInt8) (n : ℕ) (e : ℤ) : number s = some (n, e) ↔ Body s n e := by
  constructor
  · intro h
    rw [number_eq] at h
    have happ := List.takeWhile_append_dropWhile (p := isDigit) (l := s)
    have hint := takeWhile_digits s
    cases hd : s.dropWhile isDigit with
    | nil =>
      rw [hd] at h happ
      simp only at h
      rw [tail_iff _ _ _ (by simpa using hint)] at h
      obtain ⟨h1, x, h2, h3, h4⟩ := h
      exact ⟨_, [], [], [], x, by simpa using happ.symm, by simpa using hint, h1, .inl ⟨rfl, rfl⟩, h2, h3, h4⟩
    | cons b r =>
      rw [hd] at h happ
      simp only at h
      by_cases hb : b = asc '.'
      · rw [if_pos hb] at h
        have hr := List.takeWhile_append_dropWhile (p := isDigit) (l := r)
        have hall : ∀ b ∈ s.takeWhile isDigit ++ r.takeWhile isDigit, b ∈ decDigits := by
          intro c hc
          rcases List.mem_append.mp hc with hc | hc
          · exact hint c hc
          · exact takeWhile_digits r c hc
        rw [tail_iff _ _ _ hall] at h
        obtain ⟨h1, x, h2, h3, h4⟩ := h
        refine ⟨_, [asc '.'], _, _, x, ?_, hall, h1, .inr rfl, h2, h3, h4⟩
        rw [List.append_assoc, hr, List.append_assoc, ← hb]
        exact happ.symm
      · rw [if_neg hb, tail_iff _ _ _ (by simpa using hint)] at h
        obtain ⟨h1, x, h2, h3, h4⟩ := h
        exact ⟨_, [], [], b :: r, x, by simpa using happ.symm, by simpa using hint, h1, .inl ⟨rfl, rfl⟩, h2, h3, h4⟩
  · rintro ⟨int, point, frac, exp, x, rfl, hd, hne, hpt, hx, rfl, rfl⟩
    rw [number_eq]
    have hint : ∀ b ∈ int, b ∈ decDigits := fun b hb => hd b (by simp [hb])
    have hfrac : ∀ b ∈ frac, b ∈ decDigits := fun b hb => hd b (by simp [hb])
    have hexp : ∀ b t, exp = b :: t → b ∉ decDigits := fun b t h => (e_not_digit b (expPart_head hx b t h)).1
    rcases hpt with ⟨rfl, rfl⟩ | rfl
    · simp only [List.append_nil] at *
      obtain ⟨h1, h2⟩ := split_digits int exp hint hexp
      rw [h1, h2]
      cases exp with
      | nil => simpa using (tail_iff int [] [] (by simpa using hint) _ _).mpr ⟨by simpa using hne, x, hx, rfl, rfl⟩
      | cons b t =>
        simp only [(e_not_digit b (expPart_head hx b t rfl)).2, if_false]
        simpa using (tail_iff int [] (b :: t) (by simpa using hint) _ _).mpr ⟨by simpa using hne, x, hx, rfl, rfl⟩
    · have e : int ++ [asc '.'] ++ frac ++ exp = int ++ (asc '.' :: (frac ++ exp)) := by simp
      rw [e]
      obtain ⟨h1, h2⟩ := split_digits int (asc '.' :: (frac ++ exp)) hint (by
        rintro b t h; rw [List.cons.injEq] at h; rw [← h.1]; exact point_not_digit)
      obtain ⟨h3, h4⟩ := split_digits frac exp hfrac hexp
      rw [h1, h2]
      simp only [if_true, h3, h4]
      exact (tail_iff int frac exp hd _ _).mpr ⟨hne, x, hx, rfl, rfl⟩

/-! ## After the sign -/

theorem body_head {t : List UInt8} {n : ℕ} {e : ℤ} (h : Body t n e) : ∃ b r, t = b :: r ∧ (b ∈ decDigits ∨ b = asc '.') := by
  obtain ⟨int, point, frac, exp, x, rfl, hd, hne, hpt, -, -, -⟩ := h
  cases int with
  | cons b int => exact ⟨b, _, rfl, .inl (hd b (by simp))⟩
  | nil =>
    rcases hpt with ⟨rfl, rfl⟩ | rfl
    · exact absurd rfl hne
    · exact ⟨asc '.', _, rfl, .inr rfl⟩

theorem lower_eq (s : List UInt8) : s.map lower = small s := by
  unfold small
  apply List.map_congr_left
  intro b hb
  clear hb
  revert b; apply BaseN.forall_uint8; decide +kernel

/-- The words for the numbers that are no numbers. -/
def Word (w : List UInt8) : Prop := small w = ascii "inf" ∨ small w = ascii "infinity" ∨ small w = ascii "nan"

theorem word_head {w : List UInt8} (h : Word w) : ∃ b r, w = b :: r ∧ b ∉ decDigits ∧ b ≠ asc '.' ∧ b ≠ asc '+' ∧ b ≠ asc '-' := by
  have hb : ∀ b : UInt8, (lower b = asc 'i' ∨ lower b = asc 'n') → b ∉ decDigits ∧ b ≠ asc '.' ∧ b ≠ asc '+' ∧ b ≠ asc '-' := by
    apply BaseN.forall_uint8; decide +kernel
  unfold Word at h
  rw [← lower_eq] at h
  cases w with
  | nil => exact absurd h (by decide)
  | cons b r =>
    refine ⟨b, r, rfl, hb b ?_⟩
    rcases h with h | h | h
    · left; have : ascii "inf" = asc 'i' :: ascii "nf" := by decide
      rw [this, List.map_cons, List.cons.injEq] at h; exact h.1
    · left; have : ascii "infinity" = asc 'i' :: ascii "nfinity" := by decide
      rw [this, List.map_cons, List.cons.injEq] at h; exact h.1
    · right; have : ascii "nan" = asc 'n' :: ascii "an" := by decide
      rw [this, List.map_cons, List.cons.injEq] at h; exact h.1

theorem number_none_of_word {w : List UInt8} (h : Word w) : number w = none := by
  cases hn : number w with
  | none => rfl
  | some p =>
    obtain ⟨b, r, hw, hb⟩ := body_head ((number_iff w p.1 p.2).mp (by rw [hn]))
    obtain ⟨b', r', hw', h1, h2, -⟩ := word_head h
    rw [hw, List.cons.injEq] at hw'
    rw [hw'.1] at hb
    exact absurd hb (by simp [h1, h2])

theorem infNan_some (neg : Bool) (s : List UInt8) (x : Float F) : infNan F neg s = some x ↔
    small s = ascii "nan" ∧ x = nan F neg ∨ (small s = ascii "inf" ∨ small s = ascii "infinity") ∧ x = infinity F neg := by
  have d1 : ascii "nan" ≠ ascii "inf" := by decide
  have d2 : ascii "nan" ≠ ascii "infinity" := by decide
  unfold infNan
  rw [lower_eq]
  simp only
  split
  · rename_i h; rw [h]; simp [d1, d2, eq_comm]
  · split
    · rename_i h1 h2; rw [h2]; simp [d1.symm, eq_comm]
    · split
      · rename_i h1 h2 h3; rw [h3]; simp [d2.symm, eq_comm]
      · rename_i h1 h2 h3; simp [h1, h2, h3]

theorem unsigned_some (neg : Bool) (t : List UInt8) (x : Float F) : unsigned F neg t = some x ↔
    (∃ n e, Body t n e ∧ x = if 0 ≤ e then ofRatio F neg (n * 10 ^ e.toNat) 1 else ofRatio F neg n (10 ^ (-e).toNat)) ∨
    small t = ascii "nan" ∧ x = nan F neg ∨ (small t = ascii "inf" ∨ small t = ascii "infinity") ∧ x = infinity F neg := by
  unfold unsigned
  cases hn : number t with
  | none =>
    simp only [infNan_some]
    constructor
    · exact .inr
    · rintro (⟨n, e, h, -⟩ | h)
      · rw [← number_iff, hn] at h; exact absurd h (by simp)
      · exact h
  | some p =>
    obtain ⟨n, e⟩ := p
    have hb := (number_iff t n e).mp hn
    have hw : ¬ Word t := fun h => by rw [number_none_of_word h] at hn; exact absurd hn (by simp)
    unfold Word at hw
    simp only [Option.some.injEq]
    constructor
    · rintro rfl; exact .inl ⟨n, e, hb, rfl⟩
    · rintro (⟨n', e', h, rfl⟩ | ⟨h, -⟩ | ⟨h, -⟩)
      · rw [← number_iff, hn] at h
        simp only [Option.some.injEq, Prod.mk.injEq] at h
        rw [h.1, h.2]
      · exact absurd h (by tauto)
      · exact absurd h (by tauto)

theorem unsigned_head {neg : Bool} {t : List UInt8} {x : Float F} (h : unsigned F neg t = some x) :
    ∃ b r, t = b :: r ∧ b ≠ asc '+' ∧ b ≠ asc '-' := by
  have hw : Word t → ∃ b r, t = b :: r ∧ b ≠ asc '+' ∧ b ≠ asc '-' := by
    intro h
    obtain ⟨b, r, h1, -, -, h2, h3⟩ := word_head h
    exact ⟨b, r, h1, h2, h3⟩
  rw [unsigned_some] at h
  rcases h with ⟨n, e, h, -⟩ | ⟨h, -⟩ | ⟨h, -⟩
  · obtain ⟨b, r, h1, h2⟩ := body_head h
    refine ⟨b, r, h1, ?_, ?_⟩
    · rintro rfl; rcases h2 with h2 | h2
      · exact plus_not_digit h2
      · revert h2; decide
    · rintro rfl; rcases h2 with h2 | h2
      · exact minus_not_digit h2
      · revert h2; decide
  · exact hw (.inr (.inr h))
  · exact hw (by unfold Word; tauto)

theorem fromStr_some (s : List UInt8) (x : Float F) :
    fromStr F s = some x ↔ ∃ sign t neg, s = sign ++ t ∧ Sign sign neg ∧ unsigned F neg t = some x := by
  unfold fromStr Sign
  cases s with
  | nil =>
    constructor
    · intro h; exact absurd h (by simp)
    · rintro ⟨sign, t, neg, h, -, hu⟩
      obtain ⟨b, r, rfl, -⟩ := unsigned_head hu
      exact absurd h (by simp)
  | cons b rest =>
    simp only
    constructor
    · intro h
      split at h
      · rename_i hb; exact ⟨[asc '-'], rest, true, by simp [hb], .inr (.inr ⟨rfl, rfl⟩), h⟩
      · split at h
        · rename_i hb; exact ⟨[asc '+'], rest, false, by simp [hb], .inr (.inl ⟨rfl, rfl⟩), h⟩
        · exact ⟨[], b :: rest, false, rfl, .inl ⟨rfl, rfl⟩, h⟩
    · rintro ⟨sign, t, neg, h, (⟨rfl, rfl⟩ | ⟨rfl, rfl⟩ | ⟨rfl, rfl⟩), hu⟩
      · obtain ⟨c, r, rfl, h1, h2⟩ := unsigned_head hu
        rw [List.nil_append, List.cons.injEq] at h
        obtain ⟨rfl, rfl⟩ := h
        rw [if_neg h2, if_neg h1]; exact hu
      · rw [List.cons_append, List.nil_append, List.cons.injEq] at h
        obtain ⟨rfl, rfl⟩ := h
        rw [if_neg plus_ne_minus, if_pos rfl]; exact hu
      · rw [List.cons_append, List.nil_append, List.cons.injEq] at h
        obtain ⟨rfl, rfl⟩ := h
        rw [if_pos rfl]; exact hu

/-! ## The numbers -/

theorem body_rounds (F : Fmt) (neg : Bool) (n : ℕ) (e : ℤ) :
    RoundsTo neg ((if neg then -1 else 1) * n * (10 : ℚ) ^ e)
      (if 0 ≤ e then ofRatio F neg (n * 10 ^ e.toNat) 1 else ofRatio F neg n (10 ^ (-e).toNat)) := by
  by_cases h : 0 ≤ e
  · rw [if_pos h]
    have := ofRatio_rounds F neg (n * 10 ^ e.toNat) 1 (by decide)
    obtain ⟨m, rfl⟩ := Int.eq_ofNat_of_zero_le h
    rw [Int.toNat_natCast] at this ⊢
    convert this using 1
    rw [zpow_natCast]; push_cast; ring
  · rw [if_neg h]
    obtain ⟨m, hm⟩ := Int.eq_ofNat_of_zero_le (show 0 ≤ -e by omega)
    have := ofRatio_rounds F neg n (10 ^ (-e).toNat) (Nat.pow_pos (by decide))
    have he : e = -(m : ℤ) := by omega
    subst he
    rw [neg_neg, Int.toNat_natCast] at this ⊢
    convert this using 1
    rw [zpow_neg, zpow_natCast]; push_cast; rw [div_eq_mul_inv]; ring

theorem decimal_iff (s : List UInt8) (neg : Bool) (q : ℚ) : Decimal s neg q ↔
    ∃ sign t n e, s = sign ++ t ∧ Sign sign neg ∧ Body t n e ∧ q = (if neg then -1 else 1) * n * (10 : ℚ) ^ e := by
  constructor
  · rintro ⟨sign, int, point, frac, exp, x, rfl, hs, hd, hne, hpt, hx, rfl⟩
    exact ⟨sign, int ++ point ++ frac ++ exp, _, _, by simp, hs, ⟨int, point, frac, exp, x, rfl, hd, hne, hpt, hx, rfl, rfl⟩, rfl⟩
  · rintro ⟨sign, t, n, e, rfl, hs, ⟨int, point, frac, exp, x, rfl, hd, hne, hpt, hx, rfl, rfl⟩, rfl⟩
    exact ⟨sign, int, point, frac, exp, x, by simp, hs, hd, hne, hpt, hx, rfl⟩

theorem decimal_sign {s : List UInt8} {neg : Bool} {q : ℚ} (h : Decimal s neg q) : SignOf neg q := by
  obtain ⟨sign, t, n, e, -, -, -, rfl⟩ := (decimal_iff s neg q).mp h
  have : (0 : ℚ) ≤ n * 10 ^ e := mul_nonneg (Nat.cast_nonneg n) (le_of_lt (zpow_pos (by norm_num) e))
  unfold SignOf
  cases neg
  · simpa using this
  · simpa using this

theorem nan_isNan (F : Fmt) (neg : Bool) : IsNan (nan F neg) ∧ (nan F neg).neg = neg := by
  refine ⟨?_, rfl⟩
  rw [isNan_iff]
  have : 0 < 2 ^ (F.man - 1) := Nat.two_pow_pos _
  simp only [nan]; omega

theorem infinity_isInf (F : Fmt) (neg : Bool) : IsInf (infinity F neg) ∧ (infinity F neg).neg = neg :=
  ⟨(isInf_iff _).mpr rfl, rfl⟩

/-- A text writes one number. -/
theorem decimal_unique {s : List UInt8} {neg neg' : Bool} {q q' : ℚ} (h : Decimal s neg q) (h' : Decimal s neg' q') :
    neg = neg' ∧ q = q' := by
  obtain ⟨sign, t, n, e, rfl, hs, hb, rfl⟩ := (decimal_iff s neg q).mp h
  obtain ⟨sign', t', n', e', he, hs', hb', rfl⟩ := (decimal_iff _ neg' q').mp h'
  obtain ⟨b, r, rfl, hbd⟩ := body_head hb
  obtain ⟨b', r', rfl, hbd'⟩ := body_head hb'
  have key : ∀ c : UInt8, c ∈ decDigits ∨ c = asc '.' → c ≠ asc '+' ∧ c ≠ asc '-' := by
    apply BaseN.forall_uint8; decide +kernel
  have k1 := key b hbd
  have k2 := key b' hbd'
  have k3 : asc '+' ≠ asc '-' := by decide
  have hsame : neg = neg' ∧ b :: r = b' :: r' := by
    clear h h' hb hb' hbd hbd' key
    rcases hs with ⟨rfl, rfl⟩ | ⟨rfl, rfl⟩ | ⟨rfl, rfl⟩ <;> rcases hs' with ⟨rfl, rfl⟩ | ⟨rfl, rfl⟩ | ⟨rfl, rfl⟩ <;>
      simp only [List.nil_append, List.cons_append, List.cons.injEq] at he <;> grind
  obtain ⟨rfl, ht⟩ := hsame
  rw [ht] at hb
  have h1 := (number_iff _ _ _).mpr hb
  rw [(number_iff _ _ _).mpr hb'] at h1
  simp only [Option.some.injEq, Prod.mk.injEq] at h1
  rw [h1.1, h1.2]
  exact ⟨rfl, rfl⟩

end Verif.Float
