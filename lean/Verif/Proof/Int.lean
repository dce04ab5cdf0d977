import Verif.Model.Int
import Verif.Spec.Int
import Verif.Proof.BaseN

/-! # Lemmas about integer texts and widths -/

namespace Verif.IntV

open Verif.Range Verif.Spec.IntV

theorem decDigit_iff (b : UInt8) : decDigit b = if b ∈ decDigits then some (decDigits.idxOf b) else none := by
  revert b
  exact BaseN.forall_uint8 (by decide +kernel)

theorem idxOf_lt (b : UInt8) (h : b ∈ decDigits) : decDigits.idxOf b < 10 := by
  have := List.idxOf_lt_length_of_mem h
  exact this

/-- Horner form of the value, from an accumulator. -/
theorem digitsPos_ok (max : Int) (ds : List UInt8) : ∀ (acc : Int), 0 ≤ acc → acc ≤ max → ∀ v,
    (digitsPos max acc ds = .ok v ↔
      (∀ b ∈ ds, b ∈ decDigits) ∧ v = acc * 10 ^ ds.length + decValue ds ∧ v ≤ max) := by
  induction ds with
  | nil =>
    intro acc h0 h1 v
    simp [digitsPos, decValue]
    constructor
    · rintro rfl; exact ⟨rfl, h1⟩
    · rintro ⟨rfl, _⟩; rfl
  | cons b ds ih =>
    intro acc h0 h1 v
    rw [digitsPos, decDigit_iff]
    by_cases hb : b ∈ decDigits
    · have hlt := idxOf_lt b hb
      simp only [hb, if_true]
      have hexp : acc * 10 ^ (b :: ds).length + (decValue (b :: ds) : Int) =
          (acc * 10 + (decDigits.idxOf b : Int)) * 10 ^ ds.length + decValue ds := by
        simp only [decValue, List.length_cons, Int.pow_succ, Int.natCast_add, Int.natCast_mul, Int.natCast_pow, Int.add_mul]
        rw [Int.mul_assoc, Int.mul_comm (10 ^ ds.length) 10, ← Int.mul_assoc]
        simp only [Int.mul_assoc, Int.add_assoc]
        rfl
      have hpow : (1 : Int) ≤ 10 ^ ds.length := Int.pow_pos (by omega)
      have hge : ∀ y : Int, 0 ≤ y → y ≤ y * 10 ^ ds.length := fun y hy => by
        have := Int.mul_le_mul_of_nonneg_left hpow hy
        omega
      by_cases h2 : acc * 10 > max
      · simp only [h2, if_true]
        constructor
        · intro h; cases h
        · rintro ⟨_, hv, hle⟩
          rw [hexp] at hv
          have := hge (acc * 10 + (decDigits.idxOf b : Int)) (by omega)
          omega
      · by_cases h3 : acc * 10 + (decDigits.idxOf b : Int) > max
        · simp only [h2, h3, if_true, if_false]
          constructor
          · intro h; cases h
          · rintro ⟨_, hv, hle⟩
            rw [hexp] at hv
            have := hge (acc * 10 + (decDigits.idxOf b : Int)) (by omega)
            omega
        · simp only [h2, h3, if_false]
          rw [ih _ (by omega) (by omega), hexp]
          simp [hb]
    · simp only [hb, if_false]
      constructor
      · intro h; cases h
      · rintro ⟨h, _⟩; exact absurd (h b (by simp)) hb

theorem digitsNeg_ok (min : Int) (ds : List UInt8) : ∀ (acc : Int), acc ≤ 0 → min ≤ acc → ∀ v,
    (digitsNeg min acc ds = .ok v ↔
      (∀ b ∈ ds, b ∈ decDigits) ∧ v = acc * 10 ^ ds.length - decValue ds ∧ min ≤ v) := by
  induction ds with
  | nil =>
    intro acc h0 h1 v
    simp [digitsNeg, decValue]
    constructor
    · rintro rfl; exact ⟨rfl, h1⟩
    · rintro ⟨rfl, _⟩; rfl
  | cons b ds ih =>
    intro acc h0 h1 v
    rw [digitsNeg, decDigit_iff]
    by_cases hb : b ∈ decDigits
    · have hlt := idxOf_lt b hb
      simp only [hb, if_true]
      have hexp : acc * 10 ^ (b :: ds).length - (decValue (b :: ds) : Int) =
          (acc * 10 - (decDigits.idxOf b : Int)) * 10 ^ ds.length - decValue ds := by
        simp only [decValue, List.length_cons, Int.pow_succ, Int.natCast_add, Int.natCast_mul, Int.natCast_pow, Int.sub_mul]
        rw [Int.mul_assoc acc 10, Int.mul_comm 10 (10 ^ ds.length)]
        have : ((10 : Nat) : Int) = 10 := rfl
        rw [this]
        omega
      have hpow : (1 : Int) ≤ 10 ^ ds.length := Int.pow_pos (by omega)
      have hge : ∀ y : Int, y ≤ 0 → y * 10 ^ ds.length ≤ y := fun y hy => by
        have := Int.mul_le_mul_of_nonpos_left hy hpow
        omega
      by_cases h2 : acc * 10 < min
      · simp only [h2, if_true]
        constructor
        · intro h; cases h
        · rintro ⟨_, hv, hle⟩
          rw [hexp] at hv
          have := hge (acc * 10 - (decDigits.idxOf b : Int)) (by omega)
          omega
      · by_cases h3 : acc * 10 - (decDigits.idxOf b : Int) < min
        · simp only [h2, h3, if_true, if_false]
          constructor
          · intro h; cases h
          · rintro ⟨_, hv, hle⟩
            rw [hexp] at hv
            have := hge (acc * 10 - (decDigits.idxOf b : Int)) (by omega)
            omega
        · simp only [h2, h3, if_false]
          rw [ih _ (by omega) (by omega), hexp]
          simp [hb]
    · simp only [hb, if_false]
      constructor
      · intro h; cases h
      · rintro ⟨h, _⟩; exact absurd (h b (by simp)) hb

theorem plus_not_digit : asc '+' ∉ decDigits := by decide
theorem minus_not_digit : asc '-' ∉ decDigits := by decide

theorem pow_pos' (n : Nat) : (0 : Int) < 2 ^ n := Int.pow_pos (by omega)

theorem maxOf_nonneg (signed : Bool) (bits : Nat) : 0 ≤ maxOf signed bits := by
  have := pow_pos' (bits - 1)
  have := pow_pos' bits
  unfold maxOf
  split <;> omega

theorem minOf_nonpos (signed : Bool) (bits : Nat) : minOf signed bits ≤ 0 := by
  have := pow_pos' (bits - 1)
  unfold minOf
  split <;> omega

theorem fits_iff (signed : Bool) (bits : Nat) (v : Int) :
    Fits signed bits v ↔ minOf signed bits ≤ v ∧ v ≤ maxOf signed bits := by
  unfold Fits minOf maxOf
  cases signed
  · simp only [Bool.false_eq_true, if_false]
    constructor <;> intro h <;> omega
  · simp only [if_true]
    constructor <;> intro h <;> omega

theorem fromStr_ok (signed : Bool) (bits : Nat) (s : List UInt8) (v : Int) :
    fromStr signed bits s = .ok v ↔ Numeral signed s v ∧ Fits signed bits v := by
  rw [fits_iff]
  have h1 := maxOf_nonneg signed bits
  have h2 := minOf_nonpos signed bits
  cases s with
  | nil =>
    simp only [fromStr]
    constructor
    · intro h; cases h
    · rintro ⟨⟨ds, hne, _, h⟩, _⟩
      rcases h with ⟨h | h, _⟩ | ⟨_, h, _⟩
      · exact absurd h.symm hne
      · cases h
      · cases h
  | cons b rest =>
    simp only [fromStr]
    have key : ∀ ds : List UInt8, digitsPos (maxOf signed bits) 0 ds = .ok v ↔
        (∀ b ∈ ds, b ∈ decDigits) ∧ v = decValue ds ∧ v ≤ maxOf signed bits := by
      intro ds
      rw [digitsPos_ok _ _ 0 (by omega) h1]
      simp
    split
    · rename_i hs
      obtain ⟨hs, rfl⟩ := hs
      constructor
      · intro h; cases h
      · rintro ⟨⟨ds, hne, hall, h⟩, _⟩
        rcases h with ⟨h | h, _⟩ | ⟨_, h, _⟩
        · subst h
          have := hall b (by simp)
          rcases hs with rfl | rfl
          · exact absurd this plus_not_digit
          · exact absurd this minus_not_digit
        · injection h with _ h; exact absurd h.symm hne
        · injection h with _ h; exact absurd h.symm hne
    · rename_i hs
      split
      · rename_i hp
        subst hp
        have hne : rest ≠ [] := fun h => hs ⟨.inl rfl, h⟩
        rw [key]
        constructor
        · rintro ⟨hall, hv, hle⟩
          exact ⟨⟨rest, hne, hall, .inl ⟨.inr rfl, hv⟩⟩, by omega, hle⟩
        · rintro ⟨⟨ds, hne, hall, h⟩, _, hle⟩
          rcases h with ⟨h | h, hv⟩ | ⟨_, h, _⟩
          · subst h; exact absurd (hall _ (by simp)) plus_not_digit
          · injection h with _ h; subst h; exact ⟨hall, hv, hle⟩
          · injection h with h _; exact absurd h (by decide)
      · rename_i hp
        split
        · rename_i hm
          obtain ⟨rfl, rfl⟩ := hm
          have hne : rest ≠ [] := fun h => hs ⟨.inr rfl, h⟩
          rw [digitsNeg_ok _ _ 0 (by omega) h2]
          simp only [Int.zero_mul, Int.zero_sub]
          constructor
          · rintro ⟨hall, hv, hle⟩
            exact ⟨⟨rest, hne, hall, .inr ⟨rfl, rfl, hv⟩⟩, hle, by omega⟩
          · rintro ⟨⟨ds, hne, hall, h⟩, hle, _⟩
            rcases h with ⟨h | h, hv⟩ | ⟨_, h, hv⟩
            · subst h; exact absurd (hall _ (by simp)) minus_not_digit
            · injection h with h _; exact absurd h (by decide)
            · injection h with _ h; subst h; exact ⟨hall, hv, hle⟩
        · rename_i hm
          rw [key]
          constructor
          · rintro ⟨hall, hv, hle⟩
            exact ⟨⟨b :: rest, by simp, hall, .inl ⟨.inl rfl, hv⟩⟩, by omega, hle⟩
          · rintro ⟨⟨ds, hne, hall, h⟩, hle1, hle⟩
            rcases h with ⟨h | h, hv⟩ | ⟨hsg, h, _⟩
            · subst h; exact ⟨hall, hv, hle⟩
            · injection h with h _; exact absurd h hp
            · injection h with h _; exact absurd ⟨h, hsg⟩ hm

/-! ## Printing -/

theorem revDec_lt (fuel n : Nat) : ∀ d ∈ revDec fuel n, d < 10 := by
  induction fuel generalizing n with
  | zero => simp [revDec]
  | succ fuel ih =>
    intro d hd
    rw [revDec] at hd
    split at hd
    · simp at hd; omega
    · simp only [List.mem_cons] at hd
      rcases hd with rfl | hd
      · omega
      · exact ih _ d hd

theorem revDec_ne_nil (n : Nat) : revDec (n + 1) n ≠ [] := by
  rw [revDec]; split <;> simp

theorem digit_of_lt (d : Nat) (h : d < 10) : (48 + d).toUInt8 ∈ decDigits ∧ decDigits.idxOf (48 + d).toUInt8 = d := by
  have : ∀ d : Fin 10, (48 + d.val).toUInt8 ∈ decDigits ∧ decDigits.idxOf (48 + d.val).toUInt8 = d.val := by
    decide +kernel
  exact this ⟨d, h⟩

theorem decValue_append (a : List UInt8) (b : UInt8) : decValue (a ++ [b]) = decValue a * 10 + decDigits.idxOf b := by
  induction a with
  | nil => simp [decValue]
  | cons x a ih =>
    simp only [List.cons_append, decValue, ih, List.length_append, List.length_cons, List.length_nil, Nat.pow_succ,
      Nat.zero_add]
    rw [Nat.add_mul, Nat.mul_assoc]
    omega

theorem decValue_revDec (fuel n : Nat) (h : n < fuel) :
    decValue ((revDec fuel n).reverse.map fun d => (48 + d).toUInt8) = n := by
  induction fuel generalizing n with
  | zero => omega
  | succ fuel ih =>
    rw [revDec]
    split
    · rename_i hn
      rw [List.reverse_singleton, List.map_cons, List.map_nil, decValue, decValue, (digit_of_lt n hn).2]
      simp
    · rename_i hn
      rw [List.reverse_cons, List.map_append, List.map_cons, List.map_nil, decValue_append, ih (n / 10) (by omega),
        (digit_of_lt (n % 10) (by omega)).2]
      omega

theorem showNat_digits (n : Nat) : ∀ b ∈ showNat n, b ∈ decDigits := by
  intro b hb
  simp only [showNat, List.mem_map, List.mem_reverse] at hb
  obtain ⟨d, hd, rfl⟩ := hb
  exact (digit_of_lt d (revDec_lt _ _ d hd)).1

theorem showNat_value (n : Nat) : decValue (showNat n) = n := decValue_revDec (n + 1) n (by omega)

theorem showNat_ne_nil (n : Nat) : showNat n ≠ [] := by
  simp [showNat, revDec_ne_nil]

theorem numeral_showInt (signed : Bool) (bits : Nat) (v : Int) (h : Fits signed bits v) : Numeral signed (showInt v) v := by
  unfold showInt
  split
  · rename_i hv
    have hs : signed = true := by
      cases signed
      · simp [Fits] at h; omega
      · rfl
    refine ⟨showNat v.natAbs, showNat_ne_nil _, showNat_digits _, .inr ⟨hs, rfl, ?_⟩⟩
    rw [showNat_value]; omega
  · rename_i hv
    refine ⟨showNat v.natAbs, showNat_ne_nil _, showNat_digits _, .inl ⟨.inl rfl, ?_⟩⟩
    rw [showNat_value]; omega

/-! ## Widths -/

/-- A cast to a type that has the value does not change it. -/
theorem castTo_fits (signed : Bool) (bits : Nat) (hb : 0 < bits) (x : Int) (h : Fits signed bits x) :
    castTo signed bits x = x := by
  unfold castTo
  cases signed
  · simp only [Fits, Bool.false_eq_true, if_false] at h ⊢
    exact Int.emod_eq_of_lt h.1 h.2
  · simp only [Fits, if_true] at h ⊢
    have hp : (2 : Int) ^ bits = 2 ^ (bits - 1) * 2 := by
      rw [← Int.pow_succ]; congr 1; omega
    have : (x + 2 ^ (bits - 1)) % 2 ^ bits = x + 2 ^ (bits - 1) := Int.emod_eq_of_lt (by omega) (by omega)
    omega

theorem pow_mono (a b : Nat) (h : a ≤ b) : (2 : Int) ^ a ≤ 2 ^ b := by
  have : (2 : Nat) ^ a ≤ 2 ^ b := Nat.pow_le_pow_right (by omega) h
  exact_mod_cast this

theorem fits_mono (signed : Bool) (a b : Nat) (h : a ≤ b) (x : Int) (hx : Fits signed a x) : Fits signed b x := by
  have h1 := pow_mono a b h
  have h2 := pow_mono (a - 1) (b - 1) (by omega)
  unfold Fits at hx ⊢
  cases signed
  · simp only [Bool.false_eq_true, if_false] at hx ⊢; omega
  · simp only [if_true] at hx ⊢; omega

/-- What every entry point does with a number it can carry. -/
def Answers {β : Type} (own : Int → Out RangeError β) (signed : Bool) (b : Nat) (x : Int) (r : Out RangeError β) : Prop :=
  (Fits signed b x → r = own x) ∧ (maxOf signed b < x → r = .err .tooLarge) ∧ (x < minOf signed b → r = .err .tooSmall)

section
variable {β : Type} (own : Int → Out RangeError β) (ptr : Ptr) (signed : Bool) (target : Width)

theorem answers_own (b : Nat) (x : Int) (h : Fits signed b x) : Answers own signed b x (own x) := by
  have := (fits_iff _ _ _).mp h
  exact ⟨fun _ => rfl, fun h => by omega, fun h => by omega⟩

theorem bits_pos (w : Width) : 0 < bits ptr w := by
  cases w <;> cases ptr <;> simp [bits]

theorem bits_le (w : Width) : bits ptr w ≤ 128 := by
  cases w <;> cases ptr <;> simp [bits]

theorem entry128_spec (x : Int) (h : Fits signed 128 x) :
    Answers own signed (bits ptr target) x (entry128 own ptr signed target x) := by
  unfold entry128
  split
  · rename_i ht; subst ht
    exact answers_own own signed _ x h
  · have hf := fits_iff signed (bits ptr target) x
    have h128 := (fits_iff signed 128 x).mp h
    split
    · exact ⟨fun h => by have := hf.mp h; omega, fun _ => rfl, fun hlt => by
        have := minOf_nonpos signed (bits ptr target); have := maxOf_nonneg signed (bits ptr target); omega⟩
    · split
      · rename_i h2
        exact ⟨fun h => by have := hf.mp h; omega, fun h => by omega, fun _ => rfl⟩
      · rename_i h2
        have hx : Fits signed (bits ptr target) x := by
          rw [hf]
          refine ⟨?_, by omega⟩
          cases signed
          · simp [minOf] at h128 ⊢; omega
          · simp at h2; omega
        rw [castTo_fits _ _ (bits_pos ptr target) _ hx]
        exact answers_own own signed _ x hx

theorem entry64_spec (x : Int) (h : Fits signed 64 x) :
    Answers own signed (bits ptr target) x (entry64 own ptr signed target x) := by
  unfold entry64
  split
  · rename_i ht; subst ht
    exact answers_own own signed _ x h
  · split
    · rename_i ht; obtain ⟨rfl, rfl⟩ := ht
      rw [castTo_fits _ _ (bits_pos _ _) _ h]
      exact answers_own own signed _ x h
    · have h' := fits_mono signed 64 128 (by omega) x h
      rw [castTo_fits _ _ (by omega) _ h']
      exact entry128_spec own ptr signed target x h'

theorem entry32_spec (x : Int) (h : Fits signed 32 x) :
    Answers own signed (bits ptr target) x (entry32 own ptr signed target x) := by
  unfold entry32
  split
  · rename_i ht; subst ht
    exact answers_own own signed _ x h
  · split
    · rename_i ht; obtain ⟨rfl, rfl⟩ := ht
      rw [castTo_fits _ _ (bits_pos _ _) _ h]
      exact answers_own own signed _ x h
    · have h' := fits_mono signed 32 64 (by omega) x h
      rw [castTo_fits _ _ (by omega) _ h']
      exact entry64_spec own ptr signed target x h'

theorem entry16_spec (x : Int) (h : Fits signed 16 x) :
    Answers own signed (bits ptr target) x (entry16 own ptr signed target x) := by
  unfold entry16
  split
  · rename_i ht; subst ht
    exact answers_own own signed _ x h
  · split
    · rename_i ht; obtain ⟨rfl, rfl⟩ := ht
      rw [castTo_fits _ _ (bits_pos _ _) _ h]
      exact answers_own own signed _ x h
    · have h' := fits_mono signed 16 32 (by omega) x h
      rw [castTo_fits _ _ (by omega) _ h']
      exact entry32_spec own ptr signed target x h'

theorem entry8_spec (x : Int) (h : Fits signed 8 x) :
    Answers own signed (bits ptr target) x (entry8 own ptr signed target x) := by
  unfold entry8
  split
  · rename_i ht; subst ht
    exact answers_own own signed _ x h
  · have h' := fits_mono signed 8 16 (by omega) x h
    rw [castTo_fits _ _ (by omega) _ h']
    exact entry16_spec own ptr signed target x h'

theorem entrySize_spec (x : Int) (h : Fits signed (bits ptr .size) x) :
    Answers own signed (bits ptr target) x (entrySize own ptr signed target x) := by
  unfold entrySize
  split
  · rename_i ht; subst ht
    exact answers_own own signed _ x h
  · cases ptr
    · simp only
      rw [castTo_fits signed 16 (by omega) x h]
      exact entry16_spec own .p16 signed target x h
    · simp only
      rw [castTo_fits signed 32 (by omega) x h]
      exact entry32_spec own .p32 signed target x h
    · simp only
      rw [castTo_fits signed 64 (by omega) x h]
      exact entry64_spec own .p64 signed target x h

theorem entry_spec (w : Width) (x : Int) (h : Fits signed (bits ptr w) x) :
    Answers own signed (bits ptr target) x (entry own ptr signed target w x) := by
  cases w
  · exact entry8_spec own ptr signed target x h
  · exact entry16_spec own ptr signed target x h
  · exact entry32_spec own ptr signed target x h
  · exact entry64_spec own ptr signed target x h
  · exact entry128_spec own ptr signed target x h
  · exact entrySize_spec own ptr signed target x h

end

end Verif.IntV
