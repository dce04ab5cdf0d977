import Verif.Spec.Float
import Mathlib.Tactic.Ring
import Mathlib.Tactic.Linarith

/-!
# Lemmas about floats: order of the bit patterns, rounding
-/

namespace Verif.Float

theorem man_pos (F : Fmt) : 1 ≤ F.man := by cases F <;> decide

/-! ## The size of a bit pattern -/

/-- `units` for any width of the fraction. -/
def unitsP (P r : Nat) : Nat := if r / P = 0 then r % P else (P + r % P) * 2 ^ (r / P - 1)

theorem units_eq (F : Fmt) (r : Nat) : units F r = unitsP (2 ^ F.man) r := rfl

variable {P : Nat}

theorem unitsP_shift_lt (hp : 0 < P) (k t : Nat) (ht : t < P) : unitsP P (k * P + (P + t)) = (P + t) * 2 ^ k := by
  have e : k * P + (P + t) = t + P * (k + 1) := by ring
  have hd : (k * P + (P + t)) / P = k + 1 := by rw [e, Nat.add_mul_div_left _ _ hp, Nat.div_eq_of_lt ht, Nat.zero_add]
  have hm : (k * P + (P + t)) % P = t := by rw [e, Nat.add_mul_mod_self_left, Nat.mod_eq_of_lt ht]
  unfold unitsP
  rw [hd, hm]
  simp

/-- `man + 1` bits (or one more) shifted by `k`. -/
theorem unitsP_shift (hp : 0 < P) (k c : Nat) (h1 : P ≤ c) (h2 : c ≤ 2 * P) : unitsP P (k * P + c) = c * 2 ^ k := by
  rcases Nat.lt_or_ge c (2 * P) with h | h
  · obtain ⟨t, rfl⟩ : ∃ t, c = P + t := ⟨c - P, by omega⟩
    exact unitsP_shift_lt hp k t (by omega)
  · obtain rfl : c = 2 * P := by omega
    have := unitsP_shift_lt hp (k + 1) 0 hp
    rw [show k * P + 2 * P = (k + 1) * P + (P + 0) by ring, this]
    ring

theorem unitsP_small (c : Nat) (h : c < P) : unitsP P c = c := by
  unfold unitsP
  rw [Nat.div_eq_of_lt h, Nat.mod_eq_of_lt h]
  simp

/-- Every pattern is small or a shifted number. -/
theorem pattern_cases (hp : 0 < P) (r : Nat) : r < P ∨ ∃ k c, P ≤ c ∧ c < 2 * P ∧ r = k * P + c := by
  rcases Nat.lt_or_ge r P with h | h
  · exact .inl h
  · have hm : r % P < P := Nat.mod_lt _ hp
    have hd : P * (r / P) + r % P = r := Nat.div_add_mod r P
    have h1 : 1 ≤ r / P := (Nat.one_le_div_iff hp).mpr h
    refine .inr ⟨r / P - 1, P + r % P, by omega, by omega, ?_⟩
    obtain ⟨j, hj⟩ : ∃ j, r / P = j + 1 := ⟨r / P - 1, by omega⟩
    rw [hj] at hd ⊢
    rw [Nat.add_sub_cancel]
    nlinarith

theorem unitsP_lt_succ (hp : 0 < P) (r : Nat) : unitsP P r < unitsP P (r + 1) := by
  rcases pattern_cases hp r with h | ⟨k, c, h1, h2, rfl⟩
  · rw [unitsP_small r h]
    rcases Nat.lt_or_ge (r + 1) P with h' | h'
    · rw [unitsP_small _ h']; omega
    · obtain rfl : P = r + 1 := by omega
      have := unitsP_shift hp 0 (r + 1) (Nat.le_refl _) (by omega)
      simp only [Nat.zero_mul, Nat.zero_add, Nat.pow_zero, Nat.mul_one] at this
      rw [this]; omega
  · rw [unitsP_shift hp k c h1 (by omega), Nat.add_assoc, unitsP_shift hp k (c + 1) (by omega) (by omega)]
    exact Nat.mul_lt_mul_of_pos_right (Nat.lt_succ_self c) (Nat.two_pow_pos k)

theorem unitsP_strictMono (hp : 0 < P) : StrictMono (unitsP P) := strictMono_nat_of_lt_succ (unitsP_lt_succ hp)

theorem unitsP_zero (hp : 0 < P) : unitsP P 0 = 0 := unitsP_small 0 hp

/-! ## Rounding -/

theorem divEven_or (a d : Nat) : divEven a d = a / d ∨ divEven a d = a / d + 1 := by
  unfold divEven
  split
  · exact .inl rfl
  · split
    · have := Nat.mod_two_eq_zero_or_one (a / d); omega
    · exact .inr rfl

/-- The distance of `d * c + r` to the multiples of `d`. -/
theorem dist_le (c r d j : Nat) (h : j ≤ c) : |((d * c + r : Nat) : ℤ) - d * j| = d * (c - j : Nat) + r := by
  obtain ⟨m, rfl⟩ : ∃ m, c = j + m := ⟨c - j, by omega⟩
  rw [Nat.add_sub_cancel_left, abs_of_nonneg] <;> push_cast
  · ring
  · have : (0 : ℤ) ≤ (d : ℤ) * m := by positivity
    nlinarith

theorem dist_gt (c r d j : Nat) (h : c < j) (hr : r ≤ d) : |((d * c + r : Nat) : ℤ) - d * j| = d * (j - c : Nat) - r := by
  obtain ⟨m, rfl⟩ : ∃ m, j = c + (m + 1) := ⟨j - c - 1, by omega⟩
  rw [Nat.add_sub_cancel_left, abs_of_nonpos] <;> push_cast
  · ring
  · have : (0 : ℤ) ≤ (d : ℤ) * m := by positivity
    have : (r : ℤ) ≤ d := by exact_mod_cast hr
    nlinarith

/-- No multiple of `d` is nearer to `a`, and in a tie the result is even. -/
theorem divEven_near (a d : Nat) (hd : 0 < d) (j : Nat) :
    |(a : ℤ) - d * divEven a d| ≤ |(a : ℤ) - d * j| ∧
      (|(a : ℤ) - d * divEven a d| = |(a : ℤ) - d * j| → j ≠ divEven a d → divEven a d % 2 = 0) := by
  have hr : a % d < d := Nat.mod_lt _ hd
  have ha : a = d * (a / d) + a % d := (Nat.div_add_mod a d).symm
  have key : ∀ c r : Nat, r < d → ∀ e, (e = if 2 * r < d then c else if 2 * r = d then c + c % 2 else c + 1) →
      |((d * c + r : Nat) : ℤ) - d * e| ≤ |((d * c + r : Nat) : ℤ) - d * j| ∧
      (|((d * c + r : Nat) : ℤ) - d * e| = |((d * c + r : Nat) : ℤ) - d * j| → j ≠ e → e % 2 = 0) := by
    intro c r hr e he
    have h0 : |((d * c + r : Nat) : ℤ) - d * c| = r := by
      rw [dist_le c r d c (Nat.le_refl _)]; simp
    have h1 : |((d * c + r : Nat) : ℤ) - d * (c + 1 : Nat)| = d - r := by
      rw [dist_gt c r d (c + 1) (Nat.lt_succ_self _) (Nat.le_of_lt hr)]; simp
    have hj : (j = c ∨ j = c + 1) ∨ (r + d : ℤ) ≤ |((d * c + r : Nat) : ℤ) - d * j| ∨ (2 * d - r : ℤ) ≤ |((d * c + r : Nat) : ℤ) - d * j| := by
      rcases Nat.lt_trichotomy j c with h | h | h
      · refine .inr (.inl ?_)
        rw [dist_le c r d j (Nat.le_of_lt h)]
        have : d * 1 ≤ d * (c - j) := Nat.mul_le_mul_left _ (by omega)
        rw [← Nat.cast_mul]; omega
      · exact .inl (.inl h)
      · rcases Nat.eq_or_lt_of_le h with h' | h'
        · exact .inl (.inr h'.symm)
        · refine .inr (.inr ?_)
          rw [dist_gt c r d j h (Nat.le_of_lt hr)]
          have : d * 2 ≤ d * (j - c) := Nat.mul_le_mul_left _ (by omega)
          rw [← Nat.cast_mul]; omega
    have he' : (e = c ∧ 2 * r < d) ∨ (e = c ∧ 2 * r = d ∧ c % 2 = 0) ∨ (e = c + 1 ∧ 2 * r = d ∧ c % 2 = 1) ∨ (e = c + 1 ∧ d < 2 * r) := by
      subst he
      have := Nat.mod_two_eq_zero_or_one c
      split <;> [skip; split] <;> omega
    rcases he' with ⟨rfl, h⟩ | ⟨rfl, h, hc⟩ | ⟨rfl, h, hc⟩ | ⟨rfl, h⟩ <;> rcases hj with (rfl | rfl) | hj | hj <;>
      (try rw [h0]) <;> (try rw [h1]) <;> constructor <;> intros <;> omega
  have := key (a / d) (a % d) hr (divEven a d) rfl
  rwa [← ha] at this

/-- The pattern is the nearest one, and in a tie even. -/
theorem pattern_near (F : Fmt) (a d : Nat) (hd : 0 < d) (y : Nat) :
    |(a : ℤ) - d * units F (pattern F a d)| ≤ |(a : ℤ) - d * units F y| ∧
      (|(a : ℤ) - d * units F (pattern F a d)| = |(a : ℤ) - d * units F y| → y ≠ pattern F a d → pattern F a d % 2 = 0) := by
  have hp : 0 < 2 ^ F.man := Nat.two_pow_pos _
  simp only [units_eq, pattern]
  have hl := Nat.lt_log2_self (n := a / d)
  have hl' : a / d ≠ 0 → 2 ^ (a / d).log2 ≤ a / d := Nat.log2_self_le
  have heven : 2 ^ F.man % 2 = 0 := by
    obtain ⟨m, hm⟩ : ∃ m, F.man = m + 1 := ⟨F.man - 1, by have := man_pos F; omega⟩
    rw [hm, Nat.pow_succ]; omega
  generalize hk : (a / d).log2 - F.man = k
  have hden : 0 < d * 2 ^ k := Nat.mul_pos hd (Nat.two_pow_pos k)
  have hc : a / (d * 2 ^ k) = a / d / 2 ^ k := (Nat.div_div_eq_div_mul a d (2 ^ k)).symm
  -- the quotient has at most `man + 1` bits, and exactly that many when shifted
  have hlt : a / (d * 2 ^ k) < 2 * 2 ^ F.man := by
    rw [hc, Nat.div_lt_iff_lt_mul (Nat.two_pow_pos k), ← Nat.pow_succ', ← Nat.pow_add]
    exact Nat.lt_of_lt_of_le hl (Nat.pow_le_pow_right (by decide) (by omega))
  have hge : 0 < k → 2 ^ F.man ≤ a / (d * 2 ^ k) := by
    intro h
    rw [hc, Nat.le_div_iff_mul_le (Nat.two_pow_pos k), ← Nat.pow_add]
    have h0 : a / d ≠ 0 := by rintro h0; rw [h0] at hk; simp at hk; omega
    exact Nat.le_trans (Nat.pow_le_pow_right (by decide) (by omega)) (hl' h0)
  have hev := divEven_or a (d * 2 ^ k)
  have hnear := divEven_near a (d * 2 ^ k) hden
  generalize divEven a (d * 2 ^ k) = e at *
  -- the size of the result
  have hu : unitsP (2 ^ F.man) (k * 2 ^ F.man + e) = e * 2 ^ k := by
    rcases Nat.eq_zero_or_pos k with h0 | h0
    · subst h0
      rcases Nat.lt_or_ge e (2 ^ F.man) with h | h
      · simp [unitsP_small e h]
      · exact unitsP_shift hp 0 e h (by omega)
    · exact unitsP_shift hp k e (by have := hge h0; omega) (by omega)
  have hmul : ∀ j : Nat, (d : ℤ) * ((j * 2 ^ k : Nat) : ℤ) = ((d * 2 ^ k : Nat) : ℤ) * j := by intro j; push_cast; ring
  rw [hu, hmul]
  -- another pattern
  have hy : (∃ j, unitsP (2 ^ F.man) y = j * 2 ^ k ∧ (j = e → y = k * 2 ^ F.man + e)) ∨ unitsP (2 ^ F.man) y < a / (d * 2 ^ k) * 2 ^ k := by
    rcases Nat.lt_or_ge y (k * 2 ^ F.man + 2 ^ F.man) with h | h
    · rcases Nat.eq_zero_or_pos k with h0 | h0
      · subst h0
        refine .inl ⟨y, ?_, fun h => by omega⟩
        rw [unitsP_small y (by omega)]; simp
      · refine .inr (Nat.lt_of_lt_of_le (unitsP_strictMono hp h) ?_)
        rw [unitsP_shift hp k _ (Nat.le_refl _) (by omega)]
        exact Nat.mul_le_mul_right _ (hge h0)
    · rcases pattern_cases hp y with h' | ⟨k', c', h1, h2, rfl⟩
      · have : 0 ≤ k * 2 ^ F.man := Nat.zero_le _
        omega
      · have hkk : k ≤ k' := by
          by_contra hlt'
          have : (k' + 1) * 2 ^ F.man ≤ k * 2 ^ F.man := Nat.mul_le_mul_right _ (by omega)
          rw [Nat.add_mul] at this; omega
        refine .inl ⟨c' * 2 ^ (k' - k), ?_, ?_⟩
        · rw [unitsP_shift hp k' c' h1 (by omega), Nat.mul_assoc, ← Nat.pow_add, Nat.sub_add_cancel hkk]
        · intro hj
          apply (unitsP_strictMono hp).injective
          rw [hu, ← hj, unitsP_shift hp k' c' h1 (by omega), Nat.mul_assoc, ← Nat.pow_add, Nat.sub_add_cancel hkk]
  rcases hy with ⟨j, hj, hje⟩ | hy
  · rw [hj, hmul]
    refine ⟨(hnear j).1, fun heq hne => ?_⟩
    have := (hnear j).2 heq fun h => hne (hje h)
    rw [Nat.add_mod, Nat.mul_mod, heven]; simp [this]
  · have hfar : |(a : ℤ) - ((d * 2 ^ k : Nat) : ℤ) * e| < |(a : ℤ) - d * (unitsP (2 ^ F.man) y : Nat)| := by
      refine lt_of_le_of_lt (hnear (a / (d * 2 ^ k))).1 ?_
      have h1 : d * 2 ^ k * (a / (d * 2 ^ k)) ≤ a := Nat.mul_div_le a (d * 2 ^ k)
      have h2 : d * unitsP (2 ^ F.man) y < d * (a / (d * 2 ^ k) * 2 ^ k) := Nat.mul_lt_mul_of_pos_left hy hd
      have h3 : d * (a / (d * 2 ^ k) * 2 ^ k) = d * 2 ^ k * (a / (d * 2 ^ k)) := by ring
      rw [← Nat.cast_mul, ← Nat.cast_mul, abs_of_nonneg (by omega), abs_of_nonneg (by omega)]
      omega
    exact ⟨le_of_lt hfar, fun heq => absurd heq (ne_of_lt hfar)⟩

end Verif.Float
