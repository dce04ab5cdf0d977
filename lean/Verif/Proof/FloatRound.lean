import Verif.Proof.FloatValue
import Mathlib.Algebra.Order.Field.Basic
import Mathlib.Tactic.Positivity

/-!
# Lemmas about floats: the rounded number is the nearest, it is unique, and rounding keeps the order
-/

namespace Verif.Float

open Verif.Spec.Float

variable {F : Fmt}

/-- `q` has the sign `neg`. -/
def SignOf (neg : Bool) (q : ℚ) : Prop := if neg then q ≤ 0 else 0 ≤ q

/-! ## Distances -/

theorem closer_low {a u v : ℤ} (h : u < v) : |a - u| ≤ |a - v| ↔ 2 * a ≤ u + v := by
  rcases abs_cases (a - u) with ⟨h1, _⟩ | ⟨h1, _⟩ <;> rcases abs_cases (a - v) with ⟨h2, _⟩ | ⟨h2, _⟩ <;> rw [h1, h2] <;> omega

theorem closer_high {a u v : ℤ} (h : u < v) : |a - v| ≤ |a - u| ↔ u + v ≤ 2 * a := by
  rcases abs_cases (a - u) with ⟨h1, _⟩ | ⟨h1, _⟩ <;> rcases abs_cases (a - v) with ⟨h2, _⟩ | ⟨h2, _⟩ <;> rw [h1, h2] <;> omega

theorem qcloser_low {a u v : ℚ} (h : u < v) : |a - u| ≤ |a - v| ↔ 2 * a ≤ u + v := by
  rcases abs_cases (a - u) with ⟨h1, _⟩ | ⟨h1, _⟩ <;> rcases abs_cases (a - v) with ⟨h2, _⟩ | ⟨h2, _⟩ <;> rw [h1, h2] <;>
    constructor <;> intro <;> linarith

theorem qcloser_high {a u v : ℚ} (h : u < v) : |a - v| ≤ |a - u| ↔ u + v ≤ 2 * a := by
  rcases abs_cases (a - u) with ⟨h1, _⟩ | ⟨h1, _⟩ <;> rcases abs_cases (a - v) with ⟨h2, _⟩ | ⟨h2, _⟩ <;> rw [h1, h2] <;>
    constructor <;> intro <;> linarith

/-! ## Overflow -/

theorem exp_eq (F : Fmt) : 2 ^ F.exp = 2 * bias F + 2 := by cases F <;> decide

theorem units_inf (F : Fmt) : units F F.inf = 2 ^ F.man * 2 ^ (2 * bias F) := by
  have hp : 0 < 2 ^ F.man := Nat.two_pow_pos _
  rw [inf_eq, units_eq, unitsP_shift hp _ _ (Nat.le_refl _) (by omega), exp_eq, Nat.add_sub_cancel]

theorem units_pred_inf (F : Fmt) : units F (F.inf - 1) = (2 * 2 ^ F.man - 1) * 2 ^ (2 * bias F - 1) := by
  have hp : 0 < 2 ^ F.man := Nat.two_pow_pos _
  have hb := bias_pos F
  have : F.inf - 1 = (2 * bias F - 1) * 2 ^ F.man + (2 * 2 ^ F.man - 1) := by
    rw [inf_eq, exp_eq, Nat.add_sub_cancel]
    obtain ⟨k, hk⟩ : ∃ k, 2 * bias F = k + 1 := ⟨2 * bias F - 1, by omega⟩
    rw [hk, Nat.add_mul, Nat.add_sub_cancel]
    omega
  rw [this, units_eq, unitsP_shift hp _ _ (by omega) (by omega)]

theorem overflow_eq (F : Fmt) : overflow F * 2 ^ F.scale * 2 = (units F (F.inf - 1) + units F F.inf : ℕ) := by
  have hp : 0 < 2 ^ F.man := Nat.two_pow_pos _
  have hb := bias_pos F
  have hs := scale_eq F
  rw [units_inf, units_pred_inf, Nat.cast_add, Nat.cast_mul, Nat.cast_mul, Nat.cast_sub (by omega)]
  unfold overflow
  obtain ⟨k, hk⟩ : ∃ k, bias F = k + 1 := ⟨bias F - 1, by omega⟩
  rw [hk, show F.scale = k + F.man by omega, show 2 * (k + 1) - 1 = 2 * k + 1 by omega, show 2 * (k + 1) = 2 * k + 2 by omega]
  push_cast
  simp only [pow_add]
  field_simp
  ring

theorem inf_even (F : Fmt) : F.inf % 2 = 0 := by cases F <;> decide +kernel

theorem inf_pos (F : Fmt) : 0 < F.inf := by cases F <;> decide +kernel

/-- The pattern reaches infinity exactly from the middle between the largest finite number and the next power of two. -/
theorem inf_le_pattern (F : Fmt) (a d : ℕ) (hd : 0 < d) :
    F.inf ≤ pattern F a d ↔ d * (units F (F.inf - 1) + units F F.inf) ≤ 2 * a := by
  have hi := inf_pos F
  have hlt : units F (F.inf - 1) < units F F.inf := (units_lt F).mpr (by omega)
  have hnear := pattern_near F a d hd
  generalize hr : pattern F a d = r at *
  constructor
  · intro h
    by_contra hc
    have h1 := (hnear (F.inf - 1)).1
    have hu : units F (F.inf - 1) < units F r := (units_lt F).mpr (by omega)
    have hu' : units F F.inf ≤ units F r := by
      rcases Nat.eq_or_lt_of_le h with e | e
      · rw [e]
      · exact Nat.le_of_lt ((units_lt F).mpr e)
    have hm : ((d : ℤ) * units F (F.inf - 1)) < d * units F r := by exact_mod_cast Nat.mul_lt_mul_of_pos_left hu hd
    rw [closer_high hm] at h1
    have hm' : d * units F F.inf ≤ d * units F r := Nat.mul_le_mul_left _ hu'
    rw [Nat.mul_add] at hc
    have : d * units F (F.inf - 1) + d * units F r ≤ 2 * a := by exact_mod_cast h1
    omega
  · intro h
    by_contra hc
    have hc : r < F.inf := by omega
    have h1 := (hnear F.inf).1
    have h2 := (hnear F.inf).2
    have hu : units F r < units F F.inf := (units_lt F).mpr hc
    have hm : ((d : ℤ) * units F r) < d * units F F.inf := by exact_mod_cast Nat.mul_lt_mul_of_pos_left hu hd
    have hu' : r ≠ F.inf - 1 → units F r < units F (F.inf - 1) := fun e => (units_lt F).mpr (by omega)
    rw [closer_low hm] at h1
    have h1' : 2 * a ≤ d * units F r + d * units F F.inf := by exact_mod_cast h1
    rw [Nat.mul_add] at h
    have hr1 : r = F.inf - 1 := by
      by_contra e
      have := Nat.mul_lt_mul_of_pos_left (hu' e) hd
      omega
    have heven := inf_even F
    have hev := h2 (le_antisymm ((closer_low hm).mpr (by exact_mod_cast h1')) ((closer_high hm).mpr (by
      rw [← hr1] at h; exact_mod_cast h))) (by omega)
    omega

/-! ## The rounded number is the nearest -/

theorem fracBits_even (x : Float F) : fracBits x % 2 = x.mag % 2 := by
  unfold fracBits
  obtain ⟨m, hm⟩ : ∃ m, F.man = m + 1 := ⟨F.man - 1, by have := man_pos F; omega⟩
  rw [hm, Nat.pow_succ', Nat.mod_mul_right_mod]

/-- Distances to floats with the sign of the number. -/
theorem dist_same (F : Fmt) (n d : ℕ) (hd : 0 < d) (neg : Bool) (y : Float F) (hy : y.neg = neg) :
    |(if neg then -1 else 1) * ((n : ℚ) / d) - value y| =
      ((|((n * 2 ^ F.scale : ℕ) : ℤ) - d * units F y.mag| : ℤ) : ℚ) / (d * 2 ^ F.scale) := by
  have hd' : (0 : ℚ) < d := by exact_mod_cast hd
  have hp := pow_scale_pos F
  rw [value_eq, Int.cast_abs, ← abs_of_pos (mul_pos hd' hp), ← abs_div]
  unfold sunits
  rw [hy]
  cases neg
  · congr 1; push_cast; simp; field_simp
  · rw [← abs_neg]; congr 1; push_cast; simp; field_simp; ring

theorem dist_other (F : Fmt) (n d : ℕ) (hd : 0 < d) (neg : Bool) (y : Float F) (hy : y.neg ≠ neg) :
    |(if neg then -1 else 1) * ((n : ℚ) / d) - value y| = ((n * 2 ^ F.scale + d * units F y.mag : ℕ) : ℚ) / (d * 2 ^ F.scale) := by
  have hd' : (0 : ℚ) < d := by exact_mod_cast hd
  have hp := pow_scale_pos F
  have hnn : (0 : ℚ) ≤ ((n * 2 ^ F.scale + d * units F y.mag : ℕ) : ℚ) / (d * 2 ^ F.scale) := by positivity
  rw [value_eq, ← abs_of_nonneg hnn]
  unfold sunits
  have hy' : y.neg = !neg := by cases h : y.neg <;> cases neg <;> simp_all
  rw [hy']
  cases neg
  · congr 1; push_cast; simp; field_simp; ring
  · rw [← abs_neg]; congr 1; push_cast; simp; field_simp; ring

theorem overflow_le (F : Fmt) (n d : ℕ) (hd : 0 < d) (neg : Bool) :
    overflow F ≤ |(if neg then -1 else 1) * ((n : ℚ) / d)| ↔ d * (units F (F.inf - 1) + units F F.inf) ≤ 2 * (n * 2 ^ F.scale) := by
  have hd' : (0 : ℚ) < d := by exact_mod_cast hd
  have hp := pow_scale_pos F
  have habs : |(if neg then -1 else 1) * ((n : ℚ) / d)| = n / d := by
    have : (0 : ℚ) ≤ n / d := by positivity
    cases neg <;> simp [abs_of_nonneg this]
  rw [habs, le_div_iff₀ hd', ← Nat.cast_le (α := ℚ), Nat.cast_mul d, ← overflow_eq]
  push_cast
  constructor
  · intro h; nlinarith
  · intro h
    have : 0 ≤ 2 * 2 ^ F.scale * ((n : ℚ) - overflow F * d) := by linarith
    have := nonneg_of_mul_nonneg_right this (by positivity)
    linarith

theorem ofRatio_rounds (F : Fmt) (neg : Bool) (n d : ℕ) (hd : 0 < d) :
    RoundsTo neg ((if neg then -1 else 1) * ((n : ℚ) / d)) (ofRatio F neg n d) := by
  refine ⟨rfl, ?_⟩
  have hin := inf_le_pattern F (n * 2 ^ F.scale) d hd
  have hover := overflow_le F n d hd neg
  rw [← hover] at hin
  have hnear := pattern_near F (n * 2 ^ F.scale) d hd
  by_cases h : overflow F ≤ |(if neg then -1 else 1) * ((n : ℚ) / d)|
  · rw [if_pos h, isInf_iff]
    simp only [ofRatio]
    exact Nat.min_eq_left (hin.mpr h)
  · rw [if_neg h]
    have hlt : pattern F (n * 2 ^ F.scale) d < F.inf := Nat.not_le.mp (mt hin.mp h)
    have hmag : (ofRatio F neg n d).mag = pattern F (n * 2 ^ F.scale) d := Nat.min_eq_right (Nat.le_of_lt hlt)
    have hd' : (0 : ℚ) < d := by exact_mod_cast hd
    have hp := pow_scale_pos F
    have hdp : (0 : ℚ) < d * 2 ^ F.scale := mul_pos hd' hp
    refine ⟨by rw [isFinite_iff, hmag]; exact hlt, fun y hy => ?_⟩
    have h0 := hnear 0
    rw [units_zero] at h0
    have hx := dist_same F n d hd neg (ofRatio F neg n d) rfl
    rw [hmag] at hx
    rw [fracBits_even, hmag]
    by_cases hs : y.neg = neg
    · have hyd := dist_same F n d hd neg y hs
      rw [hx, hyd]
      refine ⟨?_, fun he hv => ?_⟩
      · rw [div_le_div_iff_of_pos_right hdp]; exact_mod_cast (hnear y.mag).1
      · rw [div_left_inj' (ne_of_gt hdp)] at he
        refine (hnear y.mag).2 (by exact_mod_cast he) ?_
        intro hm
        refine hv ?_
        have : y = ofRatio F neg n d := by
          have : (ofRatio F neg n d).neg = neg := rfl
          cases hh : ofRatio F neg n d
          cases y
          simp_all
        rw [this]
    · have hyd := dist_other F n d hd neg y hs
      rw [hx, hyd]
      have hA : |((n * 2 ^ F.scale : ℕ) : ℤ) - d * (0 : ℕ)| = (n * 2 ^ F.scale : ℕ) := by
        rw [Nat.cast_zero, mul_zero, sub_zero, Nat.abs_cast]
      rw [hA] at h0
      refine ⟨?_, fun he hv => ?_⟩
      · rw [div_le_div_iff_of_pos_right hdp]
        refine le_trans (b := ((n * 2 ^ F.scale : ℕ) : ℚ)) (by exact_mod_cast h0.1) ?_
        push_cast
        have : (0 : ℚ) ≤ d * units F y.mag := by positivity
        linarith
      · rw [div_left_inj' (ne_of_gt hdp)] at he
        have he' : |((n * 2 ^ F.scale : ℕ) : ℤ) - d * units F (pattern F (n * 2 ^ F.scale) d)| = (n * 2 ^ F.scale + d * units F y.mag : ℕ) := by
          exact_mod_cast he
        have hle := h0.1
        rw [he'] at hle
        have hz : d * units F y.mag = 0 := by
          have : n * 2 ^ F.scale + d * units F y.mag ≤ n * 2 ^ F.scale := by exact_mod_cast hle
          omega
        have hu : units F y.mag = 0 := by
          rcases Nat.mul_eq_zero.mp hz with h | h
          · omega
          · exact h
        rw [hz, Nat.add_zero] at he'
        refine h0.2 he' fun hp0 => hv ?_
        rw [value_eq, value_eq]
        unfold sunits
        rw [hmag, ← hp0, units_zero, hu]
        simp

/-! ## The rounded number is unique -/

theorem finite_zero (F : Fmt) (neg : Bool) : ∃ z : Float F, IsFinite z ∧ value z = 0 ∧ z.neg = neg := by
  refine ⟨⟨neg, 0, Nat.two_pow_pos _⟩, ?_, ?_, rfl⟩
  · rw [isFinite_iff]; exact inf_pos F
  · rw [value_eq]; unfold sunits; rw [units_zero]; simp

theorem eq_of_value {x y : Float F} (hn : x.neg = y.neg) (hv : value x = value y) : x = y := by
  have h1 := value_lt x y
  have h2 := value_lt y x
  rw [hv] at h1 h2
  simp at h1 h2
  have hk : x.key = y.key := by omega
  unfold Float.key at hk
  have hm : x.mag = y.mag := by
    rw [hn] at hk
    split at hk <;> omega
  cases x; cases y; simp_all

theorem eq_of_inf {x y : Float F} (hn : x.neg = y.neg) (hx : IsInf x) (hy : IsInf y) : x = y := by
  rw [isInf_iff] at hx hy
  cases x; cases y; simp_all

/-- Between two even patterns of the same sign there is a float. -/
theorem between {x y : Float F} (hn : x.neg = y.neg) (hx : IsFinite x) (hy : IsFinite y) (hlt : value x < value y)
    (h1 : fracBits x % 2 = 0) (h2 : fracBits y % 2 = 0) : ∃ z : Float F, IsFinite z ∧ value x < value z ∧ value z < value y := by
  rw [fracBits_even] at h1 h2
  rw [isFinite_iff] at hx hy
  rw [value_lt] at hlt
  have hinf := F.inf_lt
  unfold Float.key at hlt
  rw [hn] at hlt
  cases hneg : y.neg
  · rw [hneg] at hlt hn
    simp at hlt
    refine ⟨⟨false, x.mag + 1, by omega⟩, by rw [isFinite_iff]; simp only; omega, ?_, ?_⟩ <;> rw [value_lt] <;> unfold Float.key <;>
      simp [hn, hneg] <;> omega
  · rw [hneg] at hlt hn
    simp at hlt
    refine ⟨⟨true, y.mag + 1, by omega⟩, by rw [isFinite_iff]; simp only; omega, ?_, ?_⟩ <;> rw [value_lt] <;> unfold Float.key <;>
      simp [hn, hneg] <;> omega

theorem rounds_unique {neg : Bool} {q : ℚ} {x y : Float F} (hx : RoundsTo neg q x) (hy : RoundsTo neg q y) : x = y := by
  obtain ⟨hnx, hx⟩ := hx
  obtain ⟨hny, hy⟩ := hy
  have hn : x.neg = y.neg := hnx.trans hny.symm
  split at hx
  · rw [if_pos ‹_›] at hy
    exact eq_of_inf hn hx hy
  · rw [if_neg ‹_›] at hy
    obtain ⟨fx, hx⟩ := hx
    obtain ⟨fy, hy⟩ := hy
    by_contra hne
    have key : ∀ {x y : Float F}, x.neg = y.neg → IsFinite x → IsFinite y → value x < value y →
        (∀ y : Float F, IsFinite y → |q - value x| ≤ |q - value y| ∧ (|q - value x| = |q - value y| → value x ≠ value y → fracBits x % 2 = 0)) →
        (∀ z : Float F, IsFinite z → |q - value y| ≤ |q - value z| ∧ (|q - value y| = |q - value z| → value y ≠ value z → fracBits y % 2 = 0)) →
        False := by
      intro x y hn fx fy hlt hx hy
      have heq := le_antisymm (hx y fy).1 (hy x fx).1
      obtain ⟨z, fz, h1, h2⟩ := between hn fx fy hlt ((hx y fy).2 heq (ne_of_lt hlt)) ((hy x fx).2 heq.symm (ne_of_gt hlt))
      have a := (qcloser_low h1).mp (hx z fz).1
      have b := (qcloser_high h2).mp (hy z fz).1
      linarith
    rcases lt_trichotomy (value x) (value y) with h | h | h
    · exact key hn fx fy h hx hy
    · exact hne (eq_of_value hn h)
    · exact key hn.symm fy fx h hy hx

/-! ## Rounding keeps the order -/

theorem overflow_pos (F : Fmt) : 0 < overflow F := by
  unfold overflow
  have : (1 : ℚ) / 2 ^ (F.man + 1) ≤ 1 := by
    rw [div_le_one (by positivity)]
    exact one_le_pow₀ (by norm_num)
  have h2 : (0 : ℚ) < 2 ^ bias F := by positivity
  have : (0 : ℚ) < 2 - 1 / 2 ^ (F.man + 1) := by linarith
  exact mul_pos h2 this

theorem rounds_mono {neg neg' : Bool} {q q' : ℚ} {x y : Float F} (hs : SignOf neg q) (hs' : SignOf neg' q')
    (hx : RoundsTo neg q x) (hy : RoundsTo neg' q' y) (hq : q ≤ q') : place x ≤ place y := by
  have hx0 := hx
  have hy0 := hy
  obtain ⟨hnx, hx⟩ := hx
  obtain ⟨hny, hy⟩ := hy
  have hpos := overflow_pos F
  unfold SignOf at hs hs'
  by_cases ox : overflow F ≤ |q|
  · rw [if_pos ox] at hx
    rw [place_inf ((isInf_iff x).mp hx), hnx]
    cases neg
    · have : overflow F ≤ |q'| := by
        simp only [Bool.false_eq_true, if_false] at hs
        rw [abs_of_nonneg hs] at ox
        rw [abs_of_nonneg (by linarith)]; linarith
      rw [if_pos this] at hy
      rw [place_inf ((isInf_iff y).mp hy), hny]
      cases neg'
      · simp
      · simp only [Bool.false_eq_true, if_false, if_true] at hs hs'
        rw [abs_of_nonneg hs] at ox
        linarith
    · simp
  · rw [if_neg ox] at hx
    by_cases oy : overflow F ≤ |q'|
    · rw [if_pos oy] at hy
      rw [place_inf ((isInf_iff y).mp hy), hny]
      cases neg'
      · simp
      · exfalso
        simp only [if_true] at hs'
        rw [abs_of_nonpos hs'] at oy
        rw [abs_of_nonpos (by linarith)] at ox
        linarith
    · rw [if_neg oy] at hy
      obtain ⟨fx, hx⟩ := hx
      obtain ⟨fy, hy⟩ := hy
      rw [place_finite ((isFinite_iff x).mp fx), place_finite ((isFinite_iff y).mp fy), WithBot.coe_le_coe, WithTop.coe_le_coe]
      by_contra hc
      have hlt : value y < value x := lt_of_not_ge hc
      have a := (qcloser_high hlt).mp (hx y fy).1
      have b := (qcloser_low hlt).mp (hy x fx).1
      have hqq : q = q' := by linarith
      subst hqq
      rcases eq_or_ne q 0 with h0 | h0
      · obtain ⟨z, fz, vz, _⟩ := finite_zero F false
        have a := (hx z fz).1
        have b := (hy z fz).1
        rw [h0, vz] at a b
        simp at a b
        rw [a, b] at hlt
        exact lt_irrefl _ hlt
      · have : neg = neg' := by
          rcases lt_or_gt_of_ne h0 with h | h <;> cases neg <;> cases neg' <;> simp at hs hs' <;> first | rfl | (exfalso; linarith)
        subst this
        have := rounds_unique hx0 hy0
        subst this
        exact lt_irrefl _ hlt

end Verif.Float
