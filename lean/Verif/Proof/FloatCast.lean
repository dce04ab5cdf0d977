import Verif.Proof.FloatText
import Verif.Props.Range

/-!
# Lemmas about floats: casts, and the check in terms of numbers
-/

namespace Verif.Float

open Verif.Spec.Float Verif.Range

variable {F G : Fmt}

/-! ## Casts -/

theorem value_ratio (x : Float F) : value x = (if x.neg then -1 else 1) * ((units F x.mag : ℚ) / ((2 ^ F.scale : ℕ) : ℚ)) := by
  rw [value_eq]; unfold sunits
  cases x.neg <;> push_cast <;> simp <;> ring

theorem cast_nan {x : Float F} (h : IsNan x) : IsNan (cast G x) ∧ (cast G x).neg = x.neg := by
  unfold cast; rw [if_pos ((isNan_eq x).mpr h)]; exact nan_isNan G x.neg

theorem cast_inf {x : Float F} (h : IsInf x) : IsInf (cast G x) ∧ (cast G x).neg = x.neg := by
  have h' := (isInf_iff x).mp h
  have hn : ¬ x.isNan = true := by rw [isNan_eq, isNan_iff]; omega
  unfold cast; rw [if_neg hn, if_pos h']; exact infinity_isInf G x.neg

theorem cast_rounds {x : Float F} (h : IsFinite x) : RoundsTo x.neg (value x) (cast G x) := by
  have h' := (isFinite_iff x).mp h
  have hn : ¬ x.isNan = true := by rw [isNan_eq, isNan_iff]; omega
  unfold cast; rw [if_neg hn, if_neg (by omega), value_ratio]
  exact ofRatio_rounds G x.neg _ _ (Nat.two_pow_pos _)

theorem signOf_value (x : Float F) : SignOf x.neg (value x) := by
  rw [value_ratio]
  have : (0 : ℚ) ≤ (units F x.mag : ℚ) / ((2 ^ F.scale : ℕ) : ℚ) := div_nonneg (Nat.cast_nonneg _) (Nat.cast_nonneg _)
  unfold SignOf
  cases x.neg
  · simpa using this
  · simpa using this

theorem finite_lt_overflow {x : Float F} (h : IsFinite x) : ¬ overflow F ≤ |value x| := by
  rw [isFinite_iff] at h
  rw [value_ratio, overflow_le F _ _ (Nat.two_pow_pos _)]
  have hi := inf_pos F
  have h1 : units F x.mag ≤ units F (F.inf - 1) := by
    rcases Nat.eq_or_lt_of_le (show x.mag ≤ F.inf - 1 by omega) with e | e
    · rw [e]
    · exact Nat.le_of_lt ((units_lt F).mpr e)
  have h2 : units F (F.inf - 1) < units F F.inf := (units_lt F).mpr (by omega)
  rw [Nat.not_le, Nat.mul_comm (units F x.mag), ← Nat.mul_assoc, Nat.mul_comm 2, Nat.mul_assoc]
  exact Nat.mul_lt_mul_of_pos_left (by omega) (Nat.two_pow_pos _)

/-- A number that is a float rounds to that float. -/
theorem rounds_self {x : Float F} {y : Float F} (hx : IsFinite x) (h : RoundsTo x.neg (value x) y) : y = x := by
  obtain ⟨hn, h⟩ := h
  rw [if_neg (finite_lt_overflow hx)] at h
  have := (h.2 x hx).1
  rw [sub_self, abs_zero] at this
  have hv : value x - value y = 0 := abs_eq_zero.mp (le_antisymm this (abs_nonneg _))
  exact eq_of_value hn (by linarith)

/-- Every finite `f32` is a finite `f64`. -/
theorem widen_exists (x : Float .f32) (hx : IsFinite x) : ∃ y : Float .f64, IsFinite y ∧ value y = value x ∧ y.neg = x.neg := by
  rw [isFinite_iff] at hx
  obtain ⟨w, hw⟩ : ∃ w, w = 925 := ⟨_, rfl⟩
  suffices h : ∃ r, r < Fmt.f64.inf ∧ units .f64 r = units .f32 x.mag * 2 ^ w by
    obtain ⟨r, hr, hu⟩ := h
    refine ⟨⟨x.neg, r, Nat.lt_trans hr Fmt.f64.inf_lt⟩, by rw [isFinite_iff]; exact hr, ?_, rfl⟩
    rw [value_ratio, value_ratio, hu]
    congr 1
    rw [show Fmt.f64.scale = Fmt.f32.scale + w by rw [hw]; decide, Nat.pow_add, Nat.cast_mul, Nat.cast_mul]
    rw [mul_div_mul_right]
    exact Nat.cast_ne_zero.mpr (Nat.two_pow_pos w).ne'
  have hp : 0 < 2 ^ Fmt.f64.man := Nat.two_pow_pos _
  have hp' : 0 < 2 ^ Fmt.f32.man := Nat.two_pow_pos _
  -- the size is a number of at most 24 bits, shifted
  obtain ⟨k, c, hk, hc, hu⟩ : ∃ k c, k ≤ 253 ∧ c < 2 ^ 24 ∧ units .f32 x.mag = c * 2 ^ k := by
    rcases pattern_cases hp' x.mag with h | ⟨k, c, h1, h2, h3⟩
    · refine ⟨0, x.mag, by decide, ?_, ?_⟩
      · exact Nat.lt_of_lt_of_le h (by decide)
      · rw [units_eq, unitsP_small _ h]; simp
    · refine ⟨k, c, ?_, ?_, ?_⟩
      · rw [h3] at hx
        have e1 : Fmt.f32.inf = 255 * 2 ^ Fmt.f32.man := by decide
        rw [e1] at hx
        have : (k + 1) * 2 ^ Fmt.f32.man < 255 * 2 ^ Fmt.f32.man := by rw [Nat.add_mul]; omega
        have := Nat.lt_of_mul_lt_mul_right this
        omega
      · have e1 : 2 * 2 ^ Fmt.f32.man = 2 ^ 24 := by decide
        omega
      · rw [h3, units_eq, unitsP_shift hp' k c h1 (by omega)]
  rcases Nat.eq_zero_or_pos c with h0 | h0
  · exact ⟨0, inf_pos _, by rw [units_zero, hu, h0]; simp⟩
  · have hl1 := Nat.log2_self_le (n := c) (by omega)
    have hl2 := Nat.lt_log2_self (n := c)
    have hl3 : c.log2 < 24 := by rw [Nat.log2_lt (by omega)]; exact hc
    generalize c.log2 = l at *
    have e52 : Fmt.f64.man = 52 := rfl
    have hge : 2 ^ Fmt.f64.man ≤ c * 2 ^ (52 - l) := by
      rw [e52, show (52 : ℕ) = l + (52 - l) by omega, Nat.pow_add, show l + (52 - l) - l = 52 - l by omega]
      exact Nat.mul_le_mul_right _ hl1
    have hlt : c * 2 ^ (52 - l) < 2 * 2 ^ Fmt.f64.man := by
      rw [e52, ← Nat.pow_succ', show Nat.succ 52 = (l + 1) + (52 - l) by omega, Nat.pow_add]
      exact Nat.mul_lt_mul_of_pos_right hl2 (Nat.two_pow_pos _)
    refine ⟨(873 + k + l) * 2 ^ Fmt.f64.man + c * 2 ^ (52 - l), ?_, ?_⟩
    · have e1 : Fmt.f64.inf = 2047 * 2 ^ Fmt.f64.man := by decide +kernel
      have : (873 + k + l + 2) * 2 ^ Fmt.f64.man ≤ 2047 * 2 ^ Fmt.f64.man := Nat.mul_le_mul_right _ (by omega)
      rw [e1]
      rw [Nat.add_mul] at this
      omega
    · rw [units_eq, unitsP_shift hp _ _ hge (Nat.le_of_lt hlt), hu, Nat.mul_assoc, Nat.mul_assoc, ← Nat.pow_add, ← Nat.pow_add]
      congr 2
      omega

theorem widen_place (x : Float .f32) (h : ¬ IsNan x) : ¬ IsNan (cast .f64 x) ∧ place (cast .f64 x) = place x := by
  rcases class_cases x with hn | hi | hf
  · exact absurd hn h
  · have hc := cast_inf (G := .f64) hi
    refine ⟨?_, ?_⟩
    · have := (isInf_iff _).mp hc.1
      rw [isNan_iff]; omega
    · rw [place_inf ((isInf_iff _).mp hc.1), place_inf ((isInf_iff _).mp hi), hc.2]
  · obtain ⟨y, fy, vy, ny⟩ := widen_exists x hf
    have hr := cast_rounds (G := .f64) hf
    rw [← vy, ← ny] at hr
    have := rounds_self fy hr
    rw [this]
    have hy := (isFinite_iff _).mp fy
    exact ⟨by rw [isNan_iff]; omega, by rw [place_finite hy, place_finite ((isFinite_iff _).mp hf), vy]⟩

/-! ## The check -/

theorem mapRange_floats (r : RangeOption (Float F)) (hr : NoNan r) : mapRange toFl r = Props.Range.floats (placeRange r) := by
  have hb : ∀ b : Bounds (Float F), (∀ m, b.min = some m → ¬ IsNan m) → (∀ m, b.max = some m → ¬ IsNan m) →
      mapBounds toFl b = (placeBounds b).map some := by
    rintro ⟨lo, hi, i⟩ h1 h2
    unfold mapBounds placeBounds Bounds.map
    cases lo <;> cases hi <;> simp_all [toFl_some]
  cases r with
  | inside b => simp only [mapRange, placeRange, Props.Range.floats, hb b hr.1 hr.2]
  | outside b => simp only [mapRange, placeRange, Props.Range.floats, hb b hr.1 hr.2]
  | unlimited => rfl

/-- The check is one of `Model/Number.lean`. -/
theorem check_some {r : RangeOption (Float F)} (hr : NoNan r) {chk : Float F → Out RangeError Unit} (h : check r = some chk) :
    ∃ chk', Number.check (Props.Range.floats (placeRange r)) = some chk' ∧ ∀ x, chk x = chk' (toFl x) := by
  rw [check_eq, mapRange_floats r hr, Option.map_eq_some_iff] at h
  obtain ⟨chk', h1, rfl⟩ := h
  exact ⟨chk', h1, fun _ => rfl⟩

theorem parseF_eq {chk : Float F → Out RangeError Unit} {chk' : Number.Fl Ext → Out RangeError Unit}
    (h : ∀ x, chk x = chk' (toFl x)) (nan : TriAllow) (x : Float F) :
    (∀ y, parseF chk nan x = .ok y ↔ y = x ∧ Number.parseF chk' nan (toFl x) = .ok (toFl x)) ∧
    (∀ e, parseF chk nan x = .err e ↔ Number.parseF chk' nan (toFl x) = .err e) ∧
    (parseF chk nan x = .panic ↔ Number.parseF chk' nan (toFl x) = .panic) := by
  have hn : (toFl x).isNone = x.isNan := by unfold toFl; cases x.isNan <;> simp
  unfold parseF Number.parseF
  rw [h]
  cases chk' (toFl x) with
  | ok u =>
    cases nan <;> cases hx : x.isNan <;> simp [checkNan, Number.checkNan, hn, hx, Out.map, eq_comm]
  | err e => simp
  | panic => simp

end Verif.Float
