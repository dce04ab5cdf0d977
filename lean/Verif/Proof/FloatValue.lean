import Verif.Proof.Float
import Verif.Proof.Range
import Mathlib.Tactic.FieldSimp

/-!
# Lemmas about floats: values, rounding to the nearest value, comparison
-/

namespace Verif.Float

open Verif.Spec.Float

variable {F : Fmt}

/-! ## Classes -/

theorem inf_eq (F : Fmt) : F.inf = (2 ^ F.exp - 2) * 2 ^ F.man + 2 ^ F.man := by cases F <;> decide +kernel

theorem exponent_lt_iff (x : Float F) : expBits x < 2 ^ F.exp - 1 ↔ x.mag < F.inf := by
  unfold expBits Fmt.inf
  exact Nat.div_lt_iff_lt_mul (Nat.two_pow_pos _)

theorem exponent_le (x : Float F) : expBits x ≤ 2 ^ F.exp - 1 := by
  have h : expBits x < 2 ^ F.exp := by
    unfold expBits
    rw [Nat.div_lt_iff_lt_mul (Nat.two_pow_pos _), ← Nat.pow_add]
    exact x.lt
  omega

theorem isFinite_iff (x : Float F) : IsFinite x ↔ x.mag < F.inf := exponent_lt_iff x

theorem mag_eq (x : Float F) : x.mag = expBits x * 2 ^ F.man + fracBits x := by
  unfold expBits fracBits
  rw [Nat.mul_comm]; exact (Nat.div_add_mod _ _).symm

theorem isInf_iff (x : Float F) : IsInf x ↔ x.mag = F.inf := by
  have h := exponent_lt_iff x
  have h1 := exponent_le x
  have h2 := mag_eq x
  have h3 : F.inf = (2 ^ F.exp - 1) * 2 ^ F.man := rfl
  unfold IsInf
  constructor
  · rintro ⟨a, b⟩; rw [h2, a, b, h3, Nat.add_zero]
  · intro e
    have a : expBits x = 2 ^ F.exp - 1 := by omega
    rw [a, ← h3, e] at h2
    exact ⟨a, by omega⟩

theorem isNan_iff (x : Float F) : IsNan x ↔ F.inf < x.mag := by
  have h := exponent_lt_iff x
  have h1 := exponent_le x
  have h2 := isInf_iff x
  unfold IsInf at h2
  unfold IsNan
  constructor
  · rintro ⟨a, b⟩
    have : x.mag ≠ F.inf := fun e => b (h2.mpr e).2
    omega
  · intro e
    have a : expBits x = 2 ^ F.exp - 1 := by omega
    exact ⟨a, fun hb => absurd (h2.mp ⟨a, hb⟩) (by omega)⟩

theorem isNan_eq (x : Float F) : x.isNan = true ↔ IsNan x := by rw [isNan_iff]; simp [Float.isNan]

/-- NaN, infinite or finite. -/
theorem class_cases (x : Float F) : IsNan x ∨ IsInf x ∨ IsFinite x := by
  rw [isNan_iff, isInf_iff, isFinite_iff]; omega

/-! ## Values -/

/-- The size with the sign, in units of `2 ^ -scale`. -/
def sunits (x : Float F) : ℤ := if x.neg then -(units F x.mag : ℤ) else units F x.mag

theorem scale_eq (F : Fmt) : F.scale + 1 = bias F + F.man := by cases F <;> decide

theorem bias_pos (F : Fmt) : 1 ≤ bias F := by cases F <;> decide

theorem two_ne : (2 : ℚ) ≠ 0 := by norm_num

theorem value_eq (x : Float F) : value x = (sunits x : ℚ) / 2 ^ F.scale := by
  have hs := scale_eq F
  have hb := bias_pos F
  have e1 : ∀ m : ℕ, (2 : ℚ) ^ (1 - (bias F : ℤ)) * (m / 2 ^ F.man) = m / 2 ^ F.scale := by
    intro m
    have : (2 : ℚ) ^ (1 - (bias F : ℤ)) = 1 / 2 ^ (bias F - 1) := by
      rw [show (1 - (bias F : ℤ)) = -((bias F - 1 : ℕ) : ℤ) by omega, zpow_neg, zpow_natCast, one_div]
    rw [this, show F.scale = (bias F - 1) + F.man by omega, pow_add]
    field_simp
  have e2 : ∀ e m : ℕ, e ≠ 0 → (2 : ℚ) ^ ((e : ℤ) - bias F) * (1 + m / 2 ^ F.man) = ((2 ^ F.man + m) * 2 ^ (e - 1) : ℕ) / 2 ^ F.scale := by
    intro e m he
    have : (2 : ℚ) ^ ((e : ℤ) - bias F) = 2 ^ (e - 1) * (1 / 2 ^ (bias F - 1)) := by
      rw [show ((e : ℤ) - bias F) = ((e - 1 : ℕ) : ℤ) + -((bias F - 1 : ℕ) : ℤ) by omega, zpow_add₀ two_ne, zpow_neg, zpow_natCast,
        zpow_natCast, one_div]
    rw [this, show F.scale = (bias F - 1) + F.man by omega, pow_add]
    push_cast
    field_simp
  have e3 : (if expBits x = 0 then (2 : ℚ) ^ (1 - (bias F : ℤ)) * (fracBits x / 2 ^ F.man)
      else (2 : ℚ) ^ ((expBits x : ℤ) - bias F) * (1 + fracBits x / 2 ^ F.man)) = (units F x.mag : ℕ) / 2 ^ F.scale := by
    unfold units
    change _ = ((if expBits x = 0 then fracBits x else (2 ^ F.man + fracBits x) * 2 ^ (expBits x - 1) : ℕ) : ℚ) / 2 ^ F.scale
    split
    · exact e1 _
    · exact e2 _ _ ‹_›
  unfold value sunits
  rw [e3]
  split <;> push_cast <;> ring

theorem pow_scale_pos (F : Fmt) : (0 : ℚ) < 2 ^ F.scale := by positivity

theorem units_lt (F : Fmt) {a b : ℕ} : units F a < units F b ↔ a < b := (unitsP_strictMono (Nat.two_pow_pos F.man)).lt_iff_lt

theorem units_inj (F : Fmt) {a b : ℕ} : units F a = units F b ↔ a = b :=
  ⟨fun h => (unitsP_strictMono (Nat.two_pow_pos F.man)).injective h, fun h => h ▸ rfl⟩

theorem units_zero (F : Fmt) : units F 0 = 0 := unitsP_zero (Nat.two_pow_pos F.man)

/-- The units grow with the key. -/
theorem sunits_lt (x y : Float F) : sunits x < sunits y ↔ x.key < y.key := by
  unfold sunits Float.key
  have h1 := units_lt F (a := x.mag) (b := y.mag)
  have h2 := units_lt F (a := y.mag) (b := x.mag)
  have h3 := units_lt F (a := 0) (b := x.mag)
  have h4 := units_lt F (a := 0) (b := y.mag)
  rw [units_zero] at h3 h4
  generalize units F x.mag = u at *
  generalize units F y.mag = v at *
  cases x.neg <;> cases y.neg <;> simp <;> omega

theorem value_lt (x y : Float F) : value x < value y ↔ x.key < y.key := by
  rw [value_eq, value_eq, div_lt_div_iff_of_pos_right (pow_scale_pos F), Int.cast_lt, sunits_lt]

/-! ## Comparison -/

theorem place_finite {x : Float F} (h : x.mag < F.inf) : place x = ((value x : WithTop ℚ) : Ext) := by
  have := (exponent_lt_iff x).mpr h
  unfold place; rw [if_neg (by omega)]

theorem place_inf {x : Float F} (h : x.mag = F.inf) : place x = if x.neg then ⊥ else ⊤ := by
  unfold place; rw [if_pos ((isInf_iff x).mpr h).1]

theorem place_lt {x y : Float F} (hx : ¬ IsNan x) (hy : ¬ IsNan y) : place x < place y ↔ x.key < y.key := by
  rw [isNan_iff] at hx hy
  rcases Nat.lt_or_eq_of_le (Nat.not_lt.mp hx) with h | h <;> rcases Nat.lt_or_eq_of_le (Nat.not_lt.mp hy) with h' | h'
  · rw [place_finite h, place_finite h', WithBot.coe_lt_coe, WithTop.coe_lt_coe, value_lt]
  · have ht : ((value x : WithTop ℚ) : Ext) < ⊤ := WithBot.coe_lt_coe.mpr (WithTop.coe_lt_top (value x))
    rw [place_finite h, place_inf h']
    unfold Float.key
    cases y.neg <;> cases x.neg <;> simp [ht] <;> omega
  · have ht : ¬ ((⊤ : Ext) < ((value y : WithTop ℚ) : Ext)) := not_lt_of_ge le_top
    rw [place_inf h, place_finite h']
    unfold Float.key
    cases y.neg <;> cases x.neg <;> simp [ht] <;> omega
  · have : 0 < F.inf := by cases F <;> decide +kernel
    rw [place_inf h, place_inf h']
    unfold Float.key
    cases y.neg <;> cases x.neg <;> simp <;> omega

theorem place_eq {x y : Float F} (hx : ¬ IsNan x) (hy : ¬ IsNan y) : place x = place y ↔ x.key = y.key := by
  have h1 := place_lt hx hy
  have h2 := place_lt hy hx
  constructor
  · intro h; rw [h] at h1 h2; simp at h1 h2; omega
  · intro h; rw [h] at h1 h2; simp at h1 h2; exact le_antisymm h2 h1

/-- A float as a number of `Model/Number.lean`. -/
def toFl (x : Float F) : Number.Fl Ext := if x.isNan then none else some (place x)

theorem toFl_nan {x : Float F} (h : IsNan x) : toFl x = none := by unfold toFl; rw [if_pos ((isNan_eq x).mpr h)]

theorem toFl_some {x : Float F} (h : ¬ IsNan x) : toFl x = some (place x) := by
  unfold toFl; rw [if_neg (mt (isNan_eq x).mp h)]

theorem pcmp_eq (x y : Float F) : pcmp x y = Number.fcmp (toFl x) (toFl y) := by
  unfold pcmp toFl
  by_cases hx : x.isNan = true
  · simp [hx, Number.fcmp]
  · by_cases hy : y.isNan = true
    · simp [hx, hy, Number.fcmp]
    · simp only [hx, hy, Bool.or_self, Bool.false_eq_true, if_false, Number.fcmp]
      rw [isNan_eq] at hx hy
      have h1 := place_lt hx hy
      have h2 := place_lt hy hx
      have h3 := place_eq hx hy
      rcases lt_trichotomy x.key y.key with h | h | h
      · rw [compare_lt_iff_lt.mpr h, compare_lt_iff_lt.mpr (h1.mpr h)]
      · rw [compare_eq_iff_eq.mpr h, compare_eq_iff_eq.mpr (h3.mpr h)]
      · rw [compare_gt_iff_gt.mpr h, compare_gt_iff_gt.mpr (h2.mpr h)]

/-! ## The check on bits is the check on numbers -/

open Verif.Range

def mapCond {α β : Type} (f : α → β) : Cond α → Cond β
  | .cmp x op c => .cmp x op (f c)
  | .within lo hi inclusive x => .within (f lo) (f hi) inclusive x

def mapStmt {α β : Type} (f : α → β) : Stmt α → Stmt β
  | .bindLen => .bindLen
  | .failIf c e => .failIf (mapCond f c) e
  | .matchCmp x c g => .matchCmp x (f c) g

def mapBounds {α β : Type} (f : α → β) (b : Bounds α) : Bounds β := ⟨b.min.map f, b.max.map f, b.inclusive⟩

def mapRange {α β : Type} (f : α → β) : RangeOption α → RangeOption β
  | .inside b => .inside (mapBounds f b)
  | .outside b => .outside (mapBounds f b)
  | .unlimited => .unlimited

section
variable {α β : Type} (f : α → β)

theorem mapCond_name (c : Cond α) : (mapCond f c).name = c.name := by cases c <;> rfl

theorem closed_map (scope : List Name) (code : List (Stmt α)) : closed scope (code.map (mapStmt f)) = closed scope code := by
  induction code generalizing scope with
  | nil => rfl
  | cons c rest ih => cases c <;> simp [closed, mapStmt, ih, mapCond_name]

variable {p : α → α → Option Ordering} {p' : β → β → Option Ordering} (hp : ∀ a b, p a b = p' (f a) (f b))
include hp

theorem evalCond_map (x : α) (c : Cond α) : evalCond p' (f x) (mapCond f c) = evalCond p x c := by
  cases c <;> simp [evalCond, mapCond, hp]

theorem run_map (env : Name → Option α) (code : List (Stmt α)) :
    run p' none (fun n => (env n).map f) (code.map (mapStmt f)) = run p none env code := by
  induction code generalizing env with
  | nil => rfl
  | cons c rest ih =>
    cases c with
    | bindLen =>
      simp only [List.map_cons, mapStmt, run]
      rw [← ih]
      congr 1
      funext n
      split <;> rfl
    | failIf c e =>
      simp only [List.map_cons, mapStmt, run, mapCond_name]
      cases h : env c.name with
      | none => rfl
      | some x => simp only [Option.map_some, evalCond_map f hp, ih]
    | matchCmp x c g =>
      simp only [List.map_cons, mapStmt, run]
      cases h : env x with
      | none => rfl
      | some a => simp only [Option.map_some, ← hp, ih]

theorem compile_map (param : Name) (code : List (Stmt α)) :
    compile p param code = (compile p' param (code.map (mapStmt f))).map fun chk x => chk (f x) := by
  unfold compile
  rw [closed_map]
  cases closed [param] code with
  | false => rfl
  | true =>
    simp only [if_true, Option.map_some]
    congr 1
    funext x
    rw [← run_map f hp]
    congr 1
    funext n
    split <;> rfl

omit hp in
theorem numberCode_map {n : Num α} {n' : Num β} (hf : n.isFloat = true) (hf' : n'.isFloat = true)
    (he : ∀ a b, n.eq a b = n'.eq (f a) (f b)) (r : RangeOption α) :
    numberCode n' (mapRange f r) = (numberCode n r).map (mapStmt f) := by
  have hr : ∀ b : Bounds α, rangeEqual n' (mapBounds f b) = rangeEqual n b := by
    rintro ⟨lo, hi, i⟩
    cases lo <;> cases hi <;> simp [rangeEqual, mapBounds, hf, hf', he]
  cases r with
  | unlimited => rfl
  | inside b =>
    simp only [numberCode, mapRange, insideCode, hr]
    obtain ⟨lo, hi, i⟩ := b
    cases lo <;> cases hi <;> simp [mapBounds] <;> split <;> simp [mapStmt, mapCond]
  | outside b =>
    simp only [numberCode, mapRange, outsideCode, hr]
    obtain ⟨lo, hi, i⟩ := b
    cases lo <;> cases hi <;> simp [mapBounds] <;> split <;> simp [mapStmt, mapCond]

end

theorem check_eq (r : RangeOption (Float F)) :
    check r = (Number.check (mapRange toFl r)).map fun chk x => chk (toFl x) := by
  unfold check Number.check
  rw [compile_map toFl pcmp_eq, numberCode_map toFl (n := num) (n' := Number.fnum) rfl rfl]
  intro a b
  simp [num, Number.fnum, pcmp_eq]

end Verif.Float
