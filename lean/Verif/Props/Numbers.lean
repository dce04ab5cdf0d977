import Verif.Props.Float
import Verif.Props.Range
import Verif.Spec.Numbers
import Mathlib.Data.Nat.Log

/-!
# C95: the validators of numbers agree

The integer validators of all types and the `number` validator, given the same text and the same range.
-/

namespace Verif.Props.Numbers

open Verif.Range Verif.Spec Verif.Spec.Range Verif.Spec.IntV Verif.IntV Verif.Spec.Numbers

/-- C95: a text that one integer validator reads, another one with the same range reads as the same integer, exactly if the integer
is one of its type and, for an unsigned type, the text has no minus sign. -/
theorem C95_types (ptr ptr' : Ptr) (signed signed' : Bool) (w w' : Width) (r : RangeOption Int) (chk chk' : Int → Out RangeError Unit)
    (h : check ptr signed w r = some chk) (h' : check ptr' signed' w' r = some chk') (s : List UInt8) (v : Int)
    (hs : parseStr chk signed (bits ptr w) s = .ok v) :
    parseStr chk' signed' (bits ptr' w') s = .ok v ↔ Fits signed' (bits ptr' w') v ∧ (signed' = false → s.head? ≠ some (asc '-')) := by
  rw [Range.C16_language ptr signed w r chk h] at hs
  rw [Range.C16_language ptr' signed' w' r chk' h']
  obtain ⟨⟨ds, h0, h1, h2⟩, _, h3⟩ := hs
  have hd : ∀ b t, ds = b :: t → b ≠ asc '-' := by
    rintro b t rfl rfl
    exact absurd (h1 _ List.mem_cons_self) (by decide)
  constructor
  · rintro ⟨⟨es, _, e1, e2⟩, k, _⟩
    refine ⟨k, ?_⟩
    rintro rfl e
    rcases e2 with ⟨e2 | rfl, _⟩ | ⟨e2, _⟩
    · subst e2
      cases s with
      | nil => cases e
      | cons b t =>
        simp only [List.head?_cons, Option.some.injEq] at e
        exact absurd (e1 _ List.mem_cons_self) (e ▸ by decide)
    · simp only [List.head?_cons, Option.some.injEq] at e
      exact absurd e (by decide)
    · cases e2
  · rintro ⟨k, e⟩
    refine ⟨⟨ds, h0, h1, ?_⟩, k, h3⟩
    rcases h2 with h2 | ⟨_, rfl, h2⟩
    · exact .inl h2
    · cases signed' with
      | true => exact .inr ⟨rfl, rfl, h2⟩
      | false => exact absurd rfl (e rfl)

/-- The texts for which the sign makes the difference are those of minus zero: `i8` reads `-0`, `u8` does not. -/
theorem C95_minus_zero (ptr ptr' : Ptr) (w w' : Width) (r : RangeOption Int) (chk chk' : Int → Out RangeError Unit)
    (h : check ptr true w r = some chk) (h' : check ptr' false w' r = some chk') (s : List UInt8) (v : Int)
    (hs : parseStr chk true (bits ptr w) s = .ok v) (hf : Fits false (bits ptr' w') v) :
    parseStr chk' false (bits ptr' w') s = .ok v ∨ v = 0 ∧ s.head? = some (asc '-') := by
  rw [C95_types ptr ptr' true false w w' r chk chk' h h' s v hs]
  by_cases e : s.head? = some (asc '-')
  · refine .inr ⟨?_, e⟩
    rw [Range.C16_language ptr true w r chk h] at hs
    obtain ⟨⟨ds, h0, h1, ⟨h2 | rfl, _⟩ | ⟨_, rfl, h2⟩⟩, _⟩ := hs
    · subst h2
      cases s with
      | nil => cases e
      | cons b t =>
        simp only [List.head?_cons, Option.some.injEq] at e
        exact absurd (h1 _ List.mem_cons_self) (e ▸ by decide)
    · simp only [List.head?_cons, Option.some.injEq] at e
      exact absurd e (by decide)
    · have := hf.1
      omega
  · exact .inl ⟨hf, fun _ => e⟩

example : ∃ chk chk', check .p64 true .w8 .unlimited = some chk ∧ check .p64 false .w8 .unlimited = some chk' ∧
    parseStr chk true 8 (ascii "-0") = .ok 0 ∧ parseStr chk' false 8 (ascii "-0") = .err (.parseInt .invalidDigit) ∧
    parseStr chk' false 8 (ascii "+0") = .ok 0 := ⟨_, _, rfl, rfl, by decide +kernel, by decide +kernel, by decide +kernel⟩

/-! ## Integers and floats -/

section

open Verif.Float Verif.Spec.Float

variable {F : Fmt}

/-- A numeral is a decimal text. -/
theorem numeral_decimal {signed : Bool} {s : List UInt8} {v : Int} (h : Numeral signed s v) : ∃ neg, Decimal s neg v := by
  obtain ⟨ds, h0, h1, ⟨rfl | rfl, rfl⟩ | ⟨_, rfl, rfl⟩⟩ := h
  · exact ⟨false, [], s, [], [], [], 0, by simp, .inl ⟨rfl, rfl⟩, by simpa using h1, by simpa using h0, .inl ⟨rfl, rfl⟩, .inl ⟨rfl, rfl⟩, by simp⟩
  · exact ⟨false, [asc '+'], ds, [], [], [], 0, by simp, .inr (.inl ⟨rfl, rfl⟩), by simpa using h1, by simpa using h0, .inl ⟨rfl, rfl⟩,
      .inl ⟨rfl, rfl⟩, by simp⟩
  · exact ⟨true, [asc '-'], ds, [], [], [], 0, by simp, .inr (.inr ⟨rfl, rfl⟩), by simpa using h1, by simpa using h0, .inl ⟨rfl, rfl⟩,
      .inl ⟨rfl, rfl⟩, by simp⟩

/-- The place of an integer. -/
def at' (v : Int) : Ext := (((v : ℚ) : WithTop ℚ) : Ext)

theorem place_exact {v : Int} {x : Float F} (h : Exact v x) : place x = at' v := by
  rw [place_finite ((isFinite_iff x).1 h.1), h.2]; rfl

theorem at_le {v w : Int} : at' v ≤ at' w ↔ v ≤ w := by simp [at']

theorem at_inj {v w : Int} : at' v = at' w ↔ v = w := by simp [at']

theorem bound_map {a : Option Int} {b : Option (Float F)} (h : SameBound a b) : b.map place = a.map at' := by
  cases a <;> cases b <;> simp only [SameBound] at h
  · rfl
  · simp [place_exact h]

theorem contains_iff {b : Bounds Int} {c : Bounds (Float F)} (h : SameBounds b c) (v : Int) :
    Contains (placeBounds c) (at' v) ↔ Contains b v := by
  obtain ⟨h1, h2, h3⟩ := h
  unfold placeBounds
  rw [bound_map h1, bound_map h2, ← h3]
  simp [Contains, at_le, at_inj]

theorem bounded_iff {b : Bounds Int} {c : Bounds (Float F)} (h : SameBounds b c) : Bounded (placeBounds c) ↔ Bounded b := by
  obtain ⟨h1, h2, h3⟩ := h
  unfold placeBounds
  rw [bound_map h1, bound_map h2, ← h3]
  simp [Bounded]

theorem satisfies_iff {r : RangeOption Int} {r' : RangeOption (Float F)} (h : SameRange r r') (v : Int) :
    Satisfies (placeRange r') (at' v) ↔ Satisfies r v := by
  cases r <;> cases r' <;> simp only [SameRange] at h
  · exact contains_iff h v
  · exact not_congr (and_congr (bounded_iff h) (contains_iff h v))
  · exact Iff.rfl

theorem exact_not_nan {v : Int} {x : Float F} (h : Exact v x) : ¬ IsNan x := by
  have := (isFinite_iff x).1 h.1
  rw [isNan_iff]
  omega

theorem bound_not_nan {a : Option Int} {b : Option (Float F)} (h : SameBound a b) (m : Float F) (hm : b = some m) : ¬ IsNan m := by
  subst hm
  cases a with
  | none => cases h
  | some v => exact exact_not_nan h

theorem no_nan {r : RangeOption Int} {r' : RangeOption (Float F)} (h : SameRange r r') : NoNan r' := by
  cases r <;> cases r' <;> simp only [SameRange] at h
  · exact ⟨bound_not_nan h.1, bound_not_nan h.2.1⟩
  · exact ⟨bound_not_nan h.1, bound_not_nan h.2.1⟩
  · trivial

/-- A numeral of an integer that is a float is read as this float, up to the sign of zero. -/
theorem reads_exact {signed : Bool} {s : List UInt8} {v : Int} (h : Numeral signed s v) (hv : ∃ x : Float F, Exact v x) :
    ∃ y : Float F, fromStr F s = some y ∧ Exact v y := by
  obtain ⟨x, hx⟩ := hv
  obtain ⟨neg, hd⟩ := numeral_decimal h
  obtain ⟨y, hy, hn, hr⟩ := Float.C83_reads_decimal (F := F) s neg _ hd
  refine ⟨y, hy, ?_⟩
  have hlt := finite_lt_overflow hx.1
  rw [hx.2] at hlt
  rw [if_neg hlt] at hr
  refine ⟨hr.1, ?_⟩
  have := (hr.2 x hx.1).1
  rw [hx.2, sub_self, abs_zero] at this
  have := abs_eq_zero.1 (le_antisymm this (abs_nonneg _))
  exact (sub_eq_zero.1 this).symm

/-- C95: on a numeral whose integer the integer type and the float type both have, an integer validator and a `number` validator with
the same range agree. -/
theorem C95_number (ptr : Ptr) (signed : Bool) (w : Width) (r : RangeOption Int) (chk : Int → Out RangeError Unit)
    (h : Verif.IntV.check ptr signed w r = some chk) (r' : RangeOption (Float F)) (hr : SameRange r r') (nan : TriAllow) (hn : nan ≠ .must)
    (chk' : Float F → Out RangeError Unit) (h' : Verif.Float.check r' = some chk') (s : List UInt8) (v : Int) (hs : Numeral signed s v)
    (hf : Fits signed (bits ptr w) v) (hv : ∃ x : Float F, Exact v x) :
    Verif.IntV.parseStr chk signed (bits ptr w) s = .ok v ↔ ∃ y, Verif.Float.parseStr chk' nan s = .ok y ∧ Exact v y := by
  rw [Range.C16_language ptr signed w r chk h]
  obtain ⟨y, hy, hx⟩ := reads_exact hs hv
  have key : ∀ z, Verif.Float.parseStr chk' nan s = .ok z ↔ z = y ∧ Satisfies r v := by
    intro z
    rw [(Float.C83_text chk' nan s).2 y hy, Float.C83_accepts r' (no_nan hr) nan chk' h', place_exact hx, satisfies_iff hr]
    exact and_congr_right fun _ => ⟨fun k => k.elim (fun k => absurd k.1 (exact_not_nan hx)) fun k => k.2.2,
      fun k => .inr ⟨exact_not_nan hx, hn, k⟩⟩
  constructor
  · rintro ⟨_, _, k⟩
    exact ⟨y, (key y).2 ⟨rfl, k⟩, hx⟩
  · rintro ⟨z, k, _⟩
    exact ⟨hs, hf, ((key z).1 k).2⟩

theorem exact_nearest {v : Int} {x : Float F} (h : Exact v x) : Nearest (v : ℚ) x := by
  have h1 := cast_rounds (G := F) h.1
  rw [rounds_self h.1 h1, h.2] at h1
  have := signOf_value x
  rw [h.2] at this
  exact ⟨_, this, h1⟩

/-- C95: with an inclusive `Inside` range, or none, what an integer validator accepts, a `number` validator with the same range
accepts as the nearest float, though it may not have the integer. -/
theorem C95_nearest (ptr : Ptr) (signed : Bool) (w : Width) (r : RangeOption Int) (chk : Int → Out RangeError Unit)
    (h : Verif.IntV.check ptr signed w r = some chk) (r' : RangeOption (Float F)) (hr : SameRange r r')
    (hi : r = .unlimited ∨ ∃ b, r = .inside b ∧ b.inclusive = true) (nan : TriAllow) (hn : nan ≠ .must)
    (chk' : Float F → Out RangeError Unit) (h' : Verif.Float.check r' = some chk') (s : List UInt8) (v : Int)
    (hs : Verif.IntV.parseStr chk signed (bits ptr w) s = .ok v) :
    ∃ y, Verif.Float.parseStr chk' nan s = .ok y ∧ Nearest (v : ℚ) y := by
  obtain ⟨h1, _, h2⟩ := (Range.C16_language ptr signed w r chk h s v).1 hs
  obtain ⟨neg, hd⟩ := numeral_decimal h1
  obtain ⟨y, hy, hro⟩ := Float.C83_reads_decimal (F := F) s neg _ hd
  have hw : Nearest (v : ℚ) y := Float.writes hd hy
  refine ⟨y, ?_, hw⟩
  rw [(Float.C83_text chk' nan s).2 y hy, Float.C83_accepts r' (no_nan hr) nan chk' h']
  refine ⟨rfl, .inr ⟨Float.nearest_not_nan hw, hn, ?_⟩⟩
  rcases hi with rfl | ⟨b, rfl, hb⟩
  · cases r' <;> simp only [SameRange] at hr
    trivial
  · cases r' with
    | inside c =>
      obtain ⟨h3, h4, h5⟩ := hr
      obtain ⟨k1, k2⟩ := h2
      constructor
      · intro m hm
        simp only [placeBounds, Option.map_eq_some_iff] at hm
        obtain ⟨m, hm, rfl⟩ := hm
        rw [hm] at h3
        cases e : b.min with
        | none => rw [e] at h3; cases h3
        | some n =>
          rw [e] at h3
          exact Float.nearest_mono (exact_nearest h3) hw (by exact_mod_cast k1 n e)
      · intro m hm
        simp only [placeBounds, Option.map_eq_some_iff] at hm
        obtain ⟨m, hm, rfl⟩ := hm
        rw [hm] at h4
        cases e : b.max with
        | none => rw [e] at h4; cases h4
        | some n =>
          rw [e] at h4
          refine ⟨Float.nearest_mono hw (exact_nearest h4) (by exact_mod_cast (k2 n e).1), fun k => ?_⟩
          simp only [placeBounds, ← h5, hb] at k
          cases k
    | outside c => cases hr
    | unlimited => cases hr

/-- The float types have every integer up to 2^24 and 2^53. -/
theorem C95_small (v : Int) (hv : v.natAbs ≤ 2 ^ (F.man + 1)) : ∃ x : Float F, Exact v x := by
  have key : ∀ n ≤ 2 ^ (F.man + 1), ∃ m, m < F.inf ∧ units F m = n * 2 ^ F.scale := by
    intro n hn
    rcases Nat.eq_zero_or_pos n with rfl | hp
    · exact ⟨0, inf_pos F, by rw [units_zero, Nat.zero_mul]⟩
    · have hP := Nat.two_pow_pos F.man
      obtain ⟨j, hj⟩ : ∃ j, j = F.man - Nat.log 2 n := ⟨_, rfl⟩
      have hl1 : 2 ^ Nat.log 2 n ≤ n := Nat.pow_log_le_self 2 (by omega)
      have hl2 : n < 2 ^ (Nat.log 2 n + 1) := Nat.lt_pow_succ_log_self (by decide) n
      have hl3 : Nat.log 2 n ≤ F.man + 1 := (Nat.pow_le_pow_iff_right (by decide)).1 (hl1.trans hn)
      have hjs : j ≤ F.scale := by
        have : F.man ≤ F.scale := by cases F <;> decide
        omega
      have hc1 : 2 ^ F.man ≤ n * 2 ^ j := by
        calc 2 ^ F.man ≤ 2 ^ (Nat.log 2 n + j) := Nat.pow_le_pow_right (by decide) (by omega)
          _ = 2 ^ Nat.log 2 n * 2 ^ j := pow_add _ _ _
          _ ≤ n * 2 ^ j := Nat.mul_le_mul_right _ hl1
      have hc2 : n * 2 ^ j ≤ 2 * 2 ^ F.man := by
        rcases Nat.lt_or_ge F.man (Nat.log 2 n) with hg | hg
        · have : j = 0 := by omega
          rw [this, pow_zero, mul_one]
          rw [pow_succ] at hn
          omega
        · calc n * 2 ^ j ≤ 2 ^ (Nat.log 2 n + 1) * 2 ^ j := Nat.mul_le_mul_right _ hl2.le
            _ = 2 ^ (Nat.log 2 n + 1 + j) := (pow_add _ _ _).symm
            _ = 2 ^ (F.man + 1) := by congr 1; omega
            _ = 2 * 2 ^ F.man := by rw [pow_succ, mul_comm]
      refine ⟨(F.scale - j) * 2 ^ F.man + n * 2 ^ j, ?_, ?_⟩
      · have h1 : (F.scale - j) * 2 ^ F.man ≤ F.scale * 2 ^ F.man := Nat.mul_le_mul_right _ (Nat.sub_le _ _)
        have h2 : F.scale * 2 ^ F.man + 2 * 2 ^ F.man < F.inf := by cases F <;> decide +kernel
        omega
      · rw [units_eq, unitsP_shift hP _ _ hc1 hc2, mul_assoc, ← pow_add]
        congr 2
        omega
  obtain ⟨m, h1, h2⟩ := key _ hv
  have hm : m < 2 ^ (F.exp + F.man) := h1.trans_le (by cases F <;> decide +kernel)
  refine ⟨⟨decide (v < 0), m, hm⟩, (isFinite_iff _).2 h1, ?_⟩
  rw [value_ratio]
  have hs : (0 : ℚ) < ((2 ^ F.scale : ℕ) : ℚ) := by exact_mod_cast Nat.two_pow_pos _
  show (if decide (v < 0) then (-1 : ℚ) else 1) * ((units F m : ℚ) / _) = _
  rw [h2]
  push_cast
  have h3 : ((v.natAbs : ℕ) : ℚ) = |(v : ℚ)| := by rw [Nat.cast_natAbs, Int.cast_abs]
  rw [h3]
  rcases lt_or_ge v 0 with hv | hv
  · rw [abs_of_neg (by exact_mod_cast hv)]
    simp only [hv, decide_true, if_true]
    field_simp
  · rw [abs_of_nonneg (by exact_mod_cast hv)]
    simp [not_lt.2 hv]

/-- The hypotheses are met: a range for both types, and the text `+05`. -/
example : ∃ (r' : RangeOption (Float F)) (chk : Int → Out RangeError Unit) (chk' : Float F → Out RangeError Unit),
    SameRange (.outside ⟨some 6, some 16777216, true⟩) r' ∧
    Verif.IntV.check .p64 true .w32 (.outside ⟨some 6, some 16777216, true⟩) = some chk ∧ Verif.Float.check r' = some chk' ∧
    ∃ y, Verif.Float.parseStr chk' .disallow (ascii "+05") = .ok y ∧ Exact 5 y := by
  have hF : 2 ^ 24 ≤ 2 ^ (F.man + 1) := by cases F <;> decide
  obtain ⟨x, hx⟩ := C95_small (F := F) 6 (Nat.le_trans (by decide) hF)
  obtain ⟨y, hy⟩ := C95_small (F := F) 16777216 (Nat.le_trans (by decide) hF)
  have hr : SameRange (.outside ⟨some 6, some 16777216, true⟩) (.outside ⟨some x, some y, true⟩) := ⟨hx, hy, rfl⟩
  obtain ⟨chk', h'⟩ := Option.isSome_iff_exists.1 (Float.C83_compiles _ (no_nan hr))
  refine ⟨_, _, chk', hr, rfl, h', ?_⟩
  exact (C95_number .p64 true .w32 _ _ rfl _ hr .disallow (by decide) chk' h' _ 5
    ⟨ascii "05", by decide, by decide, .inl ⟨.inr rfl, by decide⟩⟩ (by simp [Fits, bits])
    (C95_small 5 (Nat.le_trans (by decide) hF))).1 (by decide +kernel)

/-- The limits are needed. The integer 16777219 lies below the excluded maximum 16777220, and is read as it by `f32`. -/
theorem C95_rounding : ∃ (m : Float .f32) (chk : Int → Out RangeError Unit) (chk' : Float .f32 → Out RangeError Unit), Exact 16777220 m ∧
    Verif.IntV.check .p64 false .w32 (.inside ⟨none, some 16777220, false⟩) = some chk ∧
    Verif.Float.check (.inside ⟨none, some m, false⟩) = some chk' ∧
    Verif.IntV.parseStr chk false 32 (ascii "16777219") = .ok 16777219 ∧
    Verif.Float.parseStr chk' .allow (ascii "16777219") = .err (.range .tooLarge) := by
  refine ⟨⟨false, 0x4b800002, by decide +kernel⟩, _, _, ⟨(isFinite_iff _).2 (by decide +kernel), ?_⟩, rfl, rfl, by decide +kernel, by decide +kernel⟩
  rw [value_ratio]
  have : units .f32 0x4b800002 = 16777220 * 2 ^ 149 := by decide +kernel
  show (1 : ℚ) * ((units .f32 0x4b800002 : ℚ) / ((2 ^ 149 : ℕ) : ℚ)) = _
  rw [this]
  push_cast
  norm_num

end

end Verif.Props.Numbers
