import Verif.Proof.FloatCast
import Verif.Proof.Int

/-!
# C83: a number is judged by its value, whatever its bits and however it is written
-/

namespace Verif.Props.Float

open Verif.Range Verif.Float
open Verif.Spec.Range Verif.Spec.Float

variable {F : Fmt}

/-! ## The bits -/

/-- C83: every range compiles, on the bits of `f32` and `f64`. -/
theorem C83_compiles (r : RangeOption (Float F)) (hr : NoNan r) : (check r).isSome := by
  rw [check_eq, mapRange_floats r hr, Option.isSome_map]
  exact Range.C18_number_closed_partial _

/-- C83: a float is accepted, with its bits unchanged, exactly when NaN is not disallowed (for NaN), or NaN is not required and the
number it stands for satisfies the range of the numbers that the bounds stand for (for any other float). -/
theorem C83_accepts (r : RangeOption (Float F)) (hr : NoNan r) (nan : TriAllow) (chk : Float F → Out RangeError Unit)
    (h : check r = some chk) (x y : Float F) :
    parseF chk nan x = .ok y ↔ y = x ∧
      ((IsNan x ∧ nan ≠ .disallow) ∨ (¬ IsNan x ∧ nan ≠ .must ∧ Satisfies (placeRange r) (place x))) := by
  obtain ⟨chk', hc, he⟩ := check_some hr h
  rw [(parseF_eq he nan x).1]
  by_cases hn : IsNan x
  · rw [toFl_nan hn, (Range.C20_nan _ nan chk' hc).1]
    simp [hn]
  · rw [toFl_some hn, Range.C20_number _ nan chk' hc]
    simp [hn, and_comm]

/-- C83: the errors. `TooSmall` exactly for numbers below the minimum, `TooLarge` exactly for numbers above the maximum (and not below
the minimum), `Forbidden` exactly for members of an `Outside` range, `NaNMust` and `NaNDisallow` exactly for what the NaN policy
refuses. There is no panic. -/
theorem C83_errors (r : RangeOption (Float F)) (hr : NoNan r) (nan : TriAllow) (chk : Float F → Out RangeError Unit)
    (h : check r = some chk) (x : Float F) :
    (parseF chk nan x = .err (.range .tooSmall) ↔ ¬ IsNan x ∧ ∃ b, r = .inside b ∧ BelowMin (placeBounds b) (place x)) ∧
    (parseF chk nan x = .err (.range .tooLarge) ↔
      ¬ IsNan x ∧ ∃ b, r = .inside b ∧ AboveMax (placeBounds b) (place x) ∧ ¬ BelowMin (placeBounds b) (place x)) ∧
    (parseF chk nan x = .err (.range .forbidden) ↔
      ¬ IsNan x ∧ ∃ b, r = .outside b ∧ Bounded (placeBounds b) ∧ Contains (placeBounds b) (place x)) ∧
    (parseF chk nan x = .err .nanMust ↔ ¬ IsNan x ∧ nan = .must ∧ Satisfies (placeRange r) (place x)) ∧
    (parseF chk nan x = .err .nanDisallow ↔ IsNan x ∧ nan = .disallow) ∧
    parseF chk nan x ≠ .err .parseFloat ∧ parseF chk nan x ≠ .panic := by
  obtain ⟨chk', hc, he⟩ := check_some hr h
  obtain ⟨-, h2, h3⟩ := parseF_eq he nan x
  rw [h2, h2, h2, h2, h2, ne_eq, h2, ne_eq, h3]
  by_cases hn : IsNan x
  · have hnan := Range.number_nan _ chk' hc
    rw [toFl_nan hn]
    unfold Number.parseF
    rw [hnan]
    cases nan <;> simp [Number.checkNan, hn]
  · rw [toFl_some hn]
    obtain ⟨e1, e2, e3, e4, e5, e6⟩ := Range.C20_number_errors _ nan chk' hc (place x)
    refine ⟨?_, ?_, ?_, ?_, ?_, ?_, e6⟩
    · rw [e1]; cases r <;> simp [placeRange, hn]
    · rw [e2]; cases r <;> simp [placeRange, hn]
    · rw [e3]; cases r <;> simp [placeRange, hn]
    · rw [e4]; simp [hn]
    · simp [hn, e5]
    · unfold Number.parseF
      cases chk' (some (place x)) <;> cases nan <;> simp [Number.checkNan]

/-! ## The texts -/

/-- C83: a decimal text writes one number. -/
theorem C83_one_number (s : List UInt8) (neg neg' : Bool) (q q' : ℚ) (h : Decimal s neg q) (h' : Decimal s neg' q') :
    neg = neg' ∧ q = q' :=
  decimal_unique h h'

/-- C83: a decimal text is read as the float nearest to the number it writes. -/
theorem C83_reads_decimal (s : List UInt8) (neg : Bool) (q : ℚ) (h : Decimal s neg q) :
    ∃ x, fromStr F s = some x ∧ RoundsTo neg q x := by
  obtain ⟨sign, t, n, e, rfl, hs, hb, rfl⟩ := (decimal_iff s neg q).mp h
  refine ⟨_, (fromStr_some _ _).mpr ⟨sign, t, neg, rfl, hs, (unsigned_some _ _ _).mpr (.inl ⟨n, e, hb, rfl⟩)⟩, body_rounds F neg n e⟩

/-- C83: there is only one nearest float. -/
theorem C83_nearest_unique (neg : Bool) (q : ℚ) (x y : Float F) (hx : RoundsTo neg q x) (hy : RoundsTo neg q y) : x = y :=
  rounds_unique hx hy

/-- C83: the words for infinity and NaN, in any case, with an optional sign. -/
theorem C83_reads_words (s : List UInt8) (neg : Bool) :
    (InfText s neg → ∃ x : Float F, fromStr F s = some x ∧ IsInf x ∧ x.neg = neg) ∧
    (NanText s neg → ∃ x : Float F, fromStr F s = some x ∧ IsNan x) := by
  constructor
  · rintro ⟨sign, w, rfl, hs, hw⟩
    exact ⟨_, (fromStr_some _ _).mpr ⟨sign, w, neg, rfl, hs, (unsigned_some _ _ _).mpr (.inr (.inr ⟨hw, rfl⟩))⟩, infinity_isInf F neg⟩
  · rintro ⟨sign, w, rfl, hs, hw⟩
    exact ⟨_, (fromStr_some _ _).mpr ⟨sign, w, neg, rfl, hs, (unsigned_some _ _ _).mpr (.inr (.inl ⟨hw, rfl⟩))⟩, (nan_isNan F neg).1⟩

/-- C83: every other text is refused. -/
theorem C83_reads_nothing_else (s : List UInt8) :
    fromStr F s = none ↔ ∀ neg, (∀ q, ¬ Decimal s neg q) ∧ ¬ InfText s neg ∧ ¬ NanText s neg := by
  constructor
  · intro h neg
    refine ⟨fun q hq => ?_, fun hi => ?_, fun hn => ?_⟩
    · obtain ⟨x, hx, -⟩ := C83_reads_decimal (F := F) s neg q hq
      rw [h] at hx; exact absurd hx (by simp)
    · obtain ⟨x, hx, -⟩ := (C83_reads_words (F := F) s neg).1 hi
      rw [h] at hx; exact absurd hx (by simp)
    · obtain ⟨x, hx, -⟩ := (C83_reads_words (F := F) s neg).2 hn
      rw [h] at hx; exact absurd hx (by simp)
  · intro h
    cases hx : fromStr F s with
    | none => rfl
    | some x =>
      obtain ⟨sign, t, neg, hst, hs, hu⟩ := (fromStr_some _ _).mp hx
      obtain ⟨h1, h2, h3⟩ := h neg
      rcases (unsigned_some _ _ _).mp hu with ⟨n, e, hb, -⟩ | ⟨hw, -⟩ | ⟨hw, -⟩
      · exact absurd ((decimal_iff s neg _).mpr ⟨sign, t, n, e, hst, hs, hb, rfl⟩) (h1 _)
      · exact absurd ⟨sign, t, hst, hs, hw⟩ h3
      · exact absurd ⟨sign, t, hst, hs, hw⟩ h2

/-- C83: every float that is not NaN has a text, which is read as its bits. -/
theorem C83_every_float (x : Float F) (hx : ¬ IsNan x) : ∃ s, fromStr F s = some x ∧ (IsFinite x → Decimal s x.neg (value x)) := by
  rcases class_cases x with hn | hi | hf
  · exact absurd hn hx
  · obtain ⟨s, hs⟩ : ∃ s, InfText s x.neg := by
      cases hneg : x.neg
      · exact ⟨ascii "inf", [], ascii "inf", rfl, .inl ⟨rfl, rfl⟩, .inl (by decide)⟩
      · exact ⟨ascii "-inf", ascii "-", ascii "inf", by decide, .inr (.inr ⟨by decide, rfl⟩), .inl (by decide)⟩
    obtain ⟨y, hy, hy', hny⟩ := (C83_reads_words (F := F) s x.neg).1 hs
    refine ⟨s, ?_, fun hf => ?_⟩
    · rw [hy, eq_of_inf hny hy' hi]
    · rw [isInf_iff] at hi; rw [isFinite_iff] at hf; omega
  · have ne := IntV.showNat_ne_nil
    have hd : Decimal ((if x.neg then ascii "-" else []) ++ IntV.showNat (units F x.mag * 5 ^ F.scale) ++ [] ++ [] ++
        (asc 'e' :: asc '-' :: IntV.showNat F.scale)) x.neg (value x) := by
      refine ⟨_, _, _, _, _, -(F.scale : ℤ), rfl, ?_, ?_, ?_, .inl ⟨rfl, rfl⟩, .inr ⟨_, _, rfl, .inl rfl, ?_⟩, ?_⟩
      · cases x.neg
        · exact .inl ⟨rfl, rfl⟩
        · exact .inr (.inr ⟨by decide, rfl⟩)
      · intro b hb
        rw [List.append_nil] at hb
        exact IntV.showNat_digits _ b hb
      · rw [List.append_nil]; exact ne _
      · exact ⟨_, ne _, IntV.showNat_digits _, .inr ⟨rfl, rfl, by rw [IntV.showNat_value]⟩⟩
      · rw [List.append_nil, IntV.showNat_value, value_ratio]
        rw [List.length_nil, Nat.cast_zero, sub_zero, zpow_neg, zpow_natCast, mul_assoc]
        congr 1
        push_cast
        rw [show (10 : ℚ) = 5 * 2 by norm_num, mul_pow]
        field_simp
    obtain ⟨y, hy, hr⟩ := C83_reads_decimal (F := F) _ _ _ hd
    exact ⟨_, by rw [hy, rounds_self hf hr], fun _ => hd⟩

/-- C83: the text entry point: `ParseFloatError` exactly for texts that write no number; otherwise the float is treated as the number
entry point treats it. -/
theorem C83_text (chk : Float F → Out RangeError Unit) (nan : TriAllow) (s : List UInt8) :
    (fromStr F s = none → parseStr chk nan s = .err .parseFloat) ∧
    ∀ x, fromStr F s = some x → parseStr chk nan s = parseF chk nan x := by
  unfold parseStr
  exact ⟨fun h => by rw [h], fun x h => by rw [h]⟩

/-! ## The texts and the range as they are written -/

/-- The float that is read from a decimal text is nearest to its number. -/
theorem writes {s : List UInt8} {neg : Bool} {q : ℚ} {x : Float F} (h : Decimal s neg q) (hx : fromStr F s = some x) : Nearest q x := by
  obtain ⟨y, hy, hr⟩ := C83_reads_decimal (F := F) s neg q h
  rw [hx] at hy
  cases hy
  exact ⟨neg, decimal_sign h, hr⟩

theorem nearest_mono {p q : ℚ} {m x : Float F} (hm : Nearest p m) (hx : Nearest q x) (h : p ≤ q) : place m ≤ place x := by
  obtain ⟨n, s, r⟩ := hm
  obtain ⟨n', s', r'⟩ := hx
  exact rounds_mono s s' r r' h

theorem nearest_not_nan {p : ℚ} {m : Float F} (h : Nearest p m) : ¬ IsNan m := by
  obtain ⟨neg, -, -, h⟩ := h
  rw [isNan_iff]
  split at h
  · rw [isInf_iff] at h; omega
  · have := h.1; rw [isFinite_iff] at this; omega

/-- C83: an inclusive `Inside` range accepts every decimal text whose number lies between the bounds as they are written, in spite of
the rounding of the text and of the bounds. -/
theorem C83_inside_accepted_partial (b : Bounds (Float F)) (hi : b.inclusive = true) (q : ℚ)
    (hmin : ∀ m, b.min = some m → ∃ p, Nearest p m ∧ p ≤ q) (hmax : ∀ m, b.max = some m → ∃ p, Nearest p m ∧ q ≤ p)
    (nan : TriAllow) (hn : nan ≠ .must) (chk : Float F → Out RangeError Unit) (h : check (.inside b) = some chk)
    (s : List UInt8) (neg : Bool) (hs : Decimal s neg q) :
    ∃ x, parseStr chk nan s = .ok x ∧ RoundsTo neg q x := by
  obtain ⟨x, hx, hr⟩ := C83_reads_decimal (F := F) s neg q hs
  refine ⟨x, ?_, hr⟩
  have hw : Nearest q x := writes hs hx
  have hnn : NoNan (.inside b) := by
    refine ⟨fun m hm => ?_, fun m hm => ?_⟩
    · obtain ⟨p, hp, -⟩ := hmin m hm; exact nearest_not_nan hp
    · obtain ⟨p, hp, -⟩ := hmax m hm; exact nearest_not_nan hp
  rw [(C83_text chk nan s).2 x hx, C83_accepts _ hnn nan chk h]
  refine ⟨rfl, .inr ⟨nearest_not_nan hw, hn, ?_, ?_⟩⟩
  · intro m hm
    simp only [placeBounds, Option.map_eq_some_iff] at hm
    obtain ⟨m, hm, rfl⟩ := hm
    obtain ⟨p, hp, hle⟩ := hmin m hm
    exact nearest_mono hp hw hle
  · intro m hm
    simp only [placeBounds, Option.map_eq_some_iff] at hm
    obtain ⟨m, hm, rfl⟩ := hm
    obtain ⟨p, hp, hle⟩ := hmax m hm
    refine ⟨nearest_mono hw hp hle, fun hf => ?_⟩
    simp only [placeBounds, hi] at hf
    exact absurd hf (by simp)

/-- C83: a decimal text that is accepted by an `Inside` range although its number lies beyond a bound as it is written is read as the
same number as the bound. -/
theorem C83_accepted_inside_partial (b : Bounds (Float F)) (hnn : NoNan (.inside b)) (nan : TriAllow)
    (chk : Float F → Out RangeError Unit) (h : check (.inside b) = some chk) (s : List UInt8) (neg : Bool) (q : ℚ) (hs : Decimal s neg q)
    (x : Float F) (hok : parseStr chk nan s = .ok x) :
    (∀ m, b.min = some m → ∀ p, Nearest p m → q < p → place x = place m) ∧
    (∀ m, b.max = some m → ∀ p, Nearest p m → p < q → place x = place m) := by
  obtain ⟨x', hx, hr⟩ := C83_reads_decimal (F := F) s neg q hs
  have hw : Nearest q x' := writes hs hx
  rw [(C83_text chk nan s).2 x' hx, C83_accepts _ hnn nan chk h] at hok
  obtain ⟨rfl, hok⟩ := hok
  rcases hok with ⟨hn, -⟩ | ⟨-, -, h1, h2⟩
  · exact absurd hn (nearest_not_nan hw)
  · refine ⟨fun m hm p hp hlt => ?_, fun m hm p hp hlt => ?_⟩
    · exact le_antisymm (nearest_mono hw hp (le_of_lt hlt)) (h1 (place m) (by simp [placeBounds, hm]))
    · exact le_antisymm (h2 (place m) (by simp [placeBounds, hm])).1 (nearest_mono hp hw (le_of_lt hlt))

/-! ## The other float type -/

/-- C83: with an excluded maximum, what is accepted lies below the maximum as it is written. -/
theorem C83_exclusive_partial (b : Bounds (Float F)) (hi : b.inclusive = false) (hnn : NoNan (.inside b)) (nan : TriAllow)
    (chk : Float F → Out RangeError Unit) (h : check (.inside b) = some chk) (s : List UInt8) (neg : Bool) (q : ℚ) (hs : Decimal s neg q)
    (x : Float F) (hok : parseStr chk nan s = .ok x) (m : Float F) (hm : b.max = some m) (p : ℚ) (hp : Nearest p m) : q < p := by
  obtain ⟨x', hx, hr⟩ := C83_reads_decimal (F := F) s neg q hs
  have hw : Nearest q x' := writes hs hx
  rw [(C83_text chk nan s).2 x' hx, C83_accepts _ hnn nan chk h] at hok
  obtain ⟨rfl, ⟨hn, -⟩ | ⟨-, -, hc⟩⟩ := hok
  · exact absurd hn (nearest_not_nan hw)
  · by_contra hle
    have h1 := nearest_mono hp hw (not_lt.mp hle)
    obtain ⟨h2, h3⟩ := hc.2 (place m) (by simp [placeBounds, hm])
    exact h3 (by simp [placeBounds, hi]) (le_antisymm h2 h1)

/-- C83: an inclusive `Outside` range refuses every decimal text whose number lies between the bounds as they are written. -/
theorem C83_outside_refused_partial (b : Bounds (Float F)) (hi : b.inclusive = true) (hb : Bounded b) (q : ℚ)
    (hmin : ∀ m, b.min = some m → ∃ p, Nearest p m ∧ p ≤ q) (hmax : ∀ m, b.max = some m → ∃ p, Nearest p m ∧ q ≤ p)
    (nan : TriAllow) (chk : Float F → Out RangeError Unit) (h : check (.outside b) = some chk)
    (s : List UInt8) (neg : Bool) (hs : Decimal s neg q) :
    parseStr chk nan s = .err (.range .forbidden) := by
  obtain ⟨x, hx, hr⟩ := C83_reads_decimal (F := F) s neg q hs
  have hw : Nearest q x := writes hs hx
  have hnn : NoNan (.outside b) := by
    refine ⟨fun m hm => ?_, fun m hm => ?_⟩
    · obtain ⟨p, hp, -⟩ := hmin m hm; exact nearest_not_nan hp
    · obtain ⟨p, hp, -⟩ := hmax m hm; exact nearest_not_nan hp
  rw [(C83_text chk nan s).2 x hx, (C83_errors _ hnn nan chk h x).2.2.1]
  refine ⟨nearest_not_nan hw, b, rfl, ?_, ?_, ?_⟩
  · simpa [Bounded, placeBounds] using hb
  · intro m hm
    simp only [placeBounds, Option.map_eq_some_iff] at hm
    obtain ⟨m, hm, rfl⟩ := hm
    obtain ⟨p, hp, hle⟩ := hmin m hm
    exact nearest_mono hp hw hle
  · intro m hm
    simp only [placeBounds, Option.map_eq_some_iff] at hm
    obtain ⟨m, hm, rfl⟩ := hm
    obtain ⟨p, hp, hle⟩ := hmax m hm
    refine ⟨nearest_mono hw hp hle, fun hf => ?_⟩
    simp only [placeBounds, hi] at hf
    exact absurd hf (by simp)

/-- C83: the number entry point of the other float type: NaN stays NaN, the infinities stay, any other number is rounded to the
nearest float of the type of the validator and treated like it. -/
theorem C83_other_type {G : Fmt} (chk : Float F → Out RangeError Unit) (nan : TriAllow) (f : Float G) :
    ∃ x : Float F, parseOther chk nan f = parseF chk nan x ∧ (IsNan f → IsNan x) ∧ (IsInf f → IsInf x ∧ x.neg = f.neg) ∧
      (IsFinite f → RoundsTo f.neg (value f) x) :=
  ⟨cast F f, rfl, fun h => (cast_nan h).1, cast_inf, cast_rounds⟩

/-- C83: an `f32` given to a validator over `f64` is judged by the number it stands for, and kept as that number. -/
theorem C83_f32_exact (r : RangeOption (Float .f64)) (hr : NoNan r) (nan : TriAllow) (chk : Float .f64 → Out RangeError Unit)
    (h : check r = some chk) (f : Float .f32) (hf : ¬ IsNan f) :
    (∀ y, parseOther chk nan f = .ok y → place y = place f) ∧
    ((parseOther chk nan f).IsOk ↔ nan ≠ .must ∧ Satisfies (placeRange r) (place f)) := by
  obtain ⟨hn, hp⟩ := widen_place f hf
  unfold parseOther
  refine ⟨fun y hy => ?_, ?_⟩
  · obtain ⟨rfl, -⟩ := (C83_accepts r hr nan chk h _ _).mp hy
    exact hp
  · constructor
    · intro hok
      cases hc : parseF chk nan (cast .f64 f) with
      | ok y =>
        rcases ((C83_accepts r hr nan chk h _ _).mp hc).2 with ⟨h1, -⟩ | ⟨-, h2⟩
        · exact absurd h1 hn
        · rw [hp] at h2; exact h2
      | err e => rw [hc] at hok; simp [Out.IsOk] at hok
      | panic => rw [hc] at hok; simp [Out.IsOk] at hok
    · rintro ⟨h1, h2⟩
      have := (C83_accepts r hr nan chk h (cast .f64 f) (cast .f64 f)).mpr ⟨rfl, .inr ⟨hn, h1, by rw [hp]; exact h2⟩⟩
      rw [this]; simp [Out.IsOk]

/-! ## The text is not judged by the number it writes -/

/-- The number 1. -/
def one (F : Fmt) : Float F := ofRatio F false 1 1

/-- The range with the maximum 1. -/
def upToOne (F : Fmt) (inclusive : Bool) : RangeOption (Float F) := .inside ⟨none, some (one F), inclusive⟩

theorem one_written : fromStr F (ascii "1") = some (one F) := by cases F <;> decide +kernel

theorem decimal_one : Decimal (ascii "1") false 1 :=
  ⟨[], ascii "1", [], [], [], 0, by decide, .inl ⟨rfl, rfl⟩, by decide, by decide, .inl ⟨rfl, rfl⟩, .inl ⟨rfl, rfl⟩, by
    rw [show Spec.IntV.decValue (ascii "1" ++ []) = 1 by decide]; norm_num⟩

theorem decimal_above : Decimal (ascii "1.00000000000000000001") false (100000000000000000001 / 100000000000000000000) :=
  ⟨[], ascii "1", ascii ".", ascii "00000000000000000001", [], 0, by decide, .inl ⟨rfl, rfl⟩, by decide, by decide, .inr rfl,
    .inl ⟨rfl, rfl⟩, by
      rw [show Spec.IntV.decValue (ascii "1" ++ ascii "00000000000000000001") = 100000000000000000001 by decide +kernel,
        show (ascii "00000000000000000001").length = 20 by decide]
      norm_num⟩

theorem decimal_below : Decimal (ascii "0.99999999999999999999") false (99999999999999999999 / 100000000000000000000) :=
  ⟨[], ascii "0", ascii ".", ascii "99999999999999999999", [], 0, by decide, .inl ⟨rfl, rfl⟩, by decide, by decide, .inr rfl,
    .inl ⟨rfl, rfl⟩, by
      rw [show Spec.IntV.decValue (ascii "0" ++ ascii "99999999999999999999") = 99999999999999999999 by decide +kernel,
        show (ascii "99999999999999999999").length = 20 by decide]
      norm_num⟩

/-- C83 is false of the code: with the maximum 1, a text that writes a number above 1 is accepted; with the exclusive maximum 1, a text
that writes a number below 1 is refused; and a validator over `f32` with the maximum 1 accepts an `f64` above 1. -/
theorem C83_violated :
    (∃ chk s q x, check (upToOne .f64 true) = some chk ∧ Decimal s false q ∧ 1 < q ∧ parseStr chk .disallow s = .ok x) ∧
    (∃ chk s q, check (upToOne .f64 false) = some chk ∧ Decimal s false q ∧ 0 < q ∧ q < 1 ∧
      parseStr chk .disallow s = .err (.range .tooLarge)) ∧
    (∃ chk, ∃ f : Float .f64, check (upToOne .f32 true) = some chk ∧ IsFinite f ∧ 1 < value f ∧
      parseOther chk .disallow f = .ok (one .f32)) := by
  refine ⟨⟨_, ascii "1.00000000000000000001", _, one .f64, rfl, decimal_above, by norm_num, by decide +kernel⟩,
    ⟨_, ascii "0.99999999999999999999", _, rfl, decimal_below, by norm_num, by norm_num, by decide +kernel⟩,
    ⟨_, ⟨false, 0x3ff0000000000001, by decide +kernel⟩, rfl, ?_, ?_, by decide +kernel⟩⟩
  · rw [isFinite_iff]; decide +kernel
  · have : value (one .f64) = 1 := by
      have h := C83_reads_decimal (F := .f64) (ascii "1") false 1 decimal_one
      obtain ⟨x, hx, hr⟩ := h
      rw [one_written] at hx
      obtain rfl := Option.some.inj hx
      rw [value_ratio, show units .f64 (one .f64).mag = 2 ^ Fmt.f64.scale by decide +kernel, show (one .f64).neg = false from rfl]
      rw [div_self (Nat.cast_ne_zero.mpr (Nat.two_pow_pos _).ne')]
      simp
    rw [← this, value_lt]
    decide +kernel

/-! ## Cases -/

/-- The hypotheses of `C83_inside_accepted_partial` and `C83_accepted_inside_partial`: the range up to 1, and a number below. -/
example : ∃ chk x, check (upToOne F true) = some chk ∧ parseStr chk .disallow (ascii "0.99999999999999999999") = .ok x := by
  obtain ⟨chk, hc⟩ := Option.isSome_iff_exists.mp (C83_compiles (F := F) (upToOne F true) ⟨by simp, by
    intro m hm
    have hm' : some (one F) = some m := hm
    obtain rfl := Option.some.inj hm'
    exact nearest_not_nan (writes decimal_one one_written)⟩)
  obtain ⟨x, hx, -⟩ := C83_inside_accepted_partial (F := F) ⟨none, some (one F), true⟩ rfl _ (by simp)
    (fun m hm => ⟨1, by
      have hm' : some (one F) = some m := hm
      obtain rfl := Option.some.inj hm'
      exact (writes decimal_one one_written), by norm_num⟩) .disallow (by decide) chk hc _ _ decimal_below
  exact ⟨chk, x, hc, hx⟩

/-- Both zeros satisfy a range that starts at zero and keep their sign; the smallest negative number does not. -/
example : ∃ chk, check (F := .f32) (.inside ⟨some ⟨false, 0, by decide⟩, none, true⟩) = some chk ∧
    parseStr chk .allow (ascii "-0") = .ok ⟨true, 0, by decide⟩ ∧ parseStr chk .allow (ascii "+.0e3") = .ok ⟨false, 0, by decide⟩ ∧
    parseStr chk .allow (ascii "-1e-45") = .err (.range .tooSmall) ∧ parseStr chk .allow (ascii "-1e-46") = .ok ⟨true, 0, by decide⟩ ∧
    parseStr chk .allow (ascii "-NaN") = .ok (nan .f32 true) ∧ parseStr chk .disallow (ascii "nan") = .err .nanDisallow ∧
    parseStr chk .allow (ascii "Infinity") = .ok (infinity .f32 false) ∧ parseStr chk .allow (ascii "-inf") = .err (.range .tooSmall) ∧
    parseStr chk .allow (ascii "1e39") = .ok (infinity .f32 false) ∧ parseStr chk .allow (ascii ".") = .err .parseFloat ∧
    parseStr chk .allow (ascii "1e") = .err .parseFloat ∧ parseStr chk .allow (ascii " 1") = .err .parseFloat :=
  ⟨_, rfl, by decide +kernel, by decide +kernel, by decide +kernel, by decide +kernel, by decide +kernel, by decide +kernel,
    by decide +kernel, by decide +kernel, by decide +kernel, by decide +kernel, by decide +kernel, by decide +kernel⟩

/-- `0.1`, `16777217` and the largest numbers, as `f32` and `f64` read them. -/
example : fromStr .f64 (ascii "0.1") = some ⟨false, 0x3fb999999999999a, by decide +kernel⟩ ∧
    fromStr .f32 (ascii "0.1") = some ⟨false, 0x3dcccccd, by decide +kernel⟩ ∧
    fromStr .f32 (ascii "16777217") = some ⟨false, 0x4b800000, by decide +kernel⟩ ∧
    fromStr .f64 (ascii "1.7976931348623157E+308") = some ⟨false, 0x7fefffffffffffff, by decide +kernel⟩ ∧
    fromStr .f64 (ascii "1.7976931348623159e308") = some (infinity .f64 false) ∧
    cast .f64 (⟨true, 0x3dcccccd, by decide +kernel⟩ : Float .f32) = ⟨true, 0x3fb99999a0000000, by decide +kernel⟩ := by
  decide +kernel

end Verif.Props.Float
