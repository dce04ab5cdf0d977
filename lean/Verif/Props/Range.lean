import Verif.Proof.Range
import Verif.Proof.Int

/-!
# Properties C14–C21: ranges of integers, sizes, floats and lengths
-/

namespace Verif.Props.Range

open Verif.Range Verif.Spec.Range Verif.Spec.IntV Verif.IntV

/-! ## C14 -/

/-- What an integer check does, for every integer. -/
theorem check_outcome (ptr : Ptr) (signed : Bool) (w : Width) (r : RangeOption Int) (chk : Int → Out RangeError Unit)
    (h : IntV.check ptr signed w r = some chk) (x : Int) :
    (∀ b, r = .inside b → (BelowMin b x → chk x = .err .tooSmall) ∧ (¬ BelowMin b x → AboveMax b x → chk x = .err .tooLarge) ∧
      (Contains b x → chk x = .ok ())) ∧
    (∀ b, r = .outside b → (Contains b x → Bounded b → chk x = .err .forbidden) ∧
      (¬ (Contains b x ∧ Bounded b) → chk x = .ok ())) ∧
    (r = .unlimited → chk x = .ok ()) := by
  cases signed with
  | true =>
    simp only [IntV.check, if_true] at h
    obtain ⟨hc, hrun⟩ := compile_some h
    refine ⟨?_, ?_, ?_⟩
    · rintro b rfl
      have := run_inside (carries_int true (bits ptr w)) .i false b x
      rw [map_id] at this
      simpa only [hrun, signedCode, id] using this
    · rintro b rfl
      have := run_outside (carries_int true (bits ptr w)) .i .i b x
      rw [map_id] at this
      simpa only [hrun, signedCode, id] using this hc
    · rintro rfl
      simp [hrun, signedCode, run]
  | false =>
    simp only [IntV.check, Bool.false_eq_true, if_false] at h
    obtain ⟨hc, hrun⟩ := compile_some h
    refine ⟨?_, ?_, ?_⟩
    · rintro b rfl
      have := run_inside (carries_int false (bits ptr w)) .u false b x
      rw [map_id] at this
      simpa only [hrun, unsignedCode, id] using this
    · rintro b rfl
      have := run_outside (carries_int false (bits ptr w)) .u .i b x
      rw [map_id] at this
      simpa only [hrun, unsignedCode, id] using this hc
    · rintro rfl
      simp [hrun, unsignedCode, run]

/-- C14: an `Inside` integer validator (of any width, signed or not) accepts exactly the integers within the bounds;
`TooSmall` is exactly below the minimum, `TooLarge` exactly above the maximum and not below the minimum; no other outcome. -/
theorem C14_inside (ptr : Ptr) (signed : Bool) (w : Width) (b : Bounds Int) (chk : Int → Out RangeError Unit)
    (h : IntV.check ptr signed w (.inside b) = some chk) (x : Int) :
    (chk x = .ok () ↔ Contains b x) ∧ (chk x = .err .tooSmall ↔ BelowMin b x) ∧
    (chk x = .err .tooLarge ↔ AboveMax b x ∧ ¬ BelowMin b x) ∧ chk x ≠ .err .forbidden ∧ chk x ≠ .panic := by
  obtain ⟨h1, h2, h3⟩ := (check_outcome ptr signed w _ chk h x).1 b rfl
  rcases contains_or b x with hc | hb | ⟨hb, ha⟩
  · have hnb : ¬ BelowMin b x := fun hb => not_contains_of_below b x hb hc
    have hna : ¬ AboveMax b x := fun ha => not_contains_of_above b x ha hc
    simp [h3 hc, hc, hnb, hna]
  · have := not_contains_of_below b x hb
    simp [h1 hb, hb, this]
  · have := not_contains_of_above b x ha
    simp [h2 hb ha, hb, ha, this]

/-- C14: when the bounds are in order, `TooLarge` is exactly above the maximum. -/
theorem C14_inside_too_large (ptr : Ptr) (signed : Bool) (w : Width) (b : Bounds Int) (chk : Int → Out RangeError Unit)
    (h : IntV.check ptr signed w (.inside b) = some chk) (ho : Ordered b) (x : Int) :
    chk x = .err .tooLarge ↔ AboveMax b x := by
  rw [(C14_inside ptr signed w b chk h x).2.2.1]
  constructor
  · exact fun h => h.1
  · rintro ⟨n, hn, ha⟩
    refine ⟨⟨n, hn, ha⟩, ?_⟩
    rintro ⟨m, hm, hb⟩
    have := (ho m hm n hn).1
    rcases ha with ha | ha
    · omega
    · omega

/-- C14: an `Outside` integer validator rejects exactly the integers within the bounds, with `Forbidden`. Without any bound
nothing is excluded. -/
theorem C14_outside (ptr : Ptr) (signed : Bool) (w : Width) (b : Bounds Int) (chk : Int → Out RangeError Unit)
    (h : IntV.check ptr signed w (.outside b) = some chk) (x : Int) :
    (chk x = .ok () ↔ ¬ (Bounded b ∧ Contains b x)) ∧ (chk x = .err .forbidden ↔ Bounded b ∧ Contains b x) ∧
    chk x ≠ .err .tooSmall ∧ chk x ≠ .err .tooLarge ∧ chk x ≠ .panic := by
  obtain ⟨h1, h2⟩ := (check_outcome ptr signed w _ chk h x).2.1 b rfl
  by_cases hc : Contains b x ∧ Bounded b
  · simp [h1 hc.1 hc.2, hc]
  · have hc' : ¬ (Bounded b ∧ Contains b x) := fun h => hc ⟨h.2, h.1⟩
    simp only [h2 hc, hc', not_false_eq_true, iff_true, iff_false]
    simp

/-- C14: without a range every integer is accepted. -/
theorem C14_unlimited (ptr : Ptr) (signed : Bool) (w : Width) (chk : Int → Out RangeError Unit)
    (h : IntV.check ptr signed w .unlimited = some chk) (x : Int) : chk x = .ok () :=
  (check_outcome ptr signed w _ chk h x).2.2 rfl

/-- C14 in one formula: accepted exactly when the range is satisfied. -/
theorem C14_accepts (ptr : Ptr) (signed : Bool) (w : Width) (r : RangeOption Int) (chk : Int → Out RangeError Unit)
    (h : IntV.check ptr signed w r = some chk) (x : Int) : chk x = .ok () ↔ Satisfies r x := by
  cases r with
  | inside b => exact (C14_inside ptr signed w b chk h x).1
  | outside b => exact (C14_outside ptr signed w b chk h x).1
  | unlimited => simp [Satisfies, C14_unlimited ptr signed w chk h x]

theorem check_ne_panic (ptr : Ptr) (signed : Bool) (w : Width) (r : RangeOption Int) (chk : Int → Out RangeError Unit)
    (h : IntV.check ptr signed w r = some chk) (x : Int) : chk x ≠ .panic := by
  cases r with
  | inside b => exact (C14_inside ptr signed w b chk h x).2.2.2.2
  | outside b => exact (C14_outside ptr signed w b chk h x).2.2.2.2
  | unlimited => simp [C14_unlimited ptr signed w chk h x]

/-- The hypothesis is met: a signed validator with an exclusive range over `i8`. -/
example : ∃ chk, IntV.check .p64 true .w8 (.inside ⟨some (-5), some 7, false⟩) = some chk ∧ chk (-5) = .ok () ∧
    chk 7 = .err .tooLarge ∧ chk (-6) = .err .tooSmall := ⟨_, rfl, by decide, by decide, by decide⟩

example : ∃ chk, IntV.check .p64 false .w8 (.outside ⟨some 5, none, true⟩) = some chk ∧ chk 4 = .ok () ∧
    chk 5 = .err .forbidden := ⟨_, rfl, by decide, by decide⟩

example : Ordered (⟨some (-5), some 7, false⟩ : Bounds Int) := by
  intro m hm n hn; cases hm; cases hn; simp

/-! ## C15 -/

/-- C15: with at least one bound, `Inside` accepts exactly what `Outside` of the same bounds rejects. -/
theorem C15_complement (ptr : Ptr) (signed : Bool) (w : Width) (b : Bounds Int) (inside outside : Int → Out RangeError Unit)
    (hi : IntV.check ptr signed w (.inside b) = some inside) (ho : IntV.check ptr signed w (.outside b) = some outside)
    (hb : Bounded b) (x : Int) : (inside x).IsOk ↔ ¬ (outside x).IsOk := by
  have h1 := (C14_inside ptr signed w b inside hi x).1
  have h2 := (C14_outside ptr signed w b outside ho x).1
  have e : ∀ o : Out RangeError Unit, o.IsOk ↔ o = .ok () := fun o => by
    cases o <;> simp
  rw [e, e, h1, h2]
  simp [hb]

example : ∃ i o, IntV.check .p64 true .w32 (.inside ⟨some 3, some 4, false⟩) = some i ∧
    IntV.check .p64 true .w32 (.outside ⟨some 3, some 4, false⟩) = some o ∧ (i 3).IsOk ∧ ¬ (o 3).IsOk ∧ (o 4).IsOk :=
  ⟨_, _, rfl, rfl, by decide, by decide, by decide⟩

/-! ## C16 -/

/-- C16: exactly the decimal numerals of the type that satisfy the range are accepted, with their value. -/
theorem C16_language (ptr : Ptr) (signed : Bool) (w : Width) (r : RangeOption Int) (chk : Int → Out RangeError Unit)
    (h : IntV.check ptr signed w r = some chk) (s : List UInt8) (v : Int) :
    IntV.parseStr chk signed (bits ptr w) s = .ok v ↔
      Numeral signed s v ∧ Fits signed (bits ptr w) v ∧ Satisfies r v := by
  rw [← C14_accepts ptr signed w r chk h, ← and_assoc, ← fromStr_ok]
  unfold IntV.parseStr
  cases hf : fromStr signed (bits ptr w) s with
  | error e => simp
  | ok i =>
    simp only [Except.ok.injEq]
    constructor
    · intro hv
      cases hc : chk i with
      | ok u => rw [hc] at hv; simp only [Out.ok.injEq] at hv; subst hv; exact ⟨rfl, hc⟩
      | err e => rw [hc] at hv; cases hv
      | panic => rw [hc] at hv; cases hv
    · rintro ⟨rfl, hc⟩
      rw [hc]

/-- C16: the decimal rendering of an accepted integer is accepted and read back as the same integer. -/
theorem C16_round_trip (ptr : Ptr) (signed : Bool) (w : Width) (r : RangeOption Int) (chk : Int → Out RangeError Unit)
    (h : IntV.check ptr signed w r = some chk) (v : Int) (hf : Fits signed (bits ptr w) v) (hs : Satisfies r v) :
    IntV.parseStr chk signed (bits ptr w) (showInt v) = .ok v :=
  (C16_language ptr signed w r chk h _ v).mpr ⟨numeral_showInt signed _ v hf, hf, hs⟩

/-- C16: the outcome is `ParseIntError` exactly when the text is not a numeral of the type; a range error is the error of
the check on the value; there is no panic. -/
theorem C16_errors (ptr : Ptr) (signed : Bool) (w : Width) (r : RangeOption Int) (chk : Int → Out RangeError Unit)
    (h : IntV.check ptr signed w r = some chk) (s : List UInt8) :
    ((∃ e, IntV.parseStr chk signed (bits ptr w) s = .err (.parseInt e)) ↔
      ¬ ∃ v, Numeral signed s v ∧ Fits signed (bits ptr w) v) ∧
    (∀ e, IntV.parseStr chk signed (bits ptr w) s = .err (.range e) ↔
      ∃ v, Numeral signed s v ∧ Fits signed (bits ptr w) v ∧ chk v = .err e) ∧
    IntV.parseStr chk signed (bits ptr w) s ≠ .panic := by
  have key : ∀ v, Numeral signed s v ∧ Fits signed (bits ptr w) v ↔ fromStr signed (bits ptr w) s = .ok v :=
    fun v => (fromStr_ok _ _ _ _).symm
  simp only [← and_assoc, key]
  unfold IntV.parseStr
  cases hf : fromStr signed (bits ptr w) s with
  | error e => simp
  | ok i =>
    have hp := check_ne_panic ptr signed w r chk h i
    cases hc : chk i with
    | ok u => simp [hc]
    | err e => simp [hc]
    | panic => exact absurd hc hp

/-- C16: `validate_str` agrees with `parse_str`. -/
theorem C16_validate (chk : Int → Out RangeError Unit) (signed : Bool) (bits : Nat) (s : List UInt8) :
    ((IntV.validateStr chk signed bits s).IsOk ↔ (IntV.parseStr chk signed bits s).IsOk) ∧
    ∀ e, IntV.validateStr chk signed bits s = .err e ↔ IntV.parseStr chk signed bits s = .err e := by
  unfold IntV.validateStr
  cases IntV.parseStr chk signed bits s <;> simp [Out.void]

example : ∃ chk, IntV.check .p64 true .w8 (.inside ⟨some (-128), some 7, false⟩) = some chk ∧
    IntV.parseStr chk true (bits .p64 .w8) (ascii "-0128") = .ok (-128) ∧
    IntV.parseStr chk true (bits .p64 .w8) (ascii "+6") = .ok 6 ∧
    IntV.parseStr chk true (bits .p64 .w8) (ascii "-129") = .err (.parseInt .negOverflow) ∧
    IntV.parseStr chk true (bits .p64 .w8) (ascii "7") = .err (.range .tooLarge) ∧
    showInt (-128) = ascii "-128" :=
  ⟨_, rfl, by decide, by decide, by decide, by decide, by decide +kernel⟩

example : Fits true (bits .p64 .w8) (-128) ∧ Satisfies (.inside ⟨some (-128), some 7, false⟩) (-128 : Int) := by
  refine ⟨by simp [Fits, bits], ?_, ?_⟩ <;> intro m hm <;> cases hm <;> simp

/-! ## C17 -/

/-- C17: whatever the entry point, a number the entry point can carry gets the same treatment: outside the target type
`TooLarge` / `TooSmall`, otherwise the range check, and the value is the number itself. -/
theorem C17_no_truncation (ptr : Ptr) (signed : Bool) (target w : Width) (r : RangeOption Int)
    (chk : Int → Out RangeError Unit) (_h : IntV.check ptr signed target r = some chk) (x : Int)
    (hx : Fits signed (bits ptr w) x) :
    (Fits signed (bits ptr target) x → ∀ e, parseW chk ptr signed target w x = .err e ↔ chk x = .err e) ∧
    (∀ v, parseW chk ptr signed target w x = .ok v ↔ v = x ∧ Fits signed (bits ptr target) x ∧ Satisfies r x) ∧
    (maxOf signed (bits ptr target) < x → parseW chk ptr signed target w x = .err .tooLarge) ∧
    (x < minOf signed (bits ptr target) → parseW chk ptr signed target w x = .err .tooSmall) ∧
    parseW chk ptr signed target w x ≠ .panic := by
  obtain ⟨h1, h2, h3⟩ := entry_spec (ownParse chk) ptr signed target w x hx
  have hsat := C14_accepts ptr signed target r chk _h x
  have hp := check_ne_panic ptr signed target r chk _h x
  refine ⟨?_, ?_, h2, h3, ?_⟩
  · intro hf e
    unfold parseW
    rw [h1 hf]
    unfold ownParse
    cases chk x <;> simp
  · intro v
    by_cases hf : Fits signed (bits ptr target) x
    · unfold parseW
      rw [h1 hf, ← hsat]
      unfold ownParse
      cases hc : chk x with
      | ok u => simp [hf, eq_comm]
      | err e => simp
      | panic => simp
    · have hd : maxOf signed (bits ptr target) < x ∨ x < minOf signed (bits ptr target) := by
        rw [fits_iff] at hf; omega
      unfold parseW
      rcases hd with hd | hd
      · rw [h2 hd]; simp [hf]
      · rw [h3 hd]; simp [hf]
  · by_cases hf : Fits signed (bits ptr target) x
    · unfold parseW
      rw [h1 hf]
      unfold ownParse
      cases hc : chk x with
      | ok u => simp
      | err e => simp
      | panic => exact absurd hc hp
    · have hd : maxOf signed (bits ptr target) < x ∨ x < minOf signed (bits ptr target) := by
        rw [fits_iff] at hf; omega
      unfold parseW
      rcases hd with hd | hd
      · rw [h2 hd]; simp
      · rw [h3 hd]; simp

/-- C17: two entry points that can both carry a number give the same answer. -/
theorem C17_entry_points_agree (ptr : Ptr) (signed : Bool) (target w w' : Width) (chk : Int → Out RangeError Unit) (x : Int)
    (hx : Fits signed (bits ptr w) x) (hx' : Fits signed (bits ptr w') x) :
    parseW chk ptr signed target w x = parseW chk ptr signed target w' x := by
  obtain ⟨h1, h2, h3⟩ := entry_spec (ownParse chk) ptr signed target w x hx
  obtain ⟨h1', h2', h3'⟩ := entry_spec (ownParse chk) ptr signed target w' x hx'
  unfold parseW
  by_cases hf : Fits signed (bits ptr target) x
  · rw [h1 hf, h1' hf]
  · have hd : maxOf signed (bits ptr target) < x ∨ x < minOf signed (bits ptr target) := by
      rw [fits_iff] at hf; omega
    rcases hd with hd | hd
    · rw [h2 hd, h2' hd]
    · rw [h3 hd, h3' hd]

/-- C17: `validate_iN` agrees with `parse_iN`. -/
theorem C17_validate_agrees (ptr : Ptr) (signed : Bool) (target w : Width) (chk : Int → Out RangeError Unit) (x : Int)
    (hx : Fits signed (bits ptr w) x) :
    validateW chk ptr signed target w x = (parseW chk ptr signed target w x).void := by
  obtain ⟨h1, h2, h3⟩ := entry_spec (ownParse chk) ptr signed target w x hx
  obtain ⟨h1', h2', h3'⟩ := entry_spec (ownValidate chk) ptr signed target w x hx
  unfold parseW validateW
  by_cases hf : Fits signed (bits ptr target) x
  · rw [h1 hf, h1' hf]
    unfold ownParse ownValidate
    cases chk x <;> simp [Out.void]
  · have hd : maxOf signed (bits ptr target) < x ∨ x < minOf signed (bits ptr target) := by
      rw [fits_iff] at hf; omega
    rcases hd with hd | hd
    · rw [h2 hd, h2' hd]; simp [Out.void]
    · rw [h3 hd, h3' hd]; simp [Out.void]

/-- C17: every number an entry point accepts is also accepted, as a text, with the same value. -/
theorem C17_text_agrees (ptr : Ptr) (signed : Bool) (target w : Width) (r : RangeOption Int)
    (chk : Int → Out RangeError Unit) (h : IntV.check ptr signed target r = some chk) (x v : Int)
    (hx : Fits signed (bits ptr w) x) (hv : parseW chk ptr signed target w x = .ok v) :
    IntV.parseStr chk signed (bits ptr target) (showInt x) = .ok v := by
  obtain ⟨rfl, hf, hs⟩ := ((C17_no_truncation ptr signed target w r chk h x hx).2.1 v).mp hv
  exact C16_round_trip ptr signed target r chk h v hf hs

example : ∃ chk, IntV.check .p64 true .w8 (.inside ⟨some (-5), some 7, true⟩) = some chk ∧
    parseW chk .p64 true .w8 .w128 (256 + 3) = .err .tooLarge ∧ parseW chk .p64 true .w8 .size 3 = .ok 3 ∧
    parseW chk .p64 true .w8 .w16 (-129) = .err .tooSmall ∧ parseW chk .p64 true .w8 .w16 (-6) = .err .tooSmall :=
  ⟨_, rfl, by decide +kernel, by decide +kernel, by decide +kernel, by decide +kernel⟩

example : Fits true (bits .p64 .w128) (256 + 3) ∧ Fits true (bits .p64 .w16) (256 + 3) := by
  simp [Fits, bits]

/-! ## C18 -/

/-- C18: the check of a `signed_integer` validator compiles for every range. -/
theorem C18_signed_closed_partial (ptr : Ptr) (w : Width) (r : RangeOption Int) : (IntV.check ptr true w r).isSome := by
  simp only [IntV.check, if_true, compile]
  have : closed [Name.i] (signedCode (num true (bits ptr w)) r) = true := by
    cases r
    · exact closed_inside _ _ _
    · exact closed_outside_same _ _
    · rfl
  simp [this]

/-- C18: the check of a `number` validator compiles for every range. -/
theorem C18_number_closed_partial {α : Type} [LinearOrder α] (r : RangeOption (Number.Fl α)) :
    (Number.check r).isSome := by
  simp only [Number.check, compile]
  have : closed [Name.f] (numberCode Number.fnum r) = true := by
    cases r
    · exact closed_inside _ _ _
    · exact closed_outside_same _ _
    · rfl
  simp [this]

/-- C18: the check of a `bit` or `byte` validator compiles for every range. -/
theorem C18_size_closed_partial (b : Bounds Nat) : (Size.check b).isSome := by
  simp [Size.check, compile, sizeCode, closed_inside]

/-- C18: an `unsigned_integer` validator compiles exactly when it is not a two-sided `Outside` range with more than one
element. -/
theorem C18_unsigned_closed_iff_partial (ptr : Ptr) (w : Width) (r : RangeOption Int) :
    IntV.check ptr false w r = none ↔
      ∃ b, r = .outside b ∧ b.min.isSome ∧ b.max.isSome ∧ rangeEqual (num false (bits ptr w)) b = false := by
  simp only [IntV.check, Bool.false_eq_true, if_false, compile]
  cases r with
  | inside b =>
    have : closed [Name.u] (unsignedCode (num false (bits ptr w)) (.inside b)) = true := closed_inside _ _ _
    simp [this]
  | outside b =>
    have := closed_outside_diff (num := num false (bits ptr w)) .u .i (by simp) b
    change closed [Name.u] (unsignedCode (num false (bits ptr w)) (.outside b)) = false ↔ _ at this
    by_cases hc : closed [Name.u] (unsignedCode (num false (bits ptr w)) (.outside b)) = true
    · rw [if_pos hc]
      constructor
      · intro h; cases h
      · rintro ⟨b', hb, h1, h2, h3⟩
        cases hb
        have := this.mpr ⟨h3, h1, h2⟩
        rw [hc] at this; cases this
    · have := this.mp (by simpa using hc)
      rw [if_neg hc]
      simp [this]
  | unlimited => simp [unsignedCode, closed]

/-- C18: a `length` validator compiles exactly when it does not have equal bounds. -/
theorem C18_length_closed_iff_partial (min max : Option Nat) :
    compileLength (lengthCode min max) = none ↔ ∃ n, min = some n ∧ max = some n := by
  cases min with
  | none => cases max <;> simp [compileLength, lengthCode, closed, Cond.name]
  | some a =>
    cases max with
    | none => simp [compileLength, lengthCode, closed, Cond.name]
    | some b =>
      by_cases h : a = b
      · subst h; simp [compileLength, lengthCode, closed]
      · simp only [compileLength, lengthCode, h, if_false, closed, Cond.name]
        simp
        exact fun h' => h h'.symm

/-- C18 is false of the code: bounds in the right order, which the macro accepts, for which the generated check has an unbound name, one for
`unsigned_integer`, one for `length`. -/
theorem C18_violated :
    (∃ lo hi : Int, lo < hi ∧ IntV.check .p64 false .w8 (.outside ⟨some lo, some hi, true⟩) = none) ∧
    (∃ n : Nat, Length.accepts (some n) (some n) = true ∧ compileLength (lengthCode (some n) (some n)) = none) :=
  ⟨⟨3, 5, by decide, by rfl⟩, ⟨5, by decide, by rfl⟩⟩

/-! ## C19 -/

theorem size_outcome (b : Bounds Nat) (chk : Nat → Out RangeError Unit) (h : Size.check b = some chk) (x : Nat) :
    (BelowMin b x → chk x = .err .tooSmall) ∧ (¬ BelowMin b x → AboveMax b x → chk x = .err .tooLarge) ∧
    (Contains b x → chk x = .ok ()) := by
  obtain ⟨_, hrun⟩ := compile_some h
  have := run_inside carries_size .v false b x
  rw [map_id] at this
  simpa only [hrun, sizeCode, id] using this

/-- C19: a size is accepted, unchanged, exactly when it is within the bounds; `TooSmall` exactly below the minimum;
`TooLarge` exactly above the maximum. -/
theorem C19_size_range (b : Bounds Nat) (chk : Nat → Out RangeError Unit) (h : Size.check b = some chk) (ho : Ordered b)
    (x : Nat) :
    (∀ y, Size.parseV chk x = .ok y ↔ y = x ∧ Contains b x) ∧
    (Size.parseV chk x = .err (.range .tooSmall) ↔ BelowMin b x) ∧
    (Size.parseV chk x = .err (.range .tooLarge) ↔ AboveMax b x) ∧
    Size.parseV chk x ≠ .err (.range .forbidden) ∧ Size.parseV chk x ≠ .panic := by
  obtain ⟨h1, h2, h3⟩ := size_outcome b chk h x
  unfold Size.parseV
  rcases contains_or b x with hc | hb | ⟨hb, ha⟩
  · have hnb : ¬ BelowMin b x := fun hb => not_contains_of_below b x hb hc
    have hna : ¬ AboveMax b x := fun ha => not_contains_of_above b x ha hc
    simp [h3 hc, hc, hnb, hna, eq_comm]
  · have hn := not_contains_of_below b x hb
    have hna : ¬ AboveMax b x := by
      rintro ⟨n, hn, ha⟩
      obtain ⟨m, hm, hb⟩ := hb
      have := (ho m hm n hn).1
      rcases ha with ha | ha <;> omega
    simp [h1 hb, hb, hn, hna]
  · have := not_contains_of_above b x ha
    simp [h2 hb ha, hb, ha, this]

/-- C19: the integer entry point: a number that is no size is `TooLarge`; any other number is treated as that size. -/
theorem C19_integer_entry (maxSize : Nat) (b : Bounds Nat) (chk : Nat → Out RangeError Unit) (_h : Size.check b = some chk)
    (u : Nat) :
    (maxSize < u → Size.parseU128 maxSize chk u = .err (.range .tooLarge)) ∧
    (u ≤ maxSize → Size.parseU128 maxSize chk u = Size.parseU64 chk u) ∧
    (∀ v, Size.parseU128 maxSize chk u = .ok v ↔ v = u ∧ u ≤ maxSize ∧ Contains b u) := by
  have hok : ∀ v, Size.parseV chk u = .ok v ↔ v = u ∧ Contains b u := by
    obtain ⟨h1, h2, h3⟩ := size_outcome b chk _h u
    intro v
    unfold Size.parseV
    rcases contains_or b u with hc | hb | ⟨hb, ha⟩
    · simp [h3 hc, hc, eq_comm]
    · simp [h1 hb, not_contains_of_below b u hb]
    · simp [h2 hb ha, not_contains_of_above b u ha]
  refine ⟨fun hlt => ?_, fun hle => ?_, fun v => ?_⟩
  · simp [Size.parseU128, Nat.not_le.mpr hlt]
  · simp [Size.parseU128, hle, Size.parseU64]
  · unfold Size.parseU128
    split
    · rename_i hle; rw [hok]; simp [hle]
    · rename_i hle; simp [hle]

/-- C19: a text is accepted exactly when the library reads it as a size within the bounds, and the value is that size. -/
theorem C19_text (lib : List UInt8 → Option Nat) (b : Bounds Nat) (chk : Nat → Out RangeError Unit)
    (h : Size.check b = some chk) (s : List UInt8) (v : Nat) :
    Size.parseStr lib chk s = .ok v ↔ lib s = some v ∧ Contains b v := by
  have hok : ∀ x v, Size.parseV chk x = .ok v ↔ v = x ∧ Contains b x := by
    intro x v
    obtain ⟨h1, h2, h3⟩ := size_outcome b chk h x
    unfold Size.parseV
    rcases contains_or b x with hc | hb | ⟨hb, ha⟩
    · simp [h3 hc, hc, eq_comm]
    · simp [h1 hb, not_contains_of_below b x hb]
    · simp [h2 hb ha, not_contains_of_above b x ha]
  unfold Size.parseStr
  cases hl : lib s with
  | none => simp
  | some x =>
    simp only [hok, Option.some.injEq]
    constructor
    · rintro ⟨rfl, hc⟩; exact ⟨rfl, hc⟩
    · rintro ⟨rfl, hc⟩; exact ⟨rfl, hc⟩

example : ∃ chk, Size.check ⟨some 10, some 20, false⟩ = some chk ∧ Size.parseV chk 10 = .ok 10 ∧
    Size.parseV chk 20 = .err (.range .tooLarge) ∧ Size.parseU128 100 chk 101 = .err (.range .tooLarge) :=
  ⟨_, rfl, by decide, by decide, by decide⟩

example : Ordered (⟨some 10, some 20, false⟩ : Bounds Nat) := by
  intro m hm n hn; cases hm; cases hn; simp

/-! ## C20 -/

section
variable {α : Type} [LinearOrder α]

/-- The bounds written in the attribute are numbers, never NaN. -/
def floats : RangeOption α → RangeOption (Number.Fl α)
  | .inside b => .inside (b.map some)
  | .outside b => .outside (b.map some)
  | .unlimited => .unlimited

theorem number_outcome (r : RangeOption α) (chk : Number.Fl α → Out RangeError Unit)
    (h : Number.check (floats r) = some chk) (x : α) :
    (∀ b, r = .inside b → (BelowMin b x → chk (some x) = .err .tooSmall) ∧
      (¬ BelowMin b x → AboveMax b x → chk (some x) = .err .tooLarge) ∧ (Contains b x → chk (some x) = .ok ())) ∧
    (∀ b, r = .outside b → (Contains b x → Bounded b → chk (some x) = .err .forbidden) ∧
      (¬ (Contains b x ∧ Bounded b) → chk (some x) = .ok ())) ∧
    (r = .unlimited → chk (some x) = .ok ()) := by
  obtain ⟨hc, hrun⟩ := compile_some h
  refine ⟨?_, ?_, ?_⟩
  · rintro b rfl
    have := run_inside (carries_float (α := α)) .f true b x
    simpa only [hrun, floats, numberCode] using this
  · rintro b rfl
    have := run_outside (carries_float (α := α)) .f .f b x hc
    simpa only [hrun, floats, numberCode] using this
  · rintro rfl
    simp [hrun, floats, numberCode, run]

/-- NaN passes every range check: no comparison with it holds. -/
theorem number_nan (r : RangeOption α) (chk : Number.Fl α → Out RangeError Unit)
    (h : Number.check (floats r) = some chk) : chk none = .ok () := by
  obtain ⟨_, hrun⟩ := compile_some h
  rw [hrun]
  have hl : ∀ o c, evalOp (Number.fcmp (none : Number.Fl α) c) o = false := by
    intro o c; cases o <;> simp [evalOp, Number.fcmp]
  have hr : ∀ o c, evalOp (Number.fcmp c (none : Number.Fl α)) o = false := by
    intro o c; cases o <;> cases c <;> simp [evalOp, Number.fcmp]
  cases r with
  | inside b =>
    simp only [floats, numberCode, insideCode]
    split
    · split
      · simp [run, single_self, Number.fcmp]
      · rfl
    · split <;> split <;> simp [run, single_self, Cond.name, evalCond, hl]
  | outside b =>
    simp only [floats, numberCode, outsideCode]
    split
    · split
      · simp [run, single_self, Cond.name, evalCond, hl]
      · rfl
    · split <;> split <;> simp [run, single_self, Cond.name, evalCond, hl, hr]
  | unlimited => rfl

/-- C20: NaN is accepted exactly when the NaN option does not disallow it, whatever the range; its only error is
`NaNDisallow`. -/
theorem C20_nan (r : RangeOption α) (nan : TriAllow) (chk : Number.Fl α → Out RangeError Unit)
    (h : Number.check (floats r) = some chk) :
    (Number.parseF chk nan none = .ok none ↔ nan ≠ .disallow) ∧
    (Number.parseF chk nan none = .err .nanDisallow ↔ nan = .disallow) := by
  unfold Number.parseF
  rw [number_nan r chk h]
  cases nan <;> simp [Number.checkNan]

/-- C20: a number that is not NaN is accepted, unchanged, exactly when it satisfies the range and NaN is not required. -/
theorem C20_number (r : RangeOption α) (nan : TriAllow) (chk : Number.Fl α → Out RangeError Unit)
    (h : Number.check (floats r) = some chk) (x : α) (y : Number.Fl α) :
    Number.parseF chk nan (some x) = .ok y ↔ y = some x ∧ Satisfies r x ∧ nan ≠ .must := by
  obtain ⟨h1, h2, h3⟩ := number_outcome r chk h x
  have hs : (chk (some x) = .ok () ∧ Satisfies r x) ∨ ((∃ e, chk (some x) = .err e) ∧ ¬ Satisfies r x) := by
    cases r with
    | inside b =>
      obtain ⟨a1, a2, a3⟩ := h1 b rfl
      rcases contains_or b x with hc | hb | ⟨hb, ha⟩
      · exact .inl ⟨a3 hc, hc⟩
      · exact .inr ⟨⟨_, a1 hb⟩, not_contains_of_below b x hb⟩
      · exact .inr ⟨⟨_, a2 hb ha⟩, not_contains_of_above b x ha⟩
    | outside b =>
      obtain ⟨a1, a2⟩ := h2 b rfl
      by_cases hc : Contains b x ∧ Bounded b
      · exact .inr ⟨⟨_, a1 hc.1 hc.2⟩, fun hs => hs ⟨hc.2, hc.1⟩⟩
      · exact .inl ⟨a2 hc, fun hs => hc ⟨hs.2, hs.1⟩⟩
    | unlimited => exact .inl ⟨h3 rfl, trivial⟩
  unfold Number.parseF
  rcases hs with ⟨hc, hs⟩ | ⟨⟨e, hc⟩, hs⟩
  · rw [hc]; cases nan <;> simp [Number.checkNan, hs, eq_comm]
  · rw [hc]; simp [hs]

/-- C20: the errors of a number that is not NaN. Range errors come first; `NaNMust` only for a number that satisfies the
range; `NaNDisallow` never. -/
theorem C20_number_errors (r : RangeOption α) (nan : TriAllow) (chk : Number.Fl α → Out RangeError Unit)
    (h : Number.check (floats r) = some chk) (x : α) :
    (Number.parseF chk nan (some x) = .err (.range .tooSmall) ↔ ∃ b, r = .inside b ∧ BelowMin b x) ∧
    (Number.parseF chk nan (some x) = .err (.range .tooLarge) ↔ ∃ b, r = .inside b ∧ AboveMax b x ∧ ¬ BelowMin b x) ∧
    (Number.parseF chk nan (some x) = .err (.range .forbidden) ↔ ∃ b, r = .outside b ∧ Bounded b ∧ Contains b x) ∧
    (Number.parseF chk nan (some x) = .err .nanMust ↔ nan = .must ∧ Satisfies r x) ∧
    Number.parseF chk nan (some x) ≠ .err .nanDisallow ∧ Number.parseF chk nan (some x) ≠ .panic := by
  obtain ⟨h1, h2, h3⟩ := number_outcome r chk h x
  unfold Number.parseF
  cases r with
  | inside b =>
    obtain ⟨a1, a2, a3⟩ := h1 b rfl
    rcases contains_or b x with hc | hb | ⟨hb, ha⟩
    · have hnb : ¬ BelowMin b x := fun hb => not_contains_of_below b x hb hc
      have hna : ¬ AboveMax b x := fun ha => not_contains_of_above b x ha hc
      rw [a3 hc]
      cases nan <;> simp [Number.checkNan, hnb, hna, Satisfies, hc]
    · rw [a1 hb]
      simp [hb, Satisfies, not_contains_of_below b x hb]
    · rw [a2 hb ha]
      simp [hb, ha, Satisfies, not_contains_of_above b x ha]
  | outside b =>
    obtain ⟨a1, a2⟩ := h2 b rfl
    by_cases hc : Contains b x ∧ Bounded b
    · rw [a1 hc.1 hc.2]; simp [Satisfies, hc]
    · have hc' : ¬ (Bounded b ∧ Contains b x) := fun hs => hc ⟨hs.2, hs.1⟩
      rw [a2 hc]
      cases nan <;> simp [Number.checkNan, Satisfies, hc']
  | unlimited =>
    rw [h3 rfl]
    cases nan <;> simp [Number.checkNan, Satisfies]

/-- C20: the NaN policy, for any float: with `nan(Disallow)` an accepted value is not NaN, with `nan(Must)` it is. -/
theorem C20_nan_policy (r : RangeOption α) (nan : TriAllow) (chk : Number.Fl α → Out RangeError Unit)
    (h : Number.check (floats r) = some chk) (f g : Number.Fl α) (hok : Number.parseF chk nan f = .ok g) :
    g = f ∧ (nan = .disallow → g ≠ none) ∧ (nan = .must → g = none) := by
  cases f with
  | none =>
    have h1 := (C20_nan r nan chk h).1
    unfold Number.parseF at hok h1
    rw [number_nan r chk h] at hok h1
    cases nan <;> simp_all [Number.checkNan]
  | some x =>
    have := (C20_number r nan chk h x g).mp hok
    refine ⟨this.1, fun _ => by simp [this.1], fun hm => absurd hm this.2.2⟩

omit [LinearOrder α] in
/-- C20: text entry point, for any float parser: exactly the texts of accepted floats. -/
theorem C20_text (fromStr : List UInt8 → Option (Number.Fl α)) (nan : TriAllow) (chk : Number.Fl α → Out RangeError Unit)
    (s : List UInt8) (g : Number.Fl α) :
    Number.parseStr fromStr chk nan s = .ok g ↔ ∃ f, fromStr s = some f ∧ Number.parseF chk nan f = .ok g := by
  unfold Number.parseStr
  cases fromStr s <;> simp

end

example : ∃ chk, Number.check (floats (.inside ⟨some (2 : Nat), some 5, true⟩)) = some chk ∧
    Number.parseF chk .disallow (some 5) = .ok (some 5) ∧ Number.parseF chk .disallow none = .err .nanDisallow ∧
    Number.parseF chk .allow none = .ok none ∧ Number.parseF chk .allow (some 6) = .err (.range .tooLarge) :=
  ⟨_, rfl, by decide, by decide, by decide, by decide⟩

/-! ## C21 -/

/-- C21: a collection is accepted, unchanged, exactly when its length is within the bounds; the errors are exact;
`validate_collection` agrees. -/
theorem C21_length {κ : Type} (len : κ → Nat) (min max : Option Nat) (chk : Nat → Out RangeError Unit)
    (h : compileLength (lengthCode min max) = some chk) (ha : Length.accepts min max = true) (v : κ) :
    (∀ w, Length.parseCollection chk len v = .ok w ↔
      w = v ∧ (∀ m, min = some m → m ≤ len v) ∧ (∀ m, max = some m → len v ≤ m)) ∧
    (Length.parseCollection chk len v = .err .tooSmall ↔ ∃ m, min = some m ∧ len v < m) ∧
    (Length.parseCollection chk len v = .err .tooLarge ↔ ∃ m, max = some m ∧ m < len v) ∧
    Length.parseCollection chk len v ≠ .panic ∧
    Length.validateCollection chk len v = (Length.parseCollection chk len v).void := by
  generalize hn : len v = n
  have lt1 : ∀ a b : Nat, evalOp (some (compare a b)) .lt = decide (a < b) := fun a b => linCmp_lt a b
  have gt1 : ∀ a b : Nat, evalOp (some (compare a b)) .gt = decide (b < a) := fun a b => linCmp_gt a b
  have hv : Length.validateCollection chk len v = (Length.parseCollection chk len v).void := by
    unfold Length.validateCollection Length.parseCollection
    cases chk (len v) <;> rfl
  refine ⟨?_, ?_, ?_, ?_, hv⟩ <;> clear hv <;> unfold Length.parseCollection <;> rw [hn] <;> clear hn <;>
    (unfold compileLength at h; split at h; swap; cases h; simp only [Option.some.injEq] at h; subst h) <;>
    rename_i hcl <;>
    cases min with
    | none =>
      cases max with
      | none => simp [lengthCode, run, eq_comm]
      | some b =>
        by_cases hb : b < n <;> simp [lengthCode, run, Cond.name, evalCond, gt1, hb] <;>
        (try omega) <;> (try (intro w; constructor <;> intro hw <;> simp_all <;> omega))
    | some a =>
      cases max with
      | none =>
        by_cases hb : n < a <;> simp [lengthCode, run, Cond.name, evalCond, lt1, hb] <;>
        (try omega) <;> (try (intro w; constructor <;> intro hw <;> simp_all <;> omega))
      | some b =>
        have hab : a ≠ b := by
          rintro rfl
          simp [lengthCode, closed] at hcl
        have hle : a ≤ b := by simpa [Length.accepts] using ha
        by_cases h1 : n < a <;> by_cases h2 : b < n <;>
          simp [lengthCode, hab, run, Cond.name, evalCond, lt1, gt1, h1, h2] <;>
          (try omega) <;> (try (intro w; constructor <;> intro hw <;> simp_all <;> omega))

example : ∃ chk, compileLength (lengthCode (some 2) (some 4)) = some chk ∧
    Length.parseCollection chk List.length [1, 2] = .ok [1, 2] ∧
    Length.parseCollection chk List.length [1] = .err .tooSmall ∧ Length.accepts (some 2) (some 4) = true :=
  ⟨_, rfl, by decide, by decide, by decide⟩

end Verif.Props.Range
