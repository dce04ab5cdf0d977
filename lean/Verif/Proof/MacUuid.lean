import Verif.Model.Mac
import Verif.Model.Uuid
import Verif.Proof.Hex

/-! Helper lemmas: the scanners of `mac_address` and `uuid` against the groupings of the specification. -/

namespace Verif.Hex

open Verif.Spec.Hex

theorem idx_eq {ε : Type} (bytes : List UInt8) (i : Nat) (h : i < bytes.length) : (idx bytes i : Out ε UInt8) = .ok bytes[i] := by
  unfold idx; rw [List.getElem?_eq_getElem h]

theorem slice_eq {ε : Type} (bytes : List UInt8) (a b : Nat) (h : a ≤ b ∧ b ≤ bytes.length) :
    (slice bytes a b : Out ε (List UInt8)) = .ok ((bytes.drop a).take (b - a)) := by
  unfold slice; rw [if_pos h]

theorem sliceFrom_eq {ε : Type} (bytes : List UInt8) (a : Nat) (h : a ≤ bytes.length) :
    (sliceFrom bytes a : Out ε (List UInt8)) = .ok (bytes.drop a) := by
  unfold sliceFrom; rw [if_pos h]

/-- The first group is read without a counter. -/
theorem first_group (sep : UInt8) (bytes : List UInt8) (n : Nat) (F : List UInt8 × Nat → Out HexError (List UInt8)) :
    ((slice bytes 0 n).bind fun g => (idx bytes n).bind fun b => F (g, if b ≠ sep then 1 else 0)) =
      (group sep bytes 0 n 0).bind F := by
  unfold group
  simp [bind_assoc]

theorem last_group (sep : UInt8) (bytes : List UInt8) (n k : Nat) (hk : k ≤ bytes.length) (pre : List UInt8) :
    ((sliceFrom bytes k).bind fun sixth => if sixth.length ≠ n then .err .invalid else .ok (pre ++ sixth)) =
      (scan sep [n] (bytes.drop k)).map (fun ds => pre ++ ds) := by
  rw [sliceFrom_eq _ _ hk]
  simp only [Out.bind_ok, scan]
  split <;> rfl

theorem map_id_nil (x : Out HexError (List UInt8)) : x.map (fun ds => [] ++ ds) = x := by
  cases x <;> simp

end Verif.Hex

namespace Verif.Mac

open Verif.Hex Verif.Spec.Hex

theorem digits_allow (sep : UInt8) (bytes : List UInt8) :
    digits (.allow sep) bytes =
      if 12 ≤ bytes.length ∧ bytes.length ≤ 17 then scan sep macSizes bytes else .err .invalid := by
  unfold digits
  simp only
  by_cases hl : 12 ≤ bytes.length ∧ bytes.length ≤ 17
  · rw [if_neg (by simpa using hl), if_pos hl]
    simp only [Out.bind_eq, Out.pure_eq]
    rw [first_group sep bytes 2 (fun p => (group sep bytes 3 5 p.2).bind fun q => (group sep bytes 6 8 q.2).bind fun r =>
      (group sep bytes 9 11 r.2).bind fun s => (group sep bytes 12 14 s.2).bind fun t => (sliceFrom bytes (15 - t.2)).bind fun u =>
      if u.length ≠ 2 then .err .invalid else .ok (p.1 ++ q.1 ++ r.1 ++ s.1 ++ t.1 ++ u))]
    rw [group_bind sep bytes 0 2 0 2 2 [2, 2, 2, 2] (by omega) (by omega) (by omega) []]
    · simp [macSizes, map_id_nil]
      cases scan sep [2, 2, 2, 2, 2, 2] bytes <;> rfl
    intro g0 c0 _ hc0 _
    simp only
    rw [group_bind sep bytes 3 5 c0 2 2 [2, 2, 2] (by omega) (by omega) (by omega) g0]
    · simp
    intro g1 c1 _ hc1 _
    simp only
    rw [group_bind sep bytes 6 8 c1 2 2 [2, 2] (by omega) (by omega) (by omega) (g0 ++ g1)]
    intro g2 c2 _ hc2 _
    simp only
    rw [group_bind sep bytes 9 11 c2 2 2 [2] (by omega) (by omega) (by omega) (g0 ++ g1 ++ g2)]
    intro g3 c3 _ hc3 _
    simp only
    rw [group_bind sep bytes 12 14 c3 2 2 [] (by omega) (by omega) (by omega) (g0 ++ g1 ++ g2 ++ g3)]
    intro g4 c4 _ hc4 hk
    simp only
    rw [last_group sep bytes 2 (15 - c4) hk]
  · rw [if_pos (by simpa using hl), if_neg hl]

theorem digits_must (sep : UInt8) (bytes ds : List UInt8) (hl : bytes.length = 17) :
    digits (.must sep) bytes ≠ .panic ∧ (∀ e, digits (.must sep) bytes = .err e → e = .invalid) ∧
    (digits (.must sep) bytes = .ok ds ↔ Grouped (.must sep) macSizes ds bytes) := by
  have hg : Grouped (.must sep) macSizes ds bytes ↔
      (bytes[2]? = some sep ∧ bytes[5]? = some sep ∧ bytes[8]? = some sep ∧ bytes[11]? = some sep ∧ bytes[14]? = some sep ∧
        ds = bytes.take 2 ++ ((bytes.drop 3).take 2 ++ ((bytes.drop 6).take 2 ++ ((bytes.drop 9).take 2 ++
          ((bytes.drop 12).take 2 ++ bytes.drop 15))))) := by
    unfold macSizes
    rw [grouped_must_cons _ _ _ _ _ _ (by omega)]
    rw [exists_congr fun ds' => and_congr_right fun _ => grouped_must_cons _ _ _ _ _ _ (by simp; omega)]
    simp only [grouped_must_cons sep _ _ _ _ _ (show 2 < (bytes.drop 6).length by simp; omega),
      grouped_must_cons sep _ _ _ _ _ (show 2 < (bytes.drop 9).length by simp; omega),
      grouped_must_cons sep _ _ _ _ _ (show 2 < (bytes.drop 12).length by simp; omega), List.drop_drop, List.getElem?_drop]
    constructor
    · rintro ⟨h2, _, rfl, h5, _, rfl, h8, _, rfl, h11, _, rfl, h14, _, rfl, h⟩
      exact ⟨h2, h5, h8, h11, h14, by rw [h.2]⟩
    · rintro ⟨h2, h5, h8, h11, h14, rfl⟩
      exact ⟨h2, _, rfl, h5, _, rfl, h8, _, rfl, h11, _, rfl, h14, _, rfl, by simp [hl], rfl⟩
  rw [hg]
  unfold digits
  simp only [hl, ne_eq, not_true_eq_false, if_false]
  rw [idx_eq _ _ (by omega), idx_eq _ _ (by omega), idx_eq _ _ (by omega), idx_eq _ _ (by omega), idx_eq _ _ (by omega),
    slice_eq _ _ _ (by omega), slice_eq _ _ _ (by omega), slice_eq _ _ _ (by omega), slice_eq _ _ _ (by omega),
    slice_eq _ _ _ (by omega), sliceFrom_eq _ _ (by omega)]
  simp only [Out.bind_eq, Out.bind_ok, Out.pure_eq, List.getElem?_eq_getElem (show 2 < bytes.length by omega),
    List.getElem?_eq_getElem (show 5 < bytes.length by omega), List.getElem?_eq_getElem (show 8 < bytes.length by omega),
    List.getElem?_eq_getElem (show 11 < bytes.length by omega), List.getElem?_eq_getElem (show 14 < bytes.length by omega)]
  split
  · rename_i h
    refine ⟨by simp, by simp, ?_⟩
    simp
    intro h2 h5 h8 h11 h14
    simp [h2, h5, h8, h11, h14] at h
  · rename_i h
    simp only [not_or, Decidable.not_not] at h
    refine ⟨by simp, by simp, ?_⟩
    simp [h, eq_comm]

theorem digits_sound (sep : SeparatorOption) (v ds : List UInt8) (h : digits sep v = .ok ds) : Grouped sep macSizes ds v := by
  cases sep with
  | allow s =>
    rw [digits_allow] at h
    split at h
    · exact scan_sound _ _ _ _ h
    · cases h
  | must s =>
    by_cases hl : v.length = 17
    · exact (digits_must s v ds hl).2.2.mp h
    · unfold digits at h; simp [hl] at h
  | disallow =>
    unfold digits at h
    by_cases hl : v.length = 12
    · simp [hl] at h; subst h
      rw [grouped_disallow_iff]; exact ⟨rfl, by rw [hl]; rfl⟩
    · simp [hl] at h

theorem digits_complete (sep : SeparatorOption) (v ds : List UInt8) (h : Grouped sep macSizes ds v)
    (hs : ∀ s, sep = .allow s → s ∉ ds) : digits sep v = .ok ds := by
  cases sep with
  | allow s =>
    have hl := grouped_allow_length _ _ _ _ _ h
    have e1 : macSizes.sum = 12 := rfl
    simp only [macSizes, List.sum_cons, List.sum_nil, List.length_cons, List.length_nil] at hl
    rw [digits_allow, if_pos (by omega)]
    exact scan_complete s macSizes (by simp [macSizes]) (by decide) v ds (hs s rfl) h
  | must s =>
    have hl := grouped_must_length _ _ _ _ _ h
    simp only [macSizes, List.sum_cons, List.sum_nil, List.length_cons, List.length_nil] at hl
    exact (digits_must s v ds hl).2.2.mpr h
  | disallow =>
    rw [grouped_disallow_iff] at h
    obtain ⟨rfl, hl⟩ := h
    have hl' : v.length = 12 := hl
    unfold digits
    simp [hl']

theorem decode_digits (case : CaseOption) (sep : SeparatorOption) (v ds : List UInt8) (h : Grouped sep macSizes ds v) :
    decode case 64 0 ds = if ∀ b ∈ ds, b ∈ symbols case then .ok (value ds) else .err .invalid := by
  have hl := grouped_ds_length _ _ _ _ h
  have hl' : ds.length = 12 := hl
  rw [decode_eq]
  · simp
  · rw [hl']; decide

/-- What an accepted text is. -/
theorem parse_sound (sep : SeparatorOption) (case : CaseOption) (v : List UInt8) (n : Nat) (h : parseStr sep case v = .ok n) :
    Denotes sep case macSizes v n := by
  unfold parseStr at h
  cases hd : digits sep v with
  | err e => simp [hd] at h
  | panic => simp [hd] at h
  | ok ds =>
    have hg := digits_sound sep v ds hd
    simp only [hd, Out.bind_eq, Out.bind_ok] at h
    rw [decode_digits case sep v ds hg] at h
    split at h
    · rename_i hall
      simp at h
      exact ⟨ds, hg, hall, h⟩
    · cases h

theorem parse_complete (sep : SeparatorOption) (case : CaseOption) (v : List UInt8) (n : Nat)
    (hs : ∀ s, sep = .allow s → s ∉ symbols case) (h : Denotes sep case macSizes v n) : parseStr sep case v = .ok n := by
  obtain ⟨ds, hg, hall, rfl⟩ := h
  have hd := digits_complete sep v ds hg (fun s hs' hm => hs s hs' (hall s hm))
  unfold parseStr
  simp only [hd, Out.bind_eq, Out.bind_ok]
  rw [decode_digits case sep v ds hg, if_pos hall]

theorem validate_eq (sep : SeparatorOption) (case : CaseOption) (v : List UInt8) :
    validateStr sep case v = (parseStr sep case v).void := by
  unfold parseStr validateStr
  cases hd : digits sep v with
  | err e => simp [Out.void]
  | panic => simp [Out.void]
  | ok ds =>
    simp only [Out.bind_eq, Out.bind_ok]
    rw [decode_digits case sep v ds (digits_sound sep v ds hd), checkDigits_eq]
    split <;> simp [Out.void]

/-- The two separator errors. -/
theorem parse_separatorMust (sep : SeparatorOption) (case : CaseOption) (v : List UInt8) :
    parseStr sep case v = .err .separatorMust ↔ (∃ s, sep = .must s) ∧ v.length ≠ 17 := by
  unfold parseStr
  cases sep with
  | allow s =>
    simp
    rw [digits_allow]
    split
    · cases hx : scan s macSizes v with
      | ok ds =>
        have hg := scan_sound _ _ _ _ hx
        simp only [Out.bind_ok]
        rw [decode_digits case _ v ds hg]; split <;> simp
      | err e => simp; rw [scan_err _ _ _ _ hx]; simp
      | panic => simp
    · simp
  | disallow =>
    simp
    unfold digits
    by_cases hl : v.length = 12
    · simp [hl]
      rw [decode_digits case .disallow v v (by rw [grouped_disallow_iff]; exact ⟨rfl, by rw [hl]; rfl⟩)]
      split <;> simp
    · simp [hl]
  | must s =>
    simp
    by_cases hl : v.length = 17
    · simp only [hl, not_true_eq_false, iff_false]
      cases hx : digits (.must s) v with
      | ok ds =>
        have hg := digits_sound _ _ _ hx
        simp only [Out.bind_ok]
        rw [decode_digits case _ v ds hg]; split <;> simp
      | err e => simp; rw [(digits_must s v [] hl).2.1 e hx]; simp
      | panic => simp
    · simp only [hl, not_false_eq_true, iff_true]
      unfold digits; simp [hl]

theorem parse_separatorDisallow (sep : SeparatorOption) (case : CaseOption) (v : List UInt8) :
    parseStr sep case v = .err .separatorDisallow ↔ sep = .disallow ∧ v.length ≠ 12 := by
  unfold parseStr
  cases sep with
  | allow s =>
    simp
    rw [digits_allow]
    split
    · cases hx : scan s macSizes v with
      | ok ds =>
        have hg := scan_sound _ _ _ _ hx
        simp only [Out.bind_ok]
        rw [decode_digits case _ v ds hg]; split <;> simp
      | err e => simp; rw [scan_err _ _ _ _ hx]; simp
      | panic => simp
    · simp
  | disallow =>
    simp
    unfold digits
    by_cases hl : v.length = 12
    · simp [hl]
      rw [decode_digits case .disallow v v (by rw [grouped_disallow_iff]; exact ⟨rfl, by rw [hl]; rfl⟩)]
      split <;> simp
    · simp [hl]
  | must s =>
    simp
    by_cases hl : v.length = 17
    · cases hx : digits (.must s) v with
      | ok ds =>
        have hg := digits_sound _ _ _ hx
        simp only [Out.bind_ok]
        rw [decode_digits case _ v ds hg]; split <;> simp
      | err e => simp; rw [(digits_must s v [] hl).2.1 e hx]; simp
      | panic => simp
    · unfold digits; simp [hl]

end Verif.Mac

namespace Verif.Uuid

open Verif.Hex Verif.Spec.Hex

theorem digits_allow (sep : UInt8) (bytes : List UInt8) :
    digits (.allow sep) bytes =
      if 32 ≤ bytes.length ∧ bytes.length ≤ 36 then scan sep uuidSizes bytes else .err .invalid := by
  unfold digits
  simp only
  by_cases hl : 32 ≤ bytes.length ∧ bytes.length ≤ 36
  · rw [if_neg (by simpa using hl), if_pos hl]
    simp only [Out.bind_eq, Out.pure_eq]
    rw [first_group sep bytes 8 (fun p => (group sep bytes 9 13 p.2).bind fun q => (group sep bytes 14 18 q.2).bind fun r =>
      (group sep bytes 19 23 r.2).bind fun s => (sliceFrom bytes (24 - s.2)).bind fun u =>
      if u.length ≠ 12 then .err .invalid else .ok (p.1 ++ q.1 ++ r.1 ++ s.1 ++ u))]
    rw [group_bind sep bytes 0 8 0 8 4 [4, 4, 12] (by omega) (by omega) (by omega) []]
    · simp [uuidSizes]
      cases scan sep [8, 4, 4, 4, 12] bytes <;> rfl
    intro g0 c0 _ hc0 _
    simp only
    rw [group_bind sep bytes 9 13 c0 4 4 [4, 12] (by omega) (by omega) (by omega) g0]
    · simp
    intro g1 c1 _ hc1 _
    simp only
    rw [group_bind sep bytes 14 18 c1 4 4 [12] (by omega) (by omega) (by omega) (g0 ++ g1)]
    intro g2 c2 _ hc2 _
    simp only
    rw [group_bind sep bytes 19 23 c2 4 12 [] (by omega) (by omega) (by omega) (g0 ++ g1 ++ g2)]
    intro g3 c3 _ hc3 hk
    simp only
    rw [last_group sep bytes 12 (24 - c3) hk]
  · rw [if_pos (by simpa using hl), if_neg hl]

theorem digits_must (sep : UInt8) (bytes ds : List UInt8) (hl : bytes.length = 36) :
    digits (.must sep) bytes ≠ .panic ∧ (∀ e, digits (.must sep) bytes = .err e → e = .invalid) ∧
    (digits (.must sep) bytes = .ok ds ↔ Grouped (.must sep) uuidSizes ds bytes) := by
  have hg : Grouped (.must sep) uuidSizes ds bytes ↔
      (bytes[8]? = some sep ∧ bytes[13]? = some sep ∧ bytes[18]? = some sep ∧ bytes[23]? = some sep ∧
        ds = bytes.take 8 ++ ((bytes.drop 9).take 4 ++ ((bytes.drop 14).take 4 ++ ((bytes.drop 19).take 4 ++ bytes.drop 24)))) := by
    unfold uuidSizes
    rw [grouped_must_cons _ _ _ _ _ _ (by omega)]
    rw [exists_congr fun ds' => and_congr_right fun _ => grouped_must_cons _ _ _ _ _ _ (by simp; omega)]
    simp only [grouped_must_cons sep _ _ _ _ _ (show 4 < (bytes.drop 14).length by simp; omega),
      grouped_must_cons sep _ _ _ _ _ (show 4 < (bytes.drop 19).length by simp; omega), List.drop_drop, List.getElem?_drop]
    constructor
    · rintro ⟨h2, _, rfl, h5, _, rfl, h8, _, rfl, h11, _, rfl, h⟩
      exact ⟨h2, h5, h8, h11, by rw [h.2]⟩
    · rintro ⟨h2, h5, h8, h11, rfl⟩
      exact ⟨h2, _, rfl, h5, _, rfl, h8, _, rfl, h11, _, rfl, by simp [hl], rfl⟩
  rw [hg]
  unfold digits
  simp only [hl, ne_eq, not_true_eq_false, if_false]
  rw [idx_eq _ _ (by omega), idx_eq _ _ (by omega), idx_eq _ _ (by omega), idx_eq _ _ (by omega),
    slice_eq _ _ _ (by omega), slice_eq _ _ _ (by omega), slice_eq _ _ _ (by omega), slice_eq _ _ _ (by omega),
    sliceFrom_eq _ _ (by omega)]
  simp only [Out.bind_eq, Out.bind_ok, Out.pure_eq, List.getElem?_eq_getElem (show 8 < bytes.length by omega),
    List.getElem?_eq_getElem (show 13 < bytes.length by omega), List.getElem?_eq_getElem (show 18 < bytes.length by omega),
    List.getElem?_eq_getElem (show 23 < bytes.length by omega)]
  split
  · rename_i h
    refine ⟨by simp, by simp, ?_⟩
    simp
    intro h2 h5 h8 h11
    simp [h2, h5, h8, h11] at h
  · rename_i h
    simp only [not_or, Decidable.not_not] at h
    refine ⟨by simp, by simp, ?_⟩
    simp [h, eq_comm]

theorem digits_sound (sep : SeparatorOption) (v ds : List UInt8) (h : digits sep v = .ok ds) : Grouped sep uuidSizes ds v := by
  cases sep with
  | allow s =>
    rw [digits_allow] at h
    split at h
    · exact scan_sound _ _ _ _ h
    · cases h
  | must s =>
    by_cases hl : v.length = 36
    · exact (digits_must s v ds hl).2.2.mp h
    · unfold digits at h; simp [hl] at h
  | disallow =>
    unfold digits at h
    by_cases hl : v.length = 32
    · simp [hl] at h; subst h
      rw [grouped_disallow_iff]; exact ⟨rfl, by rw [hl]; rfl⟩
    · simp [hl] at h

theorem digits_complete (sep : SeparatorOption) (v ds : List UInt8) (h : Grouped sep uuidSizes ds v)
    (hs : ∀ s, sep = .allow s → s ∉ ds) : digits sep v = .ok ds := by
  cases sep with
  | allow s =>
    have hl := grouped_allow_length _ _ _ _ _ h
    have e1 : uuidSizes.sum = 32 := rfl
    simp only [uuidSizes, List.sum_cons, List.sum_nil, List.length_cons, List.length_nil] at hl
    rw [digits_allow, if_pos (by omega)]
    exact scan_complete s uuidSizes (by simp [uuidSizes]) (by decide) v ds (hs s rfl) h
  | must s =>
    have hl := grouped_must_length _ _ _ _ _ h
    simp only [uuidSizes, List.sum_cons, List.sum_nil, List.length_cons, List.length_nil] at hl
    exact (digits_must s v ds hl).2.2.mpr h
  | disallow =>
    rw [grouped_disallow_iff] at h
    obtain ⟨rfl, hl⟩ := h
    have hl' : v.length = 32 := hl
    unfold digits
    simp [hl']

theorem decode_digits (case : CaseOption) (sep : SeparatorOption) (v ds : List UInt8) (h : Grouped sep uuidSizes ds v) :
    decode case 128 0 ds = if ∀ b ∈ ds, b ∈ symbols case then .ok (value ds) else .err .invalid := by
  have hl := grouped_ds_length _ _ _ _ h
  have hl' : ds.length = 32 := hl
  rw [decode_eq]
  · simp
  · rw [hl']; decide

/-- What an accepted text is. -/
theorem parse_sound (sep : SeparatorOption) (case : CaseOption) (v : List UInt8) (n : Nat) (h : parseStr sep case v = .ok n) :
    Denotes sep case uuidSizes v n := by
  unfold parseStr at h
  cases hd : digits sep v with
  | err e => simp [hd] at h
  | panic => simp [hd] at h
  | ok ds =>
    have hg := digits_sound sep v ds hd
    simp only [hd, Out.bind_eq, Out.bind_ok] at h
    rw [decode_digits case sep v ds hg] at h
    split at h
    · rename_i hall
      simp at h
      exact ⟨ds, hg, hall, h⟩
    · cases h

theorem parse_complete (sep : SeparatorOption) (case : CaseOption) (v : List UInt8) (n : Nat)
    (hs : ∀ s, sep = .allow s → s ∉ symbols case) (h : Denotes sep case uuidSizes v n) : parseStr sep case v = .ok n := by
  obtain ⟨ds, hg, hall, rfl⟩ := h
  have hd := digits_complete sep v ds hg (fun s hs' hm => hs s hs' (hall s hm))
  unfold parseStr
  simp only [hd, Out.bind_eq, Out.bind_ok]
  rw [decode_digits case sep v ds hg, if_pos hall]

theorem validate_eq (sep : SeparatorOption) (case : CaseOption) (v : List UInt8) :
    validateStr sep case v = (parseStr sep case v).void := by
  unfold parseStr validateStr
  cases hd : digits sep v with
  | err e => simp [Out.void]
  | panic => simp [Out.void]
  | ok ds =>
    simp only [Out.bind_eq, Out.bind_ok]
    rw [decode_digits case sep v ds (digits_sound sep v ds hd), checkDigits_eq]
    split <;> simp [Out.void]

/-- The two separator errors. -/
theorem parse_separatorMust (sep : SeparatorOption) (case : CaseOption) (v : List UInt8) :
    parseStr sep case v = .err .separatorMust ↔ (∃ s, sep = .must s) ∧ v.length ≠ 36 := by
  unfold parseStr
  cases sep with
  | allow s =>
    simp
    rw [digits_allow]
    split
    · cases hx : scan s uuidSizes v with
      | ok ds =>
        have hg := scan_sound _ _ _ _ hx
        simp only [Out.bind_ok]
        rw [decode_digits case _ v ds hg]; split <;> simp
      | err e => simp; rw [scan_err _ _ _ _ hx]; simp
      | panic => simp
    · simp
  | disallow =>
    simp
    unfold digits
    by_cases hl : v.length = 32
    · simp [hl]
      rw [decode_digits case .disallow v v (by rw [grouped_disallow_iff]; exact ⟨rfl, by rw [hl]; rfl⟩)]
      split <;> simp
    · simp [hl]
  | must s =>
    simp
    by_cases hl : v.length = 36
    · simp only [hl, not_true_eq_false, iff_false]
      cases hx : digits (.must s) v with
      | ok ds =>
        have hg := digits_sound _ _ _ hx
        simp only [Out.bind_ok]
        rw [decode_digits case _ v ds hg]; split <;> simp
      | err e => simp; rw [(digits_must s v [] hl).2.1 e hx]; simp
      | panic => simp
    · simp only [hl, not_false_eq_true, iff_true]
      unfold digits; simp [hl]

theorem parse_separatorDisallow (sep : SeparatorOption) (case : CaseOption) (v : List UInt8) :
    parseStr sep case v = .err .separatorDisallow ↔ sep = .disallow ∧ v.length ≠ 32 := by
  unfold parseStr
  cases sep with
  | allow s =>
    simp
    rw [digits_allow]
    split
    · cases hx : scan s uuidSizes v with
      | ok ds =>
        have hg := scan_sound _ _ _ _ hx
        simp only [Out.bind_ok]
        rw [decode_digits case _ v ds hg]; split <;> simp
      | err e => simp; rw [scan_err _ _ _ _ hx]; simp
      | panic => simp
    · simp
  | disallow =>
    simp
    unfold digits
    by_cases hl : v.length = 32
    · simp [hl]
      rw [decode_digits case .disallow v v (by rw [grouped_disallow_iff]; exact ⟨rfl, by rw [hl]; rfl⟩)]
      split <;> simp
    · simp [hl]
  | must s =>
    simp
    by_cases hl : v.length = 36
    · cases hx : digits (.must s) v with
      | ok ds =>
        have hg := digits_sound _ _ _ hx
        simp only [Out.bind_ok]
        rw [decode_digits case _ v ds hg]; split <;> simp
      | err e => simp; rw [(digits_must s v [] hl).2.1 e hx]; simp
      | panic => simp
    · unfold digits; simp [hl]

end Verif.Uuid
