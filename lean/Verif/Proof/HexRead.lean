import Verif.Proof.MacUuid

/-! Helper lemmas: the reading of texts whose optional separator may be a digit. -/

namespace Verif.Hex

open Verif.Spec.Hex

theorem cut_grouped (sep : SeparatorOption) (sizes : List Nat) (ds text : List UInt8) (h : Cut sep sizes ds text) : Grouped sep sizes ds text := by
  induction sizes generalizing ds text with
  | nil => exact h
  | cons n ns ih =>
    cases ns with
    | nil => exact h
    | cons m ns =>
      obtain ⟨g, ds', s, text', h1, h2, h3, h4, h5⟩ := h
      refine ⟨g, ds', s, text', h1, h2, h3, ?_, ih _ _ h5⟩
      cases sep with
      | allow b => exact h4.elim .inr fun h => .inl h.1
      | must b => exact h4
      | disallow => exact h4

theorem grouped_cut (sep : SeparatorOption) (sizes : List Nat) (hpos : ∀ n ∈ sizes, 0 < n) (ds text : List UInt8) (hs : ∀ b, sep = .allow b → b ∉ ds)
    (h : Grouped sep sizes ds text) : Cut sep sizes ds text := by
  induction sizes generalizing ds text with
  | nil => exact h
  | cons n ns ih =>
    cases ns with
    | nil => exact h
    | cons m ns =>
      obtain ⟨g, ds', s, text', h1, rfl, h3, h4, h5⟩ := h
      refine ⟨g, ds', s, text', h1, rfl, h3, ?_, ih (fun k hk => hpos k (by simp [hk])) _ _ (fun b e hb => hs b e (by simp [hb])) h5⟩
      cases sep with
      | allow b =>
        refine h4.elim (fun e => .inr ⟨e, ?_⟩) .inl
        obtain ⟨c, ds'', t'', e1, e2⟩ := grouped_head _ m ns (hpos m (by simp)) _ _ h5
        rw [e2]
        rintro ⟨⟩
        exact hs _ rfl (by simp [e1])
      | must b => exact h4
      | disallow => exact h4

theorem scan_iff (sep : UInt8) (sizes : List Nat) (hne : sizes ≠ []) (hpos : ∀ n ∈ sizes, 0 < n) (text ds : List UInt8) :
    scan sep sizes text = .ok ds ↔ Cut (.allow sep) sizes ds text := by
  induction sizes generalizing text ds with
  | nil => exact absurd rfl hne
  | cons n ns ih =>
    cases ns with
    | nil =>
      simp only [scan, Cut]
      split
      · rename_i h
        simp only [reduceCtorEq, false_iff, not_and]
        rintro h1 rfl
        exact h h1
      · rename_i h
        simp only [Decidable.not_not] at h
        simp only [Out.ok.injEq]
        exact ⟨fun e => ⟨e ▸ h, e⟩, fun e => e.2⟩
    | cons m ns =>
      have ih := ih (by simp) (fun k hk => hpos k (by simp [hk]))
      have hscan : scan sep (n :: m :: ns) text = match text[n]? with
          | none => .panic
          | some b => (scan sep (m :: ns) (if b ≠ sep then text.drop n else text.drop (n + 1))).map (text.take n ++ ·) := by
        rw [scan]
        · cases text[n]? <;> rfl
        · simp
      rw [hscan]
      constructor
      · intro h
        cases hb : text[n]? with
        | none => simp [hb] at h
        | some b =>
          simp only [hb] at h
          obtain ⟨hlen, hbe⟩ := List.getElem?_eq_some_iff.mp hb
          split at h
          · rename_i hne
            cases hx : scan sep (m :: ns) (text.drop n) with
            | err a => rw [hx] at h; cases h
            | panic => rw [hx] at h; cases h
            | ok ds' =>
              rw [hx] at h
              simp only [Out.map_ok, Out.ok.injEq] at h
              refine ⟨text.take n, ds', [], text.drop n, by simp; omega, h.symm, by simp, .inr ⟨rfl, ?_⟩, (ih _ _).1 hx⟩
              rw [List.head?_drop, hb]
              simpa using hne
          · rename_i he
            simp only [ne_eq, Decidable.not_not] at he
            cases hx : scan sep (m :: ns) (text.drop (n + 1)) with
            | err a => rw [hx] at h; cases h
            | panic => rw [hx] at h; cases h
            | ok ds' =>
              rw [hx] at h
              simp only [Out.map_ok, Out.ok.injEq] at h
              refine ⟨text.take n, ds', [sep], text.drop (n + 1), by simp; omega, h.symm, ?_, .inl rfl, (ih _ _).1 hx⟩
              rw [← he, ← hbe]
              simp
      · rintro ⟨g, ds', s, text', h1, rfl, rfl, hb, hrest⟩
        obtain ⟨b, ds'', text'', hd, ht⟩ := grouped_head _ m ns (hpos m (by simp)) _ _ (cut_grouped _ _ _ _ hrest)
        have ih' := (ih text' ds').2 hrest
        rcases hb with rfl | ⟨rfl, hne⟩
        · have hb' : (g ++ [sep] ++ text')[n]? = some sep := by
            rw [List.append_assoc, List.getElem?_append_right (by omega), h1]; simp
          rw [hb']
          simp only [ne_eq, not_true_eq_false, if_false]
          rw [List.drop_left' (by simp [h1]), ih', List.append_assoc, List.take_left' h1]
          rfl
        · have hb' : (g ++ [] ++ text')[n]? = some b := by
            rw [List.append_nil, List.getElem?_append_right (by omega), h1, ht]; simp
          have hne : b ≠ sep := by
            rintro rfl; apply hne; rw [ht]; simp
          rw [hb']
          simp only [hne, ne_eq, not_false_eq_true, if_true]
          rw [List.append_nil, List.drop_left' h1, ih', List.take_left' h1]
          rfl

theorem reads_denotes {sep : SeparatorOption} {case : CaseOption} {sizes : List Nat} {text : List UInt8} {n : Nat} (h : Reads sep case sizes text n) :
    Denotes sep case sizes text n := by
  obtain ⟨ds, h1, h2⟩ := h
  exact ⟨ds, cut_grouped _ _ _ _ h1, h2⟩

theorem reads_iff_denotes (sep : SeparatorOption) (case : CaseOption) (hs : ∀ s, sep = .allow s → s ∉ symbols case) (sizes : List Nat)
    (hpos : ∀ n ∈ sizes, 0 < n) (text : List UInt8) (n : Nat) : Reads sep case sizes text n ↔ Denotes sep case sizes text n := by
  refine ⟨reads_denotes, ?_⟩
  rintro ⟨ds, h1, h2, h3⟩
  exact ⟨ds, grouped_cut _ _ hpos _ _ (fun b e hb => hs b e (h2 b hb)) h1, h2, h3⟩

end Verif.Hex

namespace Verif.Mac

open Verif.Hex Verif.Spec.Hex

theorem digits_iff (sep : SeparatorOption) (v ds : List UInt8) : digits sep v = .ok ds ↔ Cut sep macSizes ds v := by
  cases sep with
  | allow s =>
    rw [digits_allow]
    constructor
    · intro h
      split at h
      · exact (scan_iff _ _ (by decide) (by decide) _ _).1 h
      · cases h
    · intro h
      have hl := grouped_allow_length _ _ _ _ _ (cut_grouped _ _ _ _ h)
      simp only [List.sum_cons, List.sum_nil, List.length_cons, List.length_nil] at hl
      rw [if_pos (by omega)]
      exact (scan_iff _ _ (by decide) (by decide) _ _).2 h
  | must s => exact ⟨fun h => grouped_cut _ _ (by decide) _ _ nofun (digits_sound _ v ds h), fun h => digits_complete _ v ds (cut_grouped _ _ _ _ h) nofun⟩
  | disallow => exact ⟨fun h => grouped_cut _ _ (by decide) _ _ nofun (digits_sound _ v ds h), fun h => digits_complete _ v ds (cut_grouped _ _ _ _ h) nofun⟩

theorem parse_iff (sep : SeparatorOption) (case : CaseOption) (v : List UInt8) (n : Nat) : parseStr sep case v = .ok n ↔ Reads sep case macSizes v n := by
  unfold parseStr Reads
  constructor
  · intro h
    cases hd : digits sep v with
    | err e => simp [hd] at h
    | panic => simp [hd] at h
    | ok ds =>
      simp only [hd, Out.bind_eq, Out.bind_ok] at h
      rw [decode_digits case sep v ds (digits_sound sep v ds hd)] at h
      split at h
      · rename_i hall
        exact ⟨ds, (digits_iff _ _ _).1 hd, hall, by simpa using h⟩
      · cases h
  · rintro ⟨ds, hc, hall, rfl⟩
    have hd := (digits_iff _ _ _).2 hc
    simp only [hd, Out.bind_eq, Out.bind_ok]
    rw [decode_digits case sep v ds (digits_sound sep v ds hd), if_pos hall]

end Verif.Mac

namespace Verif.Uuid

open Verif.Hex Verif.Spec.Hex

theorem digits_iff (sep : SeparatorOption) (v ds : List UInt8) : digits sep v = .ok ds ↔ Cut sep uuidSizes ds v := by
  cases sep with
  | allow s =>
    rw [digits_allow]
    constructor
    · intro h
      split at h
      · exact (scan_iff _ _ (by decide) (by decide) _ _).1 h
      · cases h
    · intro h
      have hl := grouped_allow_length _ _ _ _ _ (cut_grouped _ _ _ _ h)
      simp only [List.sum_cons, List.sum_nil, List.length_cons, List.length_nil] at hl
      rw [if_pos (by omega)]
      exact (scan_iff _ _ (by decide) (by decide) _ _).2 h
  | must s => exact ⟨fun h => grouped_cut _ _ (by decide) _ _ nofun (digits_sound _ v ds h), fun h => digits_complete _ v ds (cut_grouped _ _ _ _ h) nofun⟩
  | disallow => exact ⟨fun h => grouped_cut _ _ (by decide) _ _ nofun (digits_sound _ v ds h), fun h => digits_complete _ v ds (cut_grouped _ _ _ _ h) nofun⟩

theorem parse_iff (sep : SeparatorOption) (case : CaseOption) (v : List UInt8) (n : Nat) : parseStr sep case v = .ok n ↔ Reads sep case uuidSizes v n := by
  unfold parseStr Reads
  constructor
  · intro h
    cases hd : digits sep v with
    | err e => simp [hd] at h
    | panic => simp [hd] at h
    | ok ds =>
      simp only [hd, Out.bind_eq, Out.bind_ok] at h
      rw [decode_digits case sep v ds (digits_sound sep v ds hd)] at h
      split at h
      · rename_i hall
        exact ⟨ds, (digits_iff _ _ _).1 hd, hall, by simpa using h⟩
      · cases h
  · rintro ⟨ds, hc, hall, rfl⟩
    have hd := (digits_iff _ _ _).2 hc
    simp only [hd, Out.bind_eq, Out.bind_ok]
    rw [decode_digits case sep v ds (digits_sound sep v ds hd), if_pos hall]

end Verif.Uuid
