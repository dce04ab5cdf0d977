import Verif.Proof.MacUuidPrint
import Verif.Proof.HexRead

/-!
# Properties C08–C13, C56: `uuid` and `mac_address`
-/

namespace Verif.Props.Hex

open Verif.Hex
open Verif.Spec.Hex

/-! ## C08 -/

/-- C08: exactly the texts of the specification are accepted, with their value, for every separator that is not itself a
digit of the configured case (a question only for `separator(Allow)`). -/
theorem C08_uuid_language (sep : SeparatorOption) (case : CaseOption) (hs : ∀ s, sep = .allow s → s ∉ symbols case)
    (v : List UInt8) (n : Nat) : Uuid.parseStr sep case v = .ok n ↔ Denotes sep case uuidSizes v n :=
  ⟨Uuid.parse_sound sep case v n, Uuid.parse_complete sep case v n hs⟩

/-- C08, for every separator byte, a digit too: then a byte after a group that can be the separator is. -/
theorem C08_uuid_exact (sep : SeparatorOption) (case : CaseOption) (v : List UInt8) (n : Nat) :
    Uuid.parseStr sep case v = .ok n ↔ Reads sep case uuidSizes v n := Uuid.parse_iff sep case v n

/-- C08: if the separator is no digit, there is nothing to choose. -/
theorem C08_uuid_reads (sep : SeparatorOption) (case : CaseOption) (hs : ∀ s, sep = .allow s → s ∉ symbols case) (v : List UInt8) (n : Nat) :
    Reads sep case uuidSizes v n ↔ Denotes sep case uuidSizes v n := reads_iff_denotes sep case hs uuidSizes (by decide) v n

/-- The separator is the digit `0`: read as such after the first group, though the text is a sequence of 32 digits with it. -/
example : Uuid.parseStr (.allow (asc '0')) .any (ascii "11111111022222222222222222222222") = .err .invalid ∧
    Denotes (.allow (asc '0')) .any uuidSizes (ascii "11111111022222222222222222222222") 0x11111111022222222222222222222222 ∧
    Uuid.parseStr (.allow (asc '0')) .any (ascii "111111110222222222222222222222222") = .ok 0x11111111222222222222222222222222 := by
  refine ⟨by decide +kernel, ⟨ascii "11111111022222222222222222222222", ?_, by decide +kernel, by decide +kernel⟩, by decide +kernel⟩
  exact ⟨ascii "11111111", ascii "022222222222222222222222", [], ascii "022222222222222222222222", by decide, by decide, by decide, .inl rfl,
    ascii "0222", ascii "22222222222222222222", [], ascii "22222222222222222222", by decide, by decide, by decide, .inl rfl,
    ascii "2222", ascii "2222222222222222", [], ascii "2222222222222222", by decide, by decide, by decide, .inl rfl,
    ascii "2222", ascii "222222222222", [], ascii "222222222222", by decide, by decide, by decide, .inl rfl, by decide, rfl⟩

/-- C08, one direction for every separator byte whatsoever. -/
theorem C08_uuid_sound (sep : SeparatorOption) (case : CaseOption) (v : List UInt8) (n : Nat)
    (h : Uuid.parseStr sep case v = .ok n) : Denotes sep case uuidSizes v n := Uuid.parse_sound sep case v n h

theorem value_lt (case : CaseOption) (ds : List UInt8) (h : ∀ b ∈ ds, b ∈ symbols case) : value ds < 16 ^ ds.length := by
  induction ds with
  | nil => simp [value]
  | cons b ds ih =>
    have h1 := ih (fun x hx => h x (by simp [hx]))
    have h2 := digitValue_lt case b (h b (by simp))
    rw [value, List.length_cons, Nat.pow_succ]
    have : digitValue b * 16 ^ ds.length ≤ 15 * 16 ^ ds.length := Nat.mul_le_mul_right _ (by omega)
    omega

/-- C08: the value fits in 128 bits. -/
theorem C08_uuid_value_bound (sep : SeparatorOption) (case : CaseOption) (v : List UInt8) (n : Nat)
    (h : Uuid.parseStr sep case v = .ok n) : n < 2 ^ 128 := by
  obtain ⟨ds, hg, hall, rfl⟩ := Uuid.parse_sound sep case v n h
  have := value_lt case ds hall
  rw [grouped_ds_length _ _ _ _ hg] at this
  exact this

example : Uuid.parseStr (.allow (asc '-')) .any (ascii "936DA01f-9ABD4d9d-80C7-02AF85C822A8") =
    .ok 0x936DA01F9ABD4D9D80C702AF85C822A8 := by decide +kernel

example : ∀ s, SeparatorOption.allow (asc '-') = .allow s → s ∉ symbols .any := by
  intro s h; cases h; decide

/-! ## C09 -/

/-- C09: no panic, whatever the separator. -/
theorem C09_uuid_no_panic (sep : SeparatorOption) (case : CaseOption) (v : List UInt8) :
    Uuid.parseStr sep case v ≠ .panic ∧ Uuid.validateStr sep case v ≠ .panic := by
  have key : Uuid.parseStr sep case v ≠ .panic := by
    have hd : Uuid.digits sep v ≠ .panic := by
      cases sep with
      | allow s =>
        rw [Uuid.digits_allow]
        split
        · exact scan_ne_panic s 8 [4, 4, 4, 12] v (by simp; omega)
        · simp
      | must s =>
        by_cases hl : v.length = 36
        · exact (Uuid.digits_must s v [] hl).1
        · unfold Uuid.digits; simp [hl]
      | disallow => unfold Uuid.digits; simp only; split <;> simp
    unfold Uuid.parseStr
    cases hx : Uuid.digits sep v with
    | ok ds => simp; exact decode_ne_panic _ _ _ _
    | err e => simp
    | panic => exact absurd hx hd
  refine ⟨key, ?_⟩
  rw [Uuid.validate_eq]
  cases hx : Uuid.parseStr sep case v <;> simp_all [Out.void]

/-- C09: `validate_str` and `parse_str` agree, errors included. -/
theorem C09_uuid_validate_agrees (sep : SeparatorOption) (case : CaseOption) (v : List UInt8) :
    Uuid.validateStr sep case v = (Uuid.parseStr sep case v).void := Uuid.validate_eq sep case v

example : Uuid.validateStr .disallow .lower (ascii "936da01f9abd4d9d80c702af85c822a8") = .ok () ∧
    Uuid.validateStr .disallow .upper (ascii "936da01f9abd4d9d80c702af85c822a8") = .err .invalid := by decide +kernel

/-! ## C10 -/

/-- C10 where it holds: without a separator, every 128-bit value is printed and parsed back.
Missing: validators with a separator, for which it is false, see `C10_uuid_separator_never_round_trips`. -/
theorem C10_uuid_round_trip_partial (case : CaseOption) (n : Nat) (hn : n < 2 ^ 128) :
    Uuid.parseStr .disallow case (Uuid.toUuidString .disallow case n) = .ok n := by
  obtain ⟨h1, h2, h3⟩ := fmtHex_spec case 32 n (by decide) (by decide) (by simpa using hn)
  apply Uuid.parse_complete _ _ _ _ (by simp)
  refine ⟨fmtHex (caseUpper case) 32 n, ?_, h2, h3⟩
  rw [grouped_disallow_iff]
  exact ⟨rfl, h1⟩

/-- C10 fails with any separator, any case option and any value: the text is not even accepted. -/
theorem C10_uuid_separator_never_round_trips (sep : SeparatorOption) (hsep : sep ≠ .disallow) (case : CaseOption) (n : Nat) :
    ¬ (Uuid.parseStr sep case (Uuid.toUuidString sep case n)).IsOk := by
  rintro ⟨m, h⟩
  obtain ⟨ds, hg, _, _⟩ := Uuid.parse_sound _ _ _ _ h
  obtain ⟨s, hs⟩ : ∃ s, sepAllow sep = some s := by cases sep <;> simp_all [sepAllow]
  obtain ⟨h1, h2⟩ := Uuid.print_sep_length sep s hs case n
  exact no_grouping sep s hs 8 [4, 4, 4, 12] (by simp) ds _ h1 h2 hg

/-- The witness: with `separator(Must(b'-'))` the hyphen is printed as `45`. -/
theorem C10_uuid_witness : Uuid.parseStr (.must (asc '-')) .lower (ascii "936da01f-9abd-4d9d-80c7-02af85c822a8") =
      .ok 0x936DA01F9ABD4D9D80C702AF85C822A8 ∧
    Uuid.toUuidString (.must (asc '-')) .lower 0x936DA01F9ABD4D9D80C702AF85C822A8 =
      ascii "936da01f459abd454d9d4580c74502af85c822a8" ∧
    Uuid.parseStr (.must (asc '-')) .lower (Uuid.toUuidString (.must (asc '-')) .lower 0x936DA01F9ABD4D9D80C702AF85C822A8) =
      .err .separatorMust := by decide +kernel

/-! ## C11 -/

/-- C11: exactly the texts of the specification are accepted, with their value. -/
theorem C11_mac_language (sep : SeparatorOption) (case : CaseOption) (hs : ∀ s, sep = .allow s → s ∉ symbols case)
    (v : List UInt8) (n : Nat) : Mac.parseStr sep case v = .ok n ↔ Denotes sep case macSizes v n :=
  ⟨Mac.parse_sound sep case v n, Mac.parse_complete sep case v n hs⟩

/-- C11, for every separator byte, a digit too: then a byte after a group that can be the separator is. -/
theorem C11_mac_exact (sep : SeparatorOption) (case : CaseOption) (v : List UInt8) (n : Nat) :
    Mac.parseStr sep case v = .ok n ↔ Reads sep case macSizes v n := Mac.parse_iff sep case v n

/-- C11: if the separator is no digit, there is nothing to choose. -/
theorem C11_mac_reads (sep : SeparatorOption) (case : CaseOption) (hs : ∀ s, sep = .allow s → s ∉ symbols case) (v : List UInt8) (n : Nat) :
    Reads sep case macSizes v n ↔ Denotes sep case macSizes v n := reads_iff_denotes sep case hs macSizes (by decide) v n

/-- The separator is the digit `0`. -/
example : Mac.parseStr (.allow (asc '0')) .any (ascii "110220330440550660") = .err .invalid ∧
    Mac.parseStr (.allow (asc '0')) .any (ascii "11022033044055066") = .ok 0x112233445566 := by decide +kernel

/-- C11, one direction for every separator byte whatsoever. -/
theorem C11_mac_sound (sep : SeparatorOption) (case : CaseOption) (v : List UInt8) (n : Nat)
    (h : Mac.parseStr sep case v = .ok n) : Denotes sep case macSizes v n := Mac.parse_sound sep case v n h

/-- C11: the value is below `2 ^ 48`. -/
theorem C11_mac_value_bound (sep : SeparatorOption) (case : CaseOption) (v : List UInt8) (n : Nat)
    (h : Mac.parseStr sep case v = .ok n) : n < 2 ^ 48 := by
  obtain ⟨ds, hg, hall, rfl⟩ := Mac.parse_sound sep case v n h
  have := value_lt case ds hall
  rw [grouped_ds_length _ _ _ _ hg] at this
  exact this

example : Mac.parseStr (.allow (asc ':')) .any (ascii "0A:1b2C:3d4e:5F") = .ok 0x0A1B2C3D4E5F ∧
    Mac.parseStr (.must (asc ':')) .upper (ascii "08:00:27:B2:46:C3") = .ok 0x080027B246C3 := by decide +kernel

/-! ## C12 -/

/-- C12 fails: `separator(Allow)` reads past the end of the text. -/
theorem C12_mac_panics : Mac.parseStr (.allow (asc ':')) .any (ascii "00:00:00:00:") = .panic ∧
    Mac.validateStr (.allow (asc ':')) .any (ascii "00:00:00:00:") = .panic := by decide +kernel

/-- `scan` reads at most up to the bytes that are left once the separators are counted. -/
theorem scan_no_panic_of_count (sep : UInt8) (n : Nat) (ns : List Nat) (rest : List UInt8)
    (h : (n :: ns).sum + 1 ≤ rest.length - rest.count sep + (n :: ns).getLast (by simp)) : scan sep (n :: ns) rest ≠ .panic := by
  induction ns generalizing n rest with
  | nil => unfold scan; split <;> simp
  | cons m ns ih =>
    rw [scan]
    · simp only [List.sum_cons] at h
      rw [List.getLast_cons (by simp)] at h
      have hlast : (m :: ns).getLast (by simp) ≤ (m :: ns).sum := le_sum_of_mem _ _ (List.getLast_mem _)
      simp only [List.sum_cons] at hlast
      have hl : n < rest.length := by omega
      rw [List.getElem?_eq_getElem hl]
      simp only
      have hsplit : rest.count sep = (rest.take n).count sep + (rest.drop n).count sep := by
        rw [← List.count_append, List.take_append_drop]
      have hc2 : (rest.drop n).count sep ≤ rest.length - n := by
        have := List.count_le_length (a := sep) (l := rest.drop n); simpa using this
      have := ih m (if rest[n] ≠ sep then rest.drop n else rest.drop (n + 1)) (by
        simp only [List.sum_cons]
        split
        · simp only [List.length_drop]; omega
        · rename_i hs
          have he : rest[n] = sep := by simpa using hs
          have hd : rest.drop n = sep :: rest.drop (n + 1) := by rw [← he]; exact List.drop_eq_getElem_cons hl
          rw [hd, List.count_cons_self] at hsplit hc2
          simp only [List.length_drop]; omega)
      cases hx : scan sep (m :: ns) (if rest[n] ≠ sep then rest.drop n else rest.drop (n + 1)) with
      | ok a => simp
      | err a => simp
      | panic => exact absurd hx this
    · simp

/-- C12 where it holds: no panic unless the option is `separator(Allow)`, the length is 12, 13 or 14, and fewer than eleven
bytes are not the separator. Missing: those texts, on some of which the code panics, see `C12_mac_panics`. -/
theorem C12_mac_no_panic_partial (sep : SeparatorOption) (case : CaseOption) (v : List UInt8)
    (h : ∀ s, sep = .allow s → v.length < 12 ∨ 15 ≤ v.length ∨ 11 + v.count s ≤ v.length) :
    Mac.parseStr sep case v ≠ .panic ∧ Mac.validateStr sep case v ≠ .panic := by
  have key : Mac.parseStr sep case v ≠ .panic := by
    have hd : Mac.digits sep v ≠ .panic := by
      cases sep with
      | allow s =>
        rw [Mac.digits_allow]
        split
        · rename_i hl
          rcases h s rfl with h | h | h
          · omega
          · exact scan_ne_panic s 2 [2, 2, 2, 2, 2] v (by simp; omega)
          · exact scan_no_panic_of_count s 2 [2, 2, 2, 2, 2] v (by show 12 + 1 ≤ v.length - v.count s + 2; omega)
        · simp
      | must s =>
        by_cases hl : v.length = 17
        · exact (Mac.digits_must s v [] hl).1
        · unfold Mac.digits; simp [hl]
      | disallow => unfold Mac.digits; simp only; split <;> simp
    unfold Mac.parseStr
    cases hx : Mac.digits sep v with
    | ok ds => simp; exact decode_ne_panic _ _ _ _
    | err e => simp
    | panic => exact absurd hx hd
  refine ⟨key, ?_⟩
  rw [Mac.validate_eq]
  cases hx : Mac.parseStr sep case v <;> simp_all [Out.void]

theorem pairs_step (s : UInt8) (n : Nat) (v rest : List UInt8) (b : UInt8) (hb : v[2]? = some b) :
    Pairs (.allow s) (n + 1) v rest ↔ Pairs (.allow s) n (if b ≠ s then v.drop 2 else v.drop 3) rest := by
  obtain ⟨x, y, t, rfl⟩ : ∃ x y t, v = x :: y :: b :: t := by
    rcases v with _ | ⟨x, _ | ⟨y, _ | ⟨z, t⟩⟩⟩ <;> simp at hb
    exact ⟨x, y, t, by rw [hb]⟩
  rw [Pairs]
  constructor
  · rintro ⟨g, u, t', hg, hv, ht, hp⟩
    obtain ⟨p, q, rfl⟩ : ∃ p q, g = [p, q] := by
      rcases g with _ | ⟨p, _ | ⟨q, _ | ⟨r, g⟩⟩⟩ <;> simp at hg
      exact ⟨p, q, rfl⟩
    rcases ht with rfl | ⟨rfl, hh⟩
    · simp at hv
      obtain ⟨rfl, rfl, rfl, rfl⟩ := hv
      simpa using hp
    · simp at hv
      obtain ⟨rfl, rfl, rfl⟩ := hv
      rw [if_pos (by simpa using hh)]
      simpa using hp
  · intro hp
    split at hp
    · rename_i hs
      exact ⟨[x, y], [], b :: t, rfl, rfl, .inr ⟨rfl, by simpa using hs⟩, by simpa using hp⟩
    · rename_i hs
      have : b = s := by simpa using hs
      exact ⟨[x, y], [s], t, rfl, by simp [this], .inl rfl, by simpa using hp⟩

theorem pairs_length (s : UInt8) (n : Nat) (v rest : List UInt8) (h : Pairs (.allow s) n v rest) : v.length ≤ 3 * n + rest.length := by
  induction n generalizing v with
  | zero => rw [Pairs] at h; simp [h]
  | succ n ih =>
    obtain ⟨g, u, t, hg, rfl, ht, hp⟩ := h
    have := ih t hp
    have hu : u.length ≤ 1 := by rcases ht with rfl | ⟨rfl, _⟩ <;> simp
    simp only [List.length_append]
    omega

/-- The scanner of pairs panics exactly if after all pairs but two no more than two bytes are left. -/
theorem scan_pairs (s : UInt8) (n : Nat) (v : List UInt8) (hl : 3 * n ≤ v.length) :
    scan s (2 :: 2 :: List.replicate n 2) v = .panic ↔ ∃ rest, Pairs (.allow s) n v rest ∧ rest.length ≤ 2 := by
  induction n generalizing v with
  | zero =>
    simp only [List.replicate, scan, Pairs, exists_eq_left']
    cases hb : v[2]? with
    | none => simpa using hb
    | some b =>
      have := (List.getElem?_eq_some_iff.1 hb).1
      simp only
      constructor
      · intro h
        have k : ∀ x : List UInt8, (if x.length ≠ 2 then Out.err HexError.invalid else .ok x) ≠ .panic := by
          intro x; split <;> simp
        cases hx : (if (if b ≠ s then v.drop 2 else v.drop (2 + 1)).length ≠ 2 then Out.err HexError.invalid
          else .ok (if b ≠ s then v.drop 2 else v.drop (2 + 1))) with
        | panic => exact absurd hx (k _)
        | ok a => rw [hx] at h; cases h
        | err a => rw [hx] at h; cases h
      · omega
  | succ n ih =>
    have h2 : 2 < v.length := by omega
    obtain ⟨b, hb⟩ : ∃ b, v[2]? = some b := ⟨v[2], List.getElem?_eq_getElem h2⟩
    have hs : scan s (2 :: 2 :: List.replicate (n + 1) 2) v =
        (scan s (2 :: 2 :: List.replicate n 2) (if b ≠ s then v.drop 2 else v.drop (2 + 1))).map (v.take 2 ++ ·) := by
      rw [List.replicate_succ, scan]
      · simp only [hb]
      · simp
    rw [hs]
    simp only [pairs_step s n v _ b hb]
    rw [← ih _ (by split <;> simp <;> omega)]
    cases scan s (2 :: 2 :: List.replicate n 2) (if b ≠ s then v.drop 2 else v.drop 3) <;> simp

/-- C12, exactly: the validator panics if and only if the option is `separator(Allow)`, the text has at least twelve bytes, and at most
two of them are left after four pairs and the separators that follow them. -/
theorem C12_mac_exact_partial (sep : SeparatorOption) (case : CaseOption) (v : List UInt8) :
    Mac.parseStr sep case v = .panic ↔
      (∃ s, sep = .allow s) ∧ 12 ≤ v.length ∧ ∃ rest, Pairs sep 4 v rest ∧ rest.length ≤ 2 := by
  cases sep with
  | allow s =>
    have hp : Mac.parseStr (.allow s) case v = .panic ↔ Mac.digits (.allow s) v = .panic := by
      unfold Mac.parseStr
      cases hx : Mac.digits (.allow s) v with
      | ok ds => simpa using decode_ne_panic _ _ _ _
      | err e => simp
      | panic => simp
    rw [hp, Mac.digits_allow]
    by_cases hl : 12 ≤ v.length ∧ v.length ≤ 17
    · rw [if_pos hl, show macSizes = 2 :: 2 :: List.replicate 4 2 from rfl, scan_pairs s 4 v (by omega)]
      simp [hl.1]
    · rw [if_neg hl]
      constructor
      · intro h; cases h
      · rintro ⟨_, h12, rest, hr, h2⟩
        have := pairs_length s 4 v rest hr
        omega
  | must s => simp [(C12_mac_no_panic_partial (.must s) case v (by simp)).1]
  | disallow => simp [(C12_mac_no_panic_partial .disallow case v (by simp)).1]

example : Pairs (.allow (asc ':')) 4 (ascii "00:00:00:00:00") (ascii "00") ∧
    Mac.parseStr (.allow (asc ':')) .any (ascii "00:00:00:00:00") = .panic ∧
    Mac.parseStr (.allow (asc ':')) .any (ascii "00:00:00:00:000") = .err .invalid := by
  refine ⟨⟨ascii "00", ascii ":", ascii "00:00:00:00", rfl, rfl, .inl rfl, ascii "00", ascii ":", ascii "00:00:00", rfl, rfl, .inl rfl,
    ascii "00", ascii ":", ascii "00:00", rfl, rfl, .inl rfl, ascii "00", ascii ":", ascii "00", rfl, rfl, .inl rfl, rfl⟩, by decide +kernel⟩

/-- C12: `validate_str` and `parse_str` agree, errors (and panics) included. -/
theorem C12_mac_validate_agrees (sep : SeparatorOption) (case : CaseOption) (v : List UInt8) :
    Mac.validateStr sep case v = (Mac.parseStr sep case v).void := Mac.validate_eq sep case v

example : 11 + (ascii "080027B246C3").count (asc ':') ≤ (ascii "080027B246C3").length := by decide

/-! ## C13 -/

/-- C13 where it holds: without a separator. Missing: validators with a separator, for which it is false, see
`C13_mac_separator_never_round_trips`. -/
theorem C13_mac_round_trip_partial (case : CaseOption) (n : Nat) (hn : n < 2 ^ 48) :
    Mac.parseStr .disallow case (Mac.toMacAddressString .disallow case n) = .ok n := by
  obtain ⟨h1, h2, h3⟩ := fmtHex_spec case 12 n (by decide) (by decide) (by simpa using hn)
  apply Mac.parse_complete _ _ _ _ (by simp)
  refine ⟨fmtHex (caseUpper case) 12 n, ?_, h2, h3⟩
  rw [grouped_disallow_iff]
  exact ⟨rfl, h1⟩

/-- C13 fails with any separator, any case option and any value: the text is not even accepted. -/
theorem C13_mac_separator_never_round_trips (sep : SeparatorOption) (hsep : sep ≠ .disallow) (case : CaseOption) (n : Nat) :
    ¬ (Mac.parseStr sep case (Mac.toMacAddressString sep case n)).IsOk := by
  rintro ⟨m, h⟩
  obtain ⟨ds, hg, _, _⟩ := Mac.parse_sound _ _ _ _ h
  obtain ⟨s, hs⟩ : ∃ s, sepAllow sep = some s := by cases sep <;> simp_all [sepAllow]
  obtain ⟨h1, h2⟩ := Mac.print_sep_length sep s hs case n
  exact no_grouping sep s hs 2 [2, 2, 2, 2, 2] (by simp) ds _ h1 h2 hg

/-- The witness: with `separator(Must(b':'))` the colon is printed as `58`. -/
theorem C13_mac_witness : Mac.parseStr (.must (asc ':')) .upper (ascii "08:00:27:B2:46:C3") = .ok 0x080027B246C3 ∧
    Mac.toMacAddressString (.must (asc ':')) .upper 0x080027B246C3 = ascii "085800582758B2584658C3" ∧
    Mac.parseStr (.must (asc ':')) .upper (Mac.toMacAddressString (.must (asc ':')) .upper 0x080027B246C3) =
      .err .separatorMust := by decide +kernel

/-! ## C56 -/

/-- C56: `SeparatorMust` exactly under `separator(Must)` when the length is not that of a text with all separators. -/
theorem C56_separator_must (sep : SeparatorOption) (case : CaseOption) (v : List UInt8) :
    (Uuid.parseStr sep case v = .err .separatorMust ↔ (∃ s, sep = .must s) ∧ v.length ≠ 36) ∧
    (Mac.parseStr sep case v = .err .separatorMust ↔ (∃ s, sep = .must s) ∧ v.length ≠ 17) :=
  ⟨Uuid.parse_separatorMust sep case v, Mac.parse_separatorMust sep case v⟩

/-- C56: `SeparatorDisallow` exactly under `separator(Disallow)` when the length is not that of the bare digits. -/
theorem C56_separator_disallow (sep : SeparatorOption) (case : CaseOption) (v : List UInt8) :
    (Uuid.parseStr sep case v = .err .separatorDisallow ↔ sep = .disallow ∧ v.length ≠ 32) ∧
    (Mac.parseStr sep case v = .err .separatorDisallow ↔ sep = .disallow ∧ v.length ≠ 12) :=
  ⟨Uuid.parse_separatorDisallow sep case v, Mac.parse_separatorDisallow sep case v⟩

example : Mac.parseStr (.must (asc ':')) .any (ascii "080027B246C3") = .err .separatorMust ∧
    Mac.parseStr .disallow .any (ascii "08:00:27:B2:46:C3") = .err .separatorDisallow := by decide +kernel

/-! ## C57 -/

/-- Helper: numbers of the same number of digits are equal exactly if their digits are, up to letter case. -/
theorem value_inj (ds es : List UInt8) (hl : ds.length = es.length) (h1 : ∀ b ∈ ds, b ∈ symbols .any) (h2 : ∀ b ∈ es, b ∈ symbols .any) :
    value ds = value es ↔ ds.map lowered = es.map lowered := by
  have inj : ∀ b ∈ symbols .any, ∀ c ∈ symbols .any, digitValue b = digitValue c ↔ lowered b = lowered c := by decide +kernel
  induction ds generalizing es with
  | nil => rw [List.length_eq_zero_iff.mp hl.symm]; simp
  | cons b ds ih =>
    cases es with
    | nil => simp at hl
    | cons c es =>
      simp at hl
      have v1 := value_lt .any ds (fun x hx => h1 x (by simp [hx]))
      have v2 := value_lt .any es (fun x hx => h2 x (by simp [hx]))
      have hi := ih es hl (fun x hx => h1 x (by simp [hx])) (fun x hx => h2 x (by simp [hx]))
      have hp : 0 < 16 ^ es.length := Nat.pow_pos (by decide)
      have hb := inj b (h1 b (by simp)) c (h2 c (by simp))
      simp only [value, hl, List.map_cons, List.cons.injEq]
      refine Iff.trans ?_ (and_congr hb hi)
      rw [hl] at v1
      constructor
      · intro hv
        have e1 : digitValue b = digitValue c := by
          have := congrArg (· / 16 ^ es.length) hv
          simp only [Nat.mul_comm _ (16 ^ es.length), Nat.mul_add_div hp, Nat.div_eq_of_lt v1, Nat.div_eq_of_lt v2] at this
          simpa using this
        exact ⟨e1, by rw [e1] at hv; omega⟩
      · rintro ⟨e1, e2⟩
        rw [e1, e2]

theorem symbols_any (case : CaseOption) : ∀ b ∈ symbols case, b ∈ symbols .any := by cases case <;> decide

theorem lowered_inj (case : CaseOption) (hc : case ≠ .any) (ds es : List UInt8) (h1 : ∀ b ∈ ds, b ∈ symbols case) (h2 : ∀ b ∈ es, b ∈ symbols case)
    (h : ds.map lowered = es.map lowered) : ds = es := by
  have inj : ∀ b ∈ symbols case, ∀ c ∈ symbols case, lowered b = lowered c → b = c := by
    cases case with
    | any => exact absurd rfl hc
    | upper => decide
    | lower => decide
  induction ds generalizing es with
  | nil => rw [List.map_eq_nil_iff.1 h.symm]
  | cons b ds ih =>
    cases es with
    | nil => simp at h
    | cons c es =>
      simp only [List.map_cons, List.cons.injEq] at h
      rw [inj b (h1 b (by simp)) c (h2 c (by simp)) h.1, ih es (fun x hx => h1 x (by simp [hx])) (fun x hx => h2 x (by simp [hx])) h.2]

theorem cut_length (sep : SeparatorOption) (sizes : List Nat) (ds text : List UInt8) (h : Cut sep sizes ds text) : ds.length = sizes.sum := by
  induction sizes generalizing ds text with
  | nil => rw [h.1]; rfl
  | cons n ns ih =>
    cases ns with
    | nil => simpa using h.1
    | cons m ns =>
      obtain ⟨g, ds', s, text', h1, rfl, -, -, h2⟩ := h
      simp [h1, ih _ _ h2]

theorem cut_unique (sep : SeparatorOption) (sizes : List Nat) (ds es text : List UInt8) (h : Cut sep sizes ds text) (h' : Cut sep sizes es text) :
    ds = es := by
  induction sizes generalizing ds es text with
  | nil => rw [h.1, h'.1]
  | cons n ns ih =>
    cases ns with
    | nil => rw [← h.2, ← h'.2]
    | cons m ns =>
      obtain ⟨g, ds', s, r, h1, rfl, rfl, h3, h4⟩ := h
      obtain ⟨g', es', s', r', k1, rfl, k2, k3, k4⟩ := h'
      rw [List.append_assoc, List.append_assoc] at k2
      obtain ⟨rfl, k5⟩ := List.append_inj k2 (h1.trans k1.symm)
      have hr : r = r' := by
        cases sep with
        | must b => cases h3; cases k3; simpa using k5
        | disallow => cases h3; cases k3; simpa using k5
        | allow b =>
          rcases h3 with rfl | ⟨rfl, h3⟩ <;> rcases k3 with rfl | ⟨rfl, k3⟩
          · simpa using k5
          · exact absurd (by rw [← show _ = r' from k5]; rfl) k3
          · exact absurd (by rw [show r = _ from k5]; rfl) h3
          · simpa using k5
      subst hr
      rw [ih _ _ _ h4 k4]

/-- Helper: when two readings give the same number. -/
theorem reads_same (sep sep' : SeparatorOption) (case case' : CaseOption) (sizes : List Nat) (v w : List UInt8) (n m : Nat)
    (h1 : Reads sep case sizes v n) (h2 : Reads sep' case' sizes w m) :
    n = m ↔ ∃ ds es, Cut sep sizes ds v ∧ Cut sep' sizes es w ∧ ds.map lowered = es.map lowered := by
  obtain ⟨ds, c1, a1, rfl⟩ := h1
  obtain ⟨es, c2, a2, rfl⟩ := h2
  have key := value_inj ds es ((cut_length _ _ _ _ c1).trans (cut_length _ _ _ _ c2).symm) (fun b hb => symbols_any case b (a1 b hb))
    (fun b hb => symbols_any case' b (a2 b hb))
  rw [key]
  refine ⟨fun h => ⟨ds, es, c1, c2, h⟩, ?_⟩
  rintro ⟨ds', es', c1', c2', h⟩
  rwa [cut_unique _ _ _ _ _ c1 c1', cut_unique _ _ _ _ _ c2 c2']

/-- C57: two texts, accepted by two validators with any options, give the same value exactly if their digits are the same up to letter
case. -/
theorem C57_same_value (sep sep' : SeparatorOption) (case case' : CaseOption) (v w : List UInt8) (n m : Nat) :
    (Uuid.parseStr sep case v = .ok n → Uuid.parseStr sep' case' w = .ok m →
      (n = m ↔ ∃ ds es, Cut sep uuidSizes ds v ∧ Cut sep' uuidSizes es w ∧ ds.map lowered = es.map lowered)) ∧
    (Mac.parseStr sep case v = .ok n → Mac.parseStr sep' case' w = .ok m →
      (n = m ↔ ∃ ds es, Cut sep macSizes ds v ∧ Cut sep' macSizes es w ∧ ds.map lowered = es.map lowered)) :=
  ⟨fun h1 h2 => reads_same _ _ _ _ _ _ _ _ _ ((C08_uuid_exact _ _ _ _).1 h1) ((C08_uuid_exact _ _ _ _).1 h2),
   fun h1 h2 => reads_same _ _ _ _ _ _ _ _ _ ((C11_mac_exact _ _ _ _).1 h1) ((C11_mac_exact _ _ _ _).1 h2)⟩

/-- C57: two texts accepted by a validator without separators and with one letter case that give the same value are equal. -/
theorem C57_canonical_without_separator (case : CaseOption) (hc : case ≠ .any) (v w : List UInt8) (n : Nat) :
    (Uuid.parseStr .disallow case v = .ok n → Uuid.parseStr .disallow case w = .ok n → v = w) ∧
    (Mac.parseStr .disallow case v = .ok n → Mac.parseStr .disallow case w = .ok n → v = w) := by
  have key : ∀ sizes, (∃ ds, Grouped .disallow sizes ds v ∧ (∀ b ∈ ds, b ∈ symbols case) ∧ value ds = n) →
      (∃ ds, Grouped .disallow sizes ds w ∧ (∀ b ∈ ds, b ∈ symbols case) ∧ value ds = n) → v = w := by
    rintro sizes ⟨ds, hg1, ha1, hv1⟩ ⟨es, hg2, ha2, hv2⟩
    rw [grouped_disallow_iff] at hg1 hg2
    obtain ⟨rfl, l1⟩ := hg1
    obtain ⟨rfl, l2⟩ := hg2
    exact lowered_inj case hc _ _ ha1 ha2 ((value_inj _ _ (by rw [l1, l2]) (fun b hb => symbols_any case b (ha1 b hb))
      (fun b hb => symbols_any case b (ha2 b hb))).1 (by rw [hv1, hv2]))
  exact ⟨fun h1 h2 => key _ (Uuid.parse_sound _ _ _ _ h1) (Uuid.parse_sound _ _ _ _ h2),
    fun h1 h2 => key _ (Mac.parse_sound _ _ _ _ h1) (Mac.parse_sound _ _ _ _ h2)⟩

example : Mac.parseStr (.must (asc ':')) .upper (ascii "08:00:27:B2:46:C3") = .ok 0x080027B246C3 ∧
    Mac.parseStr (.allow (asc '-')) .any (ascii "080027-b246-C3") = .ok 0x080027B246C3 := by decide +kernel

example : Mac.parseStr .disallow .upper (ascii "080027B246C3") = .ok 0x080027B246C3 := by decide +kernel

end Verif.Props.Hex
