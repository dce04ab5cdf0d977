import Verif.Proof.MacUuid

/-! Helper lemmas on the printed texts. -/

namespace Verif.Hex

open Verif.Spec.Hex

theorem hex2 (case : CaseOption) (n i : Nat) :
    (fmtHex (caseUpper case) 2 (leByte n i)).length = 2 ∧ ∀ b ∈ fmtHex (caseUpper case) 2 (leByte n i), 48 ≤ b.toNat := by
  obtain ⟨h1, h2, _⟩ := fmtHex_spec case 2 (leByte n i) (by decide) (by decide) (leByte_lt n i)
  exact ⟨h1, fun b hb => symbols_ge case b (h2 b hb)⟩

/-- A text of digits above `'0'` in which a one-byte decimal separator was printed contains no separator. -/
theorem sep_notMem (s : UInt8) (text : List UInt8) (hs : s.toNat < 10) (h : ∀ b ∈ text, 48 ≤ b.toNat) : s ∉ text := by
  intro hm
  have := h s hm
  omega

theorem no_grouping (sep : SeparatorOption) (s : UInt8) (hsep : sepAllow sep = some s) (n : Nat) (ns : List Nat) (hns : ns ≠ [])
    (ds text : List UInt8)
    (hlen : text.length = (n :: ns).sum + ns.length * (fmtU8 s).length) (h48 : ∀ b ∈ text, 48 ≤ b.toNat)
    (hg : Grouped sep (n :: ns) ds text) : False := by
  have hpos : 0 < ns.length := List.length_pos_iff.mpr hns
  have hl := fmtU8_length s
  have hone : s.toNat < 10 → text.length = (n :: ns).sum + ns.length := by
    intro h; rw [if_pos h] at hl; rw [hlen, hl]; simp
  have htwo : ¬ s.toNat < 10 → (n :: ns).sum + ns.length < text.length := by
    intro h
    rw [if_neg h] at hl
    have : 2 ≤ (fmtU8 s).length := by split at hl <;> omega
    have : ns.length * 2 ≤ ns.length * (fmtU8 s).length := Nat.mul_le_mul_left _ this
    omega
  cases sep with
  | disallow => simp [sepAllow] at hsep
  | must c =>
    simp [sepAllow] at hsep
    subst hsep
    have hm := grouped_must_length _ _ _ _ _ hg
    by_cases h : c.toNat < 10
    · obtain ⟨m, ns', rfl⟩ : ∃ m ns', ns = m :: ns' := by cases ns <;> simp_all
      obtain ⟨g, ds', s, text', _, _, rfl, rfl, _⟩ := hg
      exact sep_notMem c _ h h48 (by simp)
    · have := htwo h; omega
  | allow c =>
    simp [sepAllow] at hsep
    subst hsep
    have hm := grouped_allow_length _ _ _ _ _ hg
    by_cases h : c.toNat < 10
    · have hnot := sep_notMem c _ h h48
      have he := grouped_allow_no_sep _ _ _ _ hg hnot
      have hd := grouped_ds_length _ _ _ _ hg
      have := hone h
      rw [he, hd] at this
      omega
    · have := htwo h; omega

end Verif.Hex

namespace Verif.Mac

open Verif.Hex Verif.Spec.Hex

theorem print_sep_length (sep : SeparatorOption) (s : UInt8) (hs : sepAllow sep = some s) (case : CaseOption) (n : Nat) :
    (toMacAddressString sep case n).length = macSizes.sum + 5 * (fmtU8 s).length ∧
    ∀ b ∈ toMacAddressString sep case n, 48 ≤ b.toNat := by
  unfold toMacAddressString
  simp only [hs]
  have h := hex2 case n
  refine ⟨?_, ?_⟩
  · simp only [List.length_append, (h _).1, macSizes, List.sum_cons, List.sum_nil]; omega
  · intro b hb
    simp only [List.mem_append] at hb
    have := fmtU8_ge s b
    have h0 := (h 0).2 b
    have h1 := (h 1).2 b
    have h2 := (h 2).2 b
    have h3 := (h 3).2 b
    have h4 := (h 4).2 b
    have h5 := (h 5).2 b
    clear h
    simp only [or_assoc] at hb
    rcases hb with h | h | h | h | h | h | h | h | h | h | h
    all_goals first | exact h0 h | exact h1 h | exact h2 h | exact h3 h | exact h4 h | exact h5 h | exact this h

end Verif.Mac

namespace Verif.Uuid

open Verif.Hex Verif.Spec.Hex

theorem print_sep_length (sep : SeparatorOption) (s : UInt8) (hs : sepAllow sep = some s) (case : CaseOption) (n : Nat) :
    (toUuidString sep case n).length = uuidSizes.sum + 4 * (fmtU8 s).length ∧
    ∀ b ∈ toUuidString sep case n, 48 ≤ b.toNat := by
  unfold toUuidString
  simp only [hs]
  have h := hex2 case n
  refine ⟨?_, ?_⟩
  · simp only [List.length_append, (h _).1, uuidSizes, List.sum_cons, List.sum_nil]; omega
  · intro b hb
    simp only [List.mem_append] at hb
    have h' : ∀ i, b ∈ fmtHex (caseUpper case) 2 (leByte n i) → 48 ≤ b.toNat := fun i => (h i).2 b
    have := fmtU8_ge s b
    simp only [or_assoc] at hb
    rcases hb with h | h | h | h | h | h | h | h | h | h | h | h | h | h | h | h | h | h | h | h
    all_goals first | exact h' _ h | exact this h

end Verif.Uuid
