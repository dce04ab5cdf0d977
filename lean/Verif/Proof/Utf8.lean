import Verif.Model.BaseN

/-! # Lemmas about UTF-8 encodings -/

namespace Verif.Utf8

theorem toNat_ofNat_add (a b : Nat) (h : a + b < 256) : (UInt8.ofNat (a + b)).toNat = a + b := by
  simp only [UInt8.toNat_ofNat']; omega

/-- An ASCII character is one byte. -/
theorem encode_ascii {c : Char} (h : c.toNat < 128) : String.utf8EncodeChar c = [asc c] := by
  have h' : c.val.toNat ≤ 0x7f := by unfold Char.toNat at h; omega
  unfold String.utf8EncodeChar asc
  simp only [h', if_true]
  rfl

/-- Any other character starts with a lead byte and goes on with continuation bytes. -/
theorem encode_wide {c : Char} (h : 128 ≤ c.toNat) :
    ∃ b t, String.utf8EncodeChar c = b :: t ∧ 0xC0 ≤ b.toNat ∧ t ≠ [] ∧
      ∀ x ∈ t, 0x80 ≤ x.toNat ∧ x.toNat < 0xC0 := by
  have h' : ¬ c.val.toNat ≤ 0x7f := by unfold Char.toNat at h; omega
  unfold String.utf8EncodeChar
  simp only [h', if_false]
  generalize c.val.toNat = v
  have k : ∀ (m k : Nat), k < 256 → 0 < m → m + k ≤ 256 → ∀ n, (UInt8.ofNat (n % m + k)).toNat = n % m + k := by
    intro m k hk hm hmk n
    have := Nat.mod_lt n hm
    exact toNat_ofNat_add _ _ (by omega)
  split
  · refine ⟨_, _, rfl, ?_, by simp, ?_⟩
    · rw [k _ _ (by decide) (by decide) (by decide)]; omega
    · intro x hx
      simp only [List.mem_singleton] at hx
      subst hx
      rw [k _ _ (by decide) (by decide) (by decide)]; omega
  · split
    · refine ⟨_, _, rfl, ?_, by simp, ?_⟩
      · rw [k _ _ (by decide) (by decide) (by decide)]; omega
      · intro x hx
        simp only [List.mem_cons, List.not_mem_nil, or_false] at hx
        rcases hx with rfl | rfl <;> (rw [k _ _ (by decide) (by decide) (by decide)]; omega)
    · refine ⟨_, _, rfl, ?_, by simp, ?_⟩
      · rw [k _ _ (by decide) (by decide) (by decide)]; omega
      · intro x hx
        simp only [List.mem_cons, List.not_mem_nil, or_false] at hx
        rcases hx with rfl | rfl | rfl <;> (rw [k _ _ (by decide) (by decide) (by decide)]; omega)

end Verif.Utf8
