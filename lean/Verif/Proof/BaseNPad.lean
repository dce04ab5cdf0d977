import Verif.Proof.BaseNDecode

/-! Helper lemmas: padded texts, and texts of the encoders seen by the scanner. -/

namespace Verif.BaseN

open Verif.Spec.BaseN (Notation padByte number encodeNopad encodePad Accepts)

variable {E : Encoding} {L : Notation}

/-- A whole block of padding is never decoded. -/
theorem decodeBlocks_none (C : Codec E L) (n : Nat) (body : List UInt8) (k : Nat) (hk : L.block ≤ k)
    (hlen : body.length + k = L.block * n) : E.decodeBlocks n (body ++ List.replicate k padByte) = none := by
  have hpos := C.pos
  induction n generalizing body k with
  | zero => omega
  | succ n ih =>
    rw [Nat.mul_succ] at hlen
    unfold Encoding.decodeBlocks
    rw [C.block]
    by_cases hge : L.block ≤ body.length
    · obtain ⟨a, b, rfl, ha⟩ : ∃ a b, body = a ++ b ∧ a.length = L.block :=
        ⟨body.take L.block, body.drop L.block, (List.take_append_drop _ _).symm, by simp; omega⟩
      rw [List.append_assoc, List.take_left' ha, List.drop_left' ha, ih b k hk (by simp at hlen; omega)]
      cases E.decodeBlock a <;> rfl
    · by_cases hb : body.length = 0
      · have hb' : body = [] := List.length_eq_zero_iff.mp hb
        subst hb'
        rw [List.nil_append, List.take_replicate, Nat.min_eq_left hk]
        have : E.decodeBlock (List.replicate L.block padByte) = none := by
          have := takeWhile_pad [] L.block (by simp)
          simp only [List.nil_append] at this
          unfold Encoding.decodeBlock
          simp only [this]
          rw [if_neg (by simp)]
        rw [this]
      · obtain ⟨j, hj⟩ : ∃ j, k = (L.block - body.length) + j := ⟨k - (L.block - body.length), by omega⟩
        have hn : 0 < n := by
          rcases Nat.eq_zero_or_pos n with h0 | h0
          · subst h0; omega
          · exact h0
        have hjb : L.block ≤ j := by
          have : L.block ≤ L.block * n := Nat.le_mul_of_pos_right _ hn
          omega
        rw [hj, ← List.replicate_append_replicate, ← List.append_assoc]
        have hl : (body ++ List.replicate (L.block - body.length) padByte).length = L.block := by simp; omega
        rw [List.take_left' hl, List.drop_left' hl]
        have := ih [] j hjb (by simp; omega)
        rw [List.nil_append] at this
        rw [this]
        cases E.decodeBlock (body ++ List.replicate (L.block - body.length) padByte) <;> rfl

/-- Texts with all their `=` at the end. -/
theorem split_pad (v : List UInt8) (h : ∀ a b, v = a ++ padByte :: b → ∀ x ∈ b, x = padByte) :
    ∃ body k, v = body ++ List.replicate k padByte ∧ padByte ∉ body := by
  induction v with
  | nil => exact ⟨[], 0, rfl, by simp⟩
  | cons x v ih =>
    by_cases hx : x = padByte
    · subst hx
      have := h [] v rfl
      refine ⟨[], v.length + 1, ?_, by simp⟩
      rw [List.nil_append, List.replicate_succ]
      congr 1
      rw [List.eq_replicate_iff]
      exact ⟨rfl, this⟩
    · obtain ⟨body, k, rfl, hb⟩ := ih (fun a b hv => h (x :: a) b (by simp [hv]))
      exact ⟨x :: body, k, by simp, by simp [hb, Ne.symm hx]⟩

/-- Padded texts without inner padding are the canonical encodings. -/
theorem encodePad_of_decodePad (C : Codec E L) (v d : List UInt8) (h : E.decodePad v = some d)
    (hin : ∀ a b, v = a ++ padByte :: b → ∀ x ∈ b, x = padByte) : encodePad L d = v := by
  obtain ⟨body, k, rfl, hb⟩ := split_pad v hin
  have hpos := C.pos
  have hmod : (body.length + k) % L.block = 0 := by
    unfold Encoding.decodePad at h
    rw [C.block] at h
    split at h
    · rename_i h1; simpa using h1
    · cases h
  have hdm := Nat.div_add_mod (body.length + k) L.block
  have hk : k < L.block := by
    rcases Nat.lt_or_ge k L.block with h1 | h1
    · exact h1
    · exfalso
      unfold Encoding.decodePad at h
      rw [C.block, List.length_append, List.length_replicate, if_pos hmod,
        decodeBlocks_none C _ body k h1 (by omega)] at h
      cases h
  rw [decodePad_eq C body k hk hmod hb] at h
  have he := encodeNopad_of_decodeNopad C _ _ h
  unfold encodePad
  simp only [he]
  congr 1
  have h1 := padCount hpos body.length
  congr 1
  -- both complete the last block
  have hr := Nat.mod_lt body.length hpos
  have h2 : (body.length % L.block + k) % L.block = 0 := by rw [Nat.mod_add_mod]; exact hmod
  by_cases h0 : body.length % L.block = 0
  · rw [h0, Nat.zero_add, Nat.mod_eq_of_lt hk] at h2
    rw [h0, h2]; simp
  · rw [Nat.mod_eq_of_lt (by omega)]
    have h3 := Nat.div_add_mod (body.length % L.block + k) L.block
    have h4 : (body.length % L.block + k) / L.block < 2 := by
      rw [Nat.div_lt_iff_lt_mul hpos]; omega
    generalize (body.length % L.block + k) / L.block = q at h3 h4
    have : q = 0 ∨ q = 1 := by omega
    rcases this with rfl | rfl
    · simp at h3; omega
    · omega

/-- The numbers of symbols the encoder stops with. -/
structure Tails (L : Notation) : Prop where
  tails : ∀ r < L.block, L.bit * r % 8 < L.bit → r = 0 ∨ r ∈ L.tails
  symbol : ∀ n < 2 ^ L.bit, L.alphabet.getD n 0 ∈ L.alphabet

theorem tails64 : Tails Spec.BaseN.base64 := ⟨by decide, by decide +kernel⟩
theorem tails64Url : Tails Spec.BaseN.base64Url := ⟨by decide, by decide +kernel⟩
theorem tails32 : Tails Spec.BaseN.base32 := ⟨by decide, by decide +kernel⟩

theorem encodeNopad_mem (T : Tails L) (d : List UInt8) : ∀ b ∈ encodeNopad L d, b ∈ L.alphabet := by
  intro b hb
  unfold encodeNopad at hb
  simp only [List.mem_map] at hb
  obtain ⟨j, _, rfl⟩ := hb
  exact T.symbol _ (Nat.mod_lt _ (Nat.two_pow_pos _))

theorem encodeNopad_tail (C : Codec E L) (T : Tails L) (d : List UInt8) :
    (encodeNopad L d).length % L.block = 0 ∨ (encodeNopad L d).length % L.block ∈ L.tails := by
  apply T.tails _ (Nat.mod_lt _ C.pos)
  rw [length_encodeNopad]
  obtain ⟨k, hk, hkl⟩ := symbols_count C.bitPos d.length
  generalize (8 * d.length + L.bit - 1) / L.bit = m at *
  have h8 := C.bitLe
  have h1 := Nat.div_add_mod m L.block
  have h2 : L.bit * m % 8 = L.bit * (m % L.block) % 8 := by
    conv => lhs; rw [← h1]
    rw [Nat.mul_add, Nat.add_mod, ← Nat.mul_assoc, Nat.mul_mod, C.full]; simp
  rw [← h2, hk]
  omega

theorem encodeNopad_ne_nil (C : Codec E L) (d : List UInt8) : encodeNopad L d ≠ [] ↔ d ≠ [] := by
  have hl := length_encodeNopad (L := L) d
  obtain ⟨k, hk, hkl⟩ := symbols_count C.bitPos d.length
  rw [← hl] at hk
  have hb := C.bitPos
  have e : ∀ l : List UInt8, l ≠ [] ↔ l.length ≠ 0 := by intro l; simp
  rw [e, e]
  constructor
  · intro h h0
    rw [h0] at hk
    have : L.bit ≤ L.bit * (encodeNopad L d).length := Nat.le_mul_of_pos_right _ (by omega)
    omega
  · intro h h0
    rw [h0] at hk
    simp at hk; omega

theorem accepts_encodeNopad (C : Codec E L) (T : Tails L) (pad : TriAllow) (hp : pad ≠ .must) (d : List UInt8) (hd : d ≠ []) :
    Accepts L pad (encodeNopad L d) := by
  refine ⟨(encodeNopad_ne_nil C d).mpr hd, encodeNopad L d, 0, by simp, encodeNopad_mem T d, .inl ⟨rfl, fun h => absurd h hp⟩⟩

theorem accepts_encodePad (C : Codec E L) (T : Tails L) (pad : TriAllow) (hp : pad ≠ .disallow) (d : List UInt8) (hd : d ≠ []) :
    Accepts L pad (encodePad L d) := by
  obtain ⟨h1, h2⟩ := padCount C.pos (encodeNopad L d).length
  have hne := (encodeNopad_ne_nil C d).mpr hd
  have hmod : (encodePad L d).length % L.block = 0 := by unfold encodePad; simpa using h2
  refine ⟨by unfold encodePad; simp [hne], encodeNopad L d, (L.block - (encodeNopad L d).length % L.block) % L.block, rfl,
    encodeNopad_mem T d, ?_⟩
  rcases encodeNopad_tail C T d with h | h
  · left
    refine ⟨by rw [h]; simp, fun _ => hmod⟩
  · by_cases h0 : (encodeNopad L d).length % L.block = 0
    · left
      refine ⟨by rw [h0]; simp, fun _ => hmod⟩
    · right
      have := Nat.mod_lt (encodeNopad L d).length C.pos
      refine ⟨?_, h1, hp, hmod, h⟩
      rw [Nat.mod_eq_of_lt (by omega)]; omega

end Verif.BaseN
