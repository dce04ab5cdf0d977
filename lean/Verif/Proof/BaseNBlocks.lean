import Verif.Proof.BaseNPad

/-!
# The padded decoder, for every text
-/

namespace Verif.BaseN

open Verif.Spec.BaseN

variable {E : Encoding} {L : Notation}

theorem decodeBlocks_append (E : Encoding) (n m : Nat) (a b : List UInt8) (ha : a.length = E.block * n) :
    E.decodeBlocks (n + m) (a ++ b) =
      match E.decodeBlocks n a with
      | none => none
      | some d =>
        match E.decodeBlocks m b with
        | none => none
        | some r => some (d ++ r) := by
  induction n generalizing a with
  | zero =>
    have : a = [] := List.eq_nil_of_length_eq_zero (by simpa using ha)
    subst this
    simp only [Nat.zero_add, List.nil_append, Encoding.decodeBlocks]
    cases E.decodeBlocks m b <;> simp
  | succ n ih =>
    have hlen : E.block ≤ a.length := by rw [ha, Nat.mul_succ]; omega
    rw [show n + 1 + m = (n + m) + 1 by omega]
    simp only [Encoding.decodeBlocks]
    rw [List.take_append_of_le_length hlen, List.drop_append_of_le_length hlen,
      ih (a.drop E.block) (by rw [List.length_drop, ha, Nat.mul_succ]; omega)]
    cases E.decodeBlock (a.take E.block) with
    | none => rfl
    | some d =>
      simp only
      cases E.decodeBlocks n (a.drop E.block) with
      | none => rfl
      | some r =>
        simp only
        cases E.decodeBlocks m b <;> simp

theorem decodePad_append (C : Codec E L) (a b x : List UInt8) (ha : E.decodePad a = some x) :
    E.decodePad (a ++ b) = (E.decodePad b).map (x ++ ·) := by
  have hpos := C.pos
  rw [← C.block] at hpos
  unfold Encoding.decodePad at ha ⊢
  split at ha
  · rename_i hm
    obtain ⟨n, hn⟩ := Nat.dvd_of_mod_eq_zero hm
    rw [hn, Nat.mul_div_cancel_left _ hpos] at ha
    rw [List.length_append, hn, Nat.mul_add_mod, Nat.mul_add_div hpos]
    split
    · rw [decodeBlocks_append E n _ a b hn, ha]
      cases E.decodeBlocks (b.length / E.block) b <;> simp
    · rfl
  · cases ha

theorem encodePad_of_decodeBlock (C : Codec E L) (blk d : List UInt8) (hlen : blk.length = L.block)
    (h : E.decodeBlock blk = some d) : d ≠ [] ∧ encodePad L d = blk := by
  unfold Encoding.decodeBlock at h
  simp only at h
  split at h
  · rename_i hc
    have he := encodeNopad_of_decodeNopad C _ _ h
    have hs : blk = blk.take (blk.length - (blk.reverse.takeWhile (· == asc '=')).length) ++
        List.replicate (blk.reverse.takeWhile (· == asc '=')).length padByte := by
      have h1 := List.takeWhile_append_dropWhile (p := (· == asc '=')) (l := blk.reverse)
      have h2 : blk = (blk.reverse.dropWhile (· == asc '=')).reverse ++ (blk.reverse.takeWhile (· == asc '=')).reverse := by
        rw [← List.reverse_append, h1, List.reverse_reverse]
      have h3 : (blk.reverse.takeWhile (· == asc '=')).reverse =
          List.replicate (blk.reverse.takeWhile (· == asc '=')).length padByte := by
        refine List.eq_replicate_iff.2 ⟨by simp, fun x hx => ?_⟩
        have := List.all_takeWhile (p := (· == asc '=')) (l := blk.reverse)
        rw [List.all_eq_true] at this
        have := this x (List.mem_reverse.1 hx)
        rw [← asc_eq]
        simpa using this
      rw [h3] at h2
      generalize (blk.reverse.takeWhile (· == asc '=')).length = k at *
      generalize (blk.reverse.dropWhile (· == asc '=')).reverse = body at *
      subst h2
      simp
    generalize (blk.reverse.takeWhile (· == asc '=')).length = k at *
    have hk : (blk.take (blk.length - k)).length = blk.length - k := by rw [List.length_take]; omega
    refine ⟨?_, ?_⟩
    · rw [← encodeNopad_ne_nil C, he]
      intro h0
      rw [h0] at hk
      simp at hk
      omega
    · unfold encodePad
      simp only [he, hk]
      conv => rhs; rw [hs]
      congr 2
      have hle : k ≤ blk.length := by
        have := congrArg List.length hs
        rw [List.length_append, hk, List.length_replicate] at this
        omega
      rw [← hlen]
      rcases Nat.eq_zero_or_pos k with rfl | hkp
      · simp
      · rw [Nat.mod_eq_of_lt (a := blk.length - k) (by omega), Nat.sub_sub_self hle, Nat.mod_eq_of_lt (by omega)]
  · cases h

/-- The padded decoder accepts the concatenations of padded encodings. -/
theorem decodePad_iff (C : Codec E L) (v d : List UInt8) :
    E.decodePad v = some d ↔ ∃ ds : List (List UInt8), (∀ x ∈ ds, x ≠ []) ∧ v = ds.flatMap (encodePad L) ∧ d = ds.flatten := by
  constructor
  · intro h
    unfold Encoding.decodePad at h
    split at h
    · rename_i hm
      obtain ⟨n, hn⟩ := Nat.dvd_of_mod_eq_zero hm
      have hpos := C.pos
      rw [hn, C.block, Nat.mul_div_cancel_left _ hpos] at h
      clear hm
      induction n generalizing v d with
      | zero =>
        have : v = [] := List.eq_nil_of_length_eq_zero (by simpa using hn)
        subst this
        simp only [Encoding.decodeBlocks, Option.some.injEq] at h
        exact ⟨[], by simp, rfl, h.symm⟩
      | succ n ih =>
        have hlen : E.block ≤ v.length := by rw [hn, Nat.mul_succ]; omega
        simp only [Encoding.decodeBlocks] at h
        split at h
        · cases h
        · rename_i d1 h1
          split at h
          · cases h
          · rename_i r hr
            cases h
            obtain ⟨ds, hne, hv, hd⟩ := ih (v.drop E.block) r hr (by rw [List.length_drop, hn, Nat.mul_succ]; omega)
            obtain ⟨hx, he⟩ := encodePad_of_decodeBlock C _ _ (by rw [List.length_take, ← C.block]; omega) h1
            refine ⟨d1 :: ds, ?_, ?_, by simp [hd]⟩
            · intro x hm
              rcases List.mem_cons.1 hm with rfl | hm
              · exact hx
              · exact hne x hm
            · rw [List.flatMap_cons, he, ← hv, List.take_append_drop]
    · cases h
  · rintro ⟨ds, -, rfl, rfl⟩
    induction ds with
    | nil => simp [Encoding.decodePad, Encoding.decodeBlocks]
    | cons x ds ih => rw [List.flatMap_cons, decodePad_append C _ _ x (decodePad_encodePad C x), ih]; rfl

end Verif.BaseN
