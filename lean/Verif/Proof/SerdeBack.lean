import Verif.Proof.Serde
import Verif.Proof.BaseNDecode

/-!
# Lemmas for the round trips through serde
-/

namespace Verif.BaseN

variable {E : Encoding}

theorem length_mapM {α β : Type} (f : α → Option β) (v : List α) (l : List β) (h : v.mapM f = some l) : l.length = v.length := by
  induction v generalizing l with
  | nil => simp at h; simp [h]
  | cons a v ih =>
    simp only [List.mapM_cons, Option.bind_eq_bind, Option.bind_eq_some_iff, Option.pure_def, Option.some.injEq] at h
    obtain ⟨b, _, m, hm, rfl⟩ := h
    simp [ih m hm]

theorem length_decodeNopad (v d : List UInt8) (h : E.decodeNopad v = some d) : d.length = E.bit * v.length / 8 := by
  unfold Encoding.decodeNopad at h
  split at h
  · split at h
    · cases h
    · rename_i vals hv
      dsimp only at h
      split at h
      · cases h
        rw [List.length_map, length_groups, length_flatMap_bitsOf, length_mapM _ _ _ hv]
      · cases h
  · cases h

theorem length_decodeBlock (hb : E.bit < 8) (blk d : List UInt8) (h : E.decodeBlock blk = some d) : d.length < blk.length := by
  unfold Encoding.decodeBlock at h
  dsimp only at h
  split at h
  · rename_i hl
    have := length_decodeNopad _ _ h
    rw [List.length_take] at this
    generalize hc : (blk.reverse.takeWhile (· == asc '=')).length = c at *
    have h1 : E.bit * min (blk.length - c) blk.length ≤ 7 * (blk.length - c) := Nat.mul_le_mul (by omega) (by omega)
    omega
  · cases h

theorem length_decodeBlocks (hb : E.bit < 8) (n : Nat) (v d : List UInt8) (hv : v.length = n * E.block) (hn : 0 < n)
    (h : E.decodeBlocks n v = some d) : d.length < v.length := by
  induction n generalizing v d with
  | zero => omega
  | succ n ih =>
    unfold Encoding.decodeBlocks at h
    split at h
    · cases h
    · rename_i d1 h1
      have l1 := length_decodeBlock hb _ _ h1
      rw [List.length_take] at l1
      split at h
      · cases h
      · rename_i r h2
        cases h
        rw [List.length_append]
        rw [Nat.succ_mul] at hv
        rcases Nat.eq_zero_or_pos n with h0 | h0
        · subst h0
          simp only [Encoding.decodeBlocks, Option.some.injEq] at h2
          subst h2
          simp only [List.length_nil]
          omega
        · have := ih (v.drop E.block) r (by rw [List.length_drop]; omega) h0 h2
          rw [List.length_drop] at this
          omega

/-- Decoding makes shorter. -/
theorem length_decodedParse (hb : E.bit < 8) (hpos : 0 < E.block) (pad : TriAllow) (v d : List UInt8) (h : decodedParse E pad v = .ok d) :
    d.length < v.length := by
  unfold decodedParse at h
  split at h
  · cases h
  · rename_i last hl
    have hne : v ≠ [] := by rintro rfl; simp at hl
    have hv : 0 < v.length := List.length_pos_iff.2 hne
    have no : ∀ d, orDecode (E.decodeNopad v) = .ok d → d.length < v.length := by
      intro d h
      cases hd : E.decodeNopad v with
      | none => rw [hd] at h; cases h
      | some x =>
        rw [hd] at h
        cases h
        have := length_decodeNopad _ _ hd
        have h1 : E.bit * v.length ≤ 7 * v.length := Nat.mul_le_mul (by omega) (Nat.le_refl _)
        omega
    have ye : ∀ d, orDecode (E.decodePad v) = .ok d → d.length < v.length := by
      intro d h
      cases hd : E.decodePad v with
      | none => rw [hd] at h; cases h
      | some x =>
        rw [hd] at h
        cases h
        unfold Encoding.decodePad at hd
        split at hd
        · rename_i hm
          have e : v.length = v.length / E.block * E.block := (Nat.div_mul_cancel (Nat.dvd_of_mod_eq_zero hm)).symm
          refine length_decodeBlocks hb _ _ _ e ?_ hd
          rcases Nat.eq_zero_or_pos (v.length / E.block) with h0 | h0
          · rw [h0] at e; omega
          · exact h0
        · cases hd
    cases pad with
    | allow =>
      dsimp only at h
      split at h
      · exact ye d h
      · exact no d h
    | must => exact ye d h
    | disallow => exact no d h

end Verif.BaseN

namespace Verif.Serde

open Verif.Spec.Serde

variable {F G α ε : Type}

theorem reply_of_data {parse : Data F G → Option (Out ε α)} {hint : Hint} {d : Deserializer F G} {x : Data F G} {v : α}
    (hf : ∃ e, d.feed hint = some e ∧ dataOf e = x) (hp : parse x = some (.ok v)) : Out.ok v = reply parse hint d := by
  obtain ⟨e, h1, rfl⟩ := hf
  simp [reply, h1, hp]

theorem text_back {parse : List Char → Out ε α} {body : Body F G α} {hint : Hint} (hh : hint ≠ .u128)
    (hb : ∀ d o, Outcome body d o ↔ o = reply (texts parse) hint d) (fmt : Format F G) (keeps : KeepsText fmt) (s : List Char) (v : α)
    (hp : parse s = .ok v) : ReadsBack body fmt (.str s) v :=
  (hb _ _).2 (reply_of_data (keeps s hint hh) (by simp [texts, hp]))

end Verif.Serde
