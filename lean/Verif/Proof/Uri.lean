import Verif.Spec.Uri
import Verif.Proof.HostValid
import Verif.Proof.Int

/-!
# Lemmas about URLs
-/

namespace Verif.Uri

open Verif.Spec.Uri Verif.Spec.Ip Verif.StdIp Verif.Spec
open Verif.IntV (showNat revDec)

theorem digit_char (d : Nat) (h : d < 10) : (48 + d).toUInt8 = asc (Nat.digitChar d) := by
  have key : ∀ d : Fin 10, (48 + d.val).toUInt8 = asc (Nat.digitChar d.val) := by decide +kernel
  exact key ⟨d, h⟩

theorem revDec_dec (fuel n : Nat) (h : n < fuel) : (revDec fuel n).reverse.map (fun d => (48 + d).toUInt8) = dec n := by
  induction fuel generalizing n with
  | zero => omega
  | succ f ih =>
    rw [revDec]
    split
    · rename_i hn
      rw [dec, Nat.toDigits_of_lt_base hn]
      simp only [List.reverse_singleton, List.map_singleton, digit_char n hn]
    · rename_i hn
      rw [dec, Nat.toDigits_of_base_le (by decide) (by omega), List.reverse_cons, List.map_append, List.map_append, ih (n / 10) (by omega)]
      simp only [dec, List.map_singleton, digit_char (n % 10) (by omega)]

theorem showNat_dec (n : Nat) : showNat n = dec n := revDec_dec (n + 1) n (by omega)

theorem cut_append (stops s r : List UInt8) (hs : ∀ b ∈ s, b ∉ stops) (hr : r = [] ∨ ∃ b t, r = b :: t ∧ b ∈ stops) :
    cut stops (s ++ r) = (s, r) := by
  have h1 : ∀ b ∈ s, (!stops.contains b) = true := fun b hb => by simpa using hs b hb
  unfold cut
  rw [List.takeWhile_append_of_pos h1, List.dropWhile_append_of_pos h1]
  rcases hr with rfl | ⟨b, t, rfl, hb⟩
  · simp
  · simp [List.takeWhile, List.dropWhile, hb]

/-- A text with these parts stays an authority. -/
theorem stays_of (a host : List UInt8) (port : Option Nat) (hc : ∀ b ∈ a, b ∉ ascii "/?#" ∧ b ≠ asc '@') (hp : hostPort a = (host, port.map dec)) :
    Stays a host port := by
  intro scheme rest h1 h2 h3
  have e1 : cut (ascii ":/?#") (scheme ++ (ascii "://" ++ a ++ rest)) = (scheme, ascii "://" ++ a ++ rest) :=
    cut_append _ _ _ h2 (.inr ⟨asc ':', _, rfl, by decide⟩)
  have e2 : cut (ascii "/?#") (a ++ rest) = (a, rest) := cut_append _ _ _ (fun b hb => (hc b hb).1) h3
  have e3 : cut (ascii "@") a = (a, []) := by
    have := cut_append (ascii "@") a [] (fun b hb hm => (hc b hb).2 (by simpa [ascii, asc] using hm)) (.inl rfl)
    rwa [List.append_nil] at this
  have e4 : (ascii "://" ++ a ++ rest).take 3 = ascii "://" := by simp [ascii]
  have e5 : (ascii "://" ++ a ++ rest).drop 3 = a ++ rest := by simp [ascii]
  unfold Spec.Uri.read
  rw [show scheme ++ ascii "://" ++ a ++ rest = scheme ++ (ascii "://" ++ a ++ rest) by simp, e1]
  simp only [e4, e5, h1, ne_eq, not_false_eq_true, and_self, if_true, e2, userinfo, e3, hp]

/-- The text of a port. -/
def portTail : Option Nat → List UInt8
  | none => []
  | some n => asc ':' :: dec n

theorem dec_bytes (n : Nat) : ∀ b ∈ dec n, b ∈ IntV.decDigits := by
  rw [← showNat_dec]; exact IntV.showNat_digits n

theorem portTail_clean (p : Option Nat) : ∀ b ∈ portTail p, b ∉ ascii "/?#" ∧ b ≠ asc '@' := by
  intro b hb
  cases p with
  | none => cases hb
  | some n =>
    rcases List.mem_cons.1 hb with rfl | hb
    · decide
    · exact (by decide : ∀ b ∈ IntV.decDigits, b ∉ ascii "/?#" ∧ b ≠ asc '@') b (dec_bytes n b hb)

theorem stays_name (h : List UInt8) (p : Option Nat) (hc : ∀ b ∈ h, b ∉ ascii "/?#" ∧ b ≠ asc '@') (hcol : asc ':' ∉ h)
    (hb : h.head? ≠ some (asc '[')) : Stays (h ++ portTail p) h p := by
  have hh : (h ++ portTail p).head? ≠ some (asc '[') := by
    cases h with
    | nil => cases p <;> simp [portTail, asc]
    | cons a t => simpa using hb
  apply stays_of
  · intro b hm
    rcases List.mem_append.1 hm with hm | hm
    · exact hc b hm
    · exact portTail_clean p b hm
  · have e : cut (ascii ":") (h ++ portTail p) = (h, portTail p) := by
      refine cut_append _ _ _ (fun b hb hm => hcol ?_) ?_
      · have : b = asc ':' := by simpa [ascii, asc] using hm
        exact this ▸ hb
      · cases p with
        | none => exact .inl rfl
        | some n => exact .inr ⟨_, _, rfl, by decide⟩
    unfold hostPort
    simp only [hh, if_false, e]
    cases p <;> rfl

theorem stays_v6 (t : List UInt8) (segs : List Nat) (p : Option Nat) (ht : V6Text t segs) :
    Stays (ascii "[" ++ t ++ ascii "]" ++ portTail p) (ascii "[" ++ t ++ ascii "]") p := by
  apply stays_of
  · intro b hm
    rcases List.mem_append.1 hm with hm | hm
    · rcases List.mem_append.1 hm with hm | hm
      · rcases List.mem_append.1 hm with hm | hm
        · exact (by decide : ∀ b ∈ ascii "[", b ∉ ascii "/?#" ∧ b ≠ asc '@') b hm
        · rcases Ip.v6Text_bytes t segs ht b hm with h | rfl | rfl
          · exact (by decide : ∀ b ∈ Hex.symbols .any, b ∉ ascii "/?#" ∧ b ≠ asc '@') b h
          · decide
          · decide
      · exact (by decide : ∀ b ∈ ascii "]", b ∉ ascii "/?#" ∧ b ≠ asc '@') b hm
    · exact portTail_clean p b hm
  · have e : cut (ascii "]") (ascii "[" ++ t ++ (ascii "]" ++ portTail p)) = (ascii "[" ++ t, ascii "]" ++ portTail p) := by
      refine cut_append _ _ _ (fun b hb hm => ?_) (.inr ⟨asc ']', _, rfl, by decide⟩)
      have hbe : b = asc ']' := by simpa [ascii, asc] using hm
      subst hbe
      rcases List.mem_append.1 hb with hb | hb
      · revert hb; decide
      · exact (Ip.v6Text_no_bracket t segs ht).2 hb
    have e1 : ascii "[" ++ t ++ ascii "]" ++ portTail p = ascii "[" ++ t ++ (ascii "]" ++ portTail p) := by simp
    have e2 : (ascii "[" ++ t ++ (ascii "]" ++ portTail p)).head? = some (asc '[') := by simp [ascii]
    have e3 : (ascii "]" ++ portTail p).take 1 = ascii "]" := by simp [ascii]
    have e4 : (ascii "]" ++ portTail p).drop 1 = portTail p := by simp [ascii]
    unfold hostPort
    rw [e1]
    simp only [e2, if_true, e, e3, e4]
    cases p <;> rfl

end Verif.Uri
