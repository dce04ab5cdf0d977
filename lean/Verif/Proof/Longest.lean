import Verif.Spec.Longest
import Verif.Props.Generated
import Verif.Props.Hex
import Verif.Proof.Integrations

/-!
# Lengths of accepted strings
-/

namespace Verif.Longest

open Verif.Spec.Ip Verif.StdIp
open Verif.BaseN (strBytes)

theorem dec_length (n : Nat) (h : n < 256) : (dec n).length ≤ 3 ∧ 1 ≤ (dec n).length := by
  have : ∀ n : Fin 256, (dec n.val).length ≤ 3 ∧ 1 ≤ (dec n.val).length := by decide +kernel
  exact this ⟨n, h⟩

theorem dotted_length (a b c d : Nat) (ha : a < 256) (hb : b < 256) (hc : c < 256) (hd : d < 256) : (dotted a b c d).length ≤ 15 := by
  have := dec_length a ha
  have := dec_length b hb
  have := dec_length c hc
  have := dec_length d hd
  simp only [dotted, List.length_append, show (ascii ".").length = 1 from rfl]
  omega

theorem v4_length (x : V4) : x.text.length ≤ 15 :=
  dotted_length _ _ _ _ x.a.toNat_lt x.b.toNat_lt x.c.toNat_lt x.d.toNat_lt

theorem groups_length (q : Bool) (t : List UInt8) (gs : List Nat) (h : Groups q t gs) :
    t.length + (if q then 0 else 6) ≤ 5 * gs.length + 5 ∧ 1 ≤ gs.length := by
  induction h with
  | group h => have := h.2.1; simp; omega
  | quad ha hb hc hd => have := dotted_length _ _ _ _ ha hb hc hd; simp; omega
  | cons h _ ih =>
    have := h.2.1
    simp only [List.length_append, List.length_cons, show (ascii ":").length = 1 from rfl]
    omega

theorem groups0_length (q : Bool) (t : List UInt8) (gs : List Nat) (h : Groups0 q t gs) : t.length ≤ 5 * gs.length + 5 ∧
    (q = false → t.length ≤ 5 * gs.length) := by
  rcases h with ⟨rfl, rfl, rfl⟩ | h
  · simp
  · have := groups_length q t gs h
    constructor
    · split at this <;> omega
    · rintro rfl
      simp at this
      omega

theorem v6_length (s : List UInt8) (segs : List Nat) (h : V6Text s segs) : s.length ≤ 45 := by
  rcases h with ⟨q, h, h8⟩ | ⟨q, h, t, hs, ts, rfl, h1, h2, hl, -⟩
  · have := groups_length q s segs h
    split at this <;> omega
  · have a := (groups0_length _ _ _ h1).2 rfl
    have b := (groups0_length _ _ _ h2).1
    simp only [List.length_append, show (ascii "::").length = 2 from rfl]
    omega

theorem cut_long (sep : SeparatorOption) (sizes : List Nat) (ds text : List UInt8) (h : Spec.Hex.Cut sep sizes ds text) :
    text.length ≤ sizes.sum + (if sep = .disallow then 0 else sizes.length - 1) := by
  induction sizes generalizing ds text with
  | nil => obtain ⟨-, rfl⟩ := h; simp
  | cons n ns ih =>
    cases ns with
    | nil => obtain ⟨h, rfl⟩ := h; simp [h]
    | cons m ms =>
      obtain ⟨g, ds', s, text', hg, -, rfl, ht, hc⟩ := h
      have := ih ds' text' hc
      have hs : s.length ≤ if sep = .disallow then 0 else 1 := by
        cases sep with
        | allow b => rcases ht with rfl | ⟨rfl, -⟩ <;> simp
        | must b => cases ht; simp
        | disallow => cases ht; simp
      simp only [List.length_append, List.sum_cons, List.length_cons, hg] at this ⊢
      split at this <;> rename_i e <;> simp only [e, if_true, if_false] at hs ⊢ <;> omega

theorem char_bytes (c : Char) : (String.utf8EncodeChar c).length ≤ 4 := by
  rw [String.length_utf8EncodeChar]
  exact Char.utf8Size_le_four c

theorem str_bytes (s : List Char) : (strBytes s).length ≤ 4 * s.length := by
  induction s with
  | nil => simp [strBytes]
  | cons c s ih =>
    have := char_bytes c
    rw [Ip.strBytes_cons, List.length_append, List.length_cons]
    omega

theorem str_bytes_ge (s : List Char) : s.length ≤ (strBytes s).length := by
  induction s with
  | nil => simp
  | cons c s ih =>
    have : 0 < (String.utf8EncodeChar c).length := by
      rw [String.length_utf8EncodeChar]
      exact Char.utf8Size_pos c
    rw [Ip.strBytes_cons, List.length_append, List.length_cons]
    omega

/-! ## Long strings -/

theorem ascii_str (b : List UInt8) (h : ∀ x ∈ b, x.toNat < 128) : ∃ s : List Char, strBytes s = b :=
  ⟨_, Verif.Props.Integrations.strBytes_asciiText b h⟩

theorem dropWhile_replicate {α : Type} (p : α → Bool) (n : Nat) (c : α) (h : p c = false) :
    (List.replicate n c).dropWhile p = List.replicate n c := by
  cases n with
  | zero => rfl
  | succ n => rw [List.replicate_succ, List.dropWhile_cons_of_neg (by simp [h])]

theorem trim_replicate (n : Nat) (c : Char) (h : c ∉ Spec.Line.whiteSpace) :
    Spec.Line.trim (List.replicate n c) = List.replicate n c ∧ Spec.Line.trimStart (List.replicate n c) = List.replicate n c := by
  have h0 : decide (c ∈ Spec.Line.whiteSpace) = false := by simpa using h
  have h1 := dropWhile_replicate (fun c => decide (c ∈ Spec.Line.whiteSpace)) n c h0
  constructor
  · rw [Spec.Line.trim, Spec.Line.trimStart, h1, List.reverse_replicate, h1, List.reverse_replicate]
  · rw [Spec.Line.trimStart, h1]

theorem length_replicate (k : Line.Kind) (b : Bool) (l : Attr.Length) (n : Nat) (c : Char) (hw : c ∉ Spec.Line.whiteSpace)
    (hf : 32 < c.toNat ∧ c.toNat ≠ 127) (h1 : Spec.Line.SizeOk b l.min l.max (List.replicate n c))
    (h2 : ∀ m, l.trimmedMin = some m → m ≤ Spec.Line.size b (List.replicate n c)) :
    Spec.Generated.LengthOk k (some (b, l)) (List.replicate n c) := by
  have hc : Spec.Line.Clean k (List.replicate n c) := by
    intro x hx
    rw [List.eq_of_mem_replicate hx]
    rintro ⟨h, -⟩
    omega
  refine ⟨h1, ?_, ?_⟩
  · rw [Spec.Line.TrimmedOk, (trim_replicate n c hw).1]
    exact h2
  · rw [(trim_replicate n c hw).2]
    split <;> exact hc

theorem bytes_replicate (n : Nat) (c : Char) : (strBytes (List.replicate n c)).length = n * (String.utf8EncodeChar c).length := by
  induction n with
  | zero => simp [strBytes]
  | succ n ih => rw [List.replicate_succ, Ip.strBytes_cons, List.length_append, ih, Nat.succ_mul, Nat.add_comm]

theorem zeros_value (n : Nat) (ds : List UInt8) : Spec.IntV.decValue (List.replicate n (asc '0') ++ ds) = Spec.IntV.decValue ds := by
  induction n with
  | zero => rfl
  | succ n ih =>
    rw [List.replicate_succ, List.cons_append, Spec.IntV.decValue, ih, show Spec.IntV.decDigits.idxOf (asc '0') = 0 from by decide]
    omega

/-- Leading zeros. -/
theorem long_numeral (signed : Bool) (n : Nat) (i : Int) (h : signed = true ∨ 0 ≤ i) :
    ∃ s : List UInt8, n ≤ s.length ∧ (∀ b ∈ s, b.toNat < 128) ∧ Spec.IntV.Numeral signed s i := by
  have hd : ∀ b ∈ List.replicate n (asc '0') ++ IntV.showNat i.natAbs, b ∈ Spec.IntV.decDigits := by
    intro b hb
    rcases List.mem_append.1 hb with hb | hb
    · rw [List.eq_of_mem_replicate hb]; decide
    · exact IntV.showNat_digits _ b hb
  have ha : ∀ b ∈ Spec.IntV.decDigits, b.toNat < 128 := by decide
  have hv : Spec.IntV.decValue (List.replicate n (asc '0') ++ IntV.showNat i.natAbs) = i.natAbs := by
    rw [zeros_value, IntV.showNat_value]
  have hne : List.replicate n (asc '0') ++ IntV.showNat i.natAbs ≠ [] := by simp [IntV.showNat_ne_nil]
  by_cases hi : 0 ≤ i
  · refine ⟨_, ?_, fun b hb => ha b (hd b hb), _, hne, hd, .inl ⟨.inl rfl, ?_⟩⟩
    · simp
    · rw [hv]; omega
  · refine ⟨asc '-' :: (List.replicate n (asc '0') ++ IntV.showNat i.natAbs), ?_, ?_, _, hne, hd, .inr ⟨h.resolve_right hi, rfl, ?_⟩⟩
    · simp; omega
    · intro b hb
      rcases List.mem_cons.1 hb with rfl | hb
      · decide
      · exact ha b (hd b hb)
    · rw [hv]; omega

/-- A port with leading zeros. -/
theorem long_port (n : Nat) : ∃ u : List UInt8, n ≤ u.length ∧ (∀ b ∈ u, b.toNat < 128) ∧ PortText u 80 := by
  obtain ⟨u, h1, h2, h3⟩ := long_numeral false n 80 (by omega)
  exact ⟨u, h1, h2, h3, by omega⟩

end Verif.Longest
