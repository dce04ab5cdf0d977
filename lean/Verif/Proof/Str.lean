import Verif.Model.Ip
import Verif.Model.BaseN
import Verif.Proof.Utf8

/-! Slices of strings, and the last occurrence of a byte. -/

namespace Verif.Ip

open Verif.BaseN

/-- The bytes of a `&str`. -/
def Str (s : List UInt8) : Prop := ∃ cs : List Char, s = strBytes cs

theorem strBytes_cons (c : Char) (cs : List Char) : strBytes (c :: cs) = String.utf8EncodeChar c ++ strBytes cs := rfl

/-- The first byte of a string starts a character. -/
theorem str_head (s : List UInt8) (h : Str s) (b : UInt8) (hb : s.head? = some b) : b.toNat < 128 ∨ 192 ≤ b.toNat := by
  obtain ⟨cs, rfl⟩ := h
  cases cs with
  | nil => cases hb
  | cons c cs =>
    rw [strBytes_cons] at hb
    by_cases hc : c.toNat < 128
    · rw [Utf8.encode_ascii hc] at hb
      simp only [List.singleton_append, List.head?_cons, Option.some.injEq] at hb
      subst hb
      left
      show (c.toNat.toUInt8).toNat < 128
      simp only [Nat.toUInt8_eq, UInt8.toNat_ofNat']; omega
    · obtain ⟨x, t, he, h1, _⟩ := Utf8.encode_wide (c := c) (by omega)
      rw [he] at hb
      simp only [List.cons_append, List.head?_cons, Option.some.injEq] at hb
      subst hb
      right; exact h1

/-- Cutting a string at an ASCII byte gives two strings. -/
theorem str_cut (p t : List UInt8) (b : UInt8) (hb : b.toNat < 128) (h : Str (p ++ b :: t)) : Str p ∧ Str t := by
  obtain ⟨cs, h⟩ := h
  induction cs generalizing p with
  | nil => simp [strBytes] at h
  | cons c cs ih =>
    rw [strBytes_cons] at h
    by_cases hc : c.toNat < 128
    · rw [Utf8.encode_ascii hc] at h
      cases p with
      | nil =>
        simp only [List.nil_append, List.singleton_append, List.cons.injEq] at h
        exact ⟨⟨[], rfl⟩, ⟨cs, h.2⟩⟩
      | cons x p =>
        simp only [List.cons_append, List.singleton_append, List.cons.injEq] at h
        obtain ⟨⟨ds, rfl⟩, ht⟩ := ih p h.2
        refine ⟨⟨c :: ds, ?_⟩, ht⟩
        rw [strBytes_cons, Utf8.encode_ascii hc, h.1]; rfl
    · obtain ⟨x, u, he, h1, _, h3⟩ := Utf8.encode_wide (c := c) (by omega)
      have hall : ∀ y ∈ String.utf8EncodeChar c, 128 ≤ y.toNat := by
        rw [he]; intro y hy
        rcases List.mem_cons.1 hy with rfl | hy
        · omega
        · exact (h3 y hy).1
      have hlen : (String.utf8EncodeChar c).length ≤ p.length := by
        rcases Nat.lt_or_ge p.length (String.utf8EncodeChar c).length with hl | hl
        · exfalso
          have e1 : (p ++ b :: t)[p.length]? = some b := by simp
          rw [h, List.getElem?_append_left hl] at e1
          have := hall b (List.mem_of_getElem? e1)
          omega
        · exact hl
      obtain ⟨p', rfl⟩ : ∃ p', p = String.utf8EncodeChar c ++ p' := by
        have e : (p ++ b :: t).take (String.utf8EncodeChar c).length = String.utf8EncodeChar c := by rw [h]; simp
        rw [List.take_append_of_le_length hlen] at e
        refine ⟨p.drop (String.utf8EncodeChar c).length, ?_⟩
        have := List.take_append_drop (String.utf8EncodeChar c).length p
        rw [e] at this
        exact this.symm
      rw [List.append_assoc] at h
      obtain ⟨⟨ds, rfl⟩, ht⟩ := ih p' (List.append_cancel_left h)
      exact ⟨⟨c :: ds, rfl⟩, ht⟩

theorem str_append (p t : List UInt8) (hp : Str p) (ht : Str t) : Str (p ++ t) := by
  obtain ⟨cs, rfl⟩ := hp
  obtain ⟨ds, rfl⟩ := ht
  exact ⟨cs ++ ds, by simp [strBytes]⟩

/-- ASCII bytes are a string. -/
theorem str_ascii (s : List UInt8) (h : ∀ b ∈ s, b.toNat < 128) : Str s := by
  induction s with
  | nil => exact ⟨[], rfl⟩
  | cons b s ih =>
    obtain ⟨cs, rfl⟩ := ih fun x hx => h x (List.mem_cons_of_mem _ hx)
    have hb := h b (by simp)
    have hn : (Char.ofNat b.toNat).toNat = b.toNat := by
      have hv : b.toNat.isValidChar := by left; omega
      simp [Char.ofNat, hv, Char.toNat, Char.ofNatAux]
    refine ⟨Char.ofNat b.toNat :: cs, ?_⟩
    rw [strBytes_cons, Utf8.encode_ascii (by omega)]
    simp [asc, hn]

/-! ### Slices -/

/-- A cut between two strings is a character boundary. -/
theorem boundary_cut (p t : List UInt8) (ht : Str t) : isCharBoundary (p ++ t) p.length = true := by
  unfold isCharBoundary
  cases t with
  | nil => simp
  | cons b t =>
    have := str_head _ ht b rfl
    simp [this]

theorem boundary_byte (p t : List UInt8) (b : UInt8) (hb : b.toNat < 128) : isCharBoundary (p ++ b :: t) p.length = true := by
  unfold isCharBoundary
  simp [hb]

/-- `&s[..i]`, `&s[i..j]` and `&s[i..]` at the ends of an inner part. -/
theorem strSlice_mid {ε : Type} (p m t : List UInt8) (hm : isCharBoundary (p ++ m ++ t) p.length = true)
    (ht : isCharBoundary (p ++ m ++ t) (p ++ m).length = true) :
    (strSlice (p ++ m ++ t) p.length (p ++ m).length : Out ε _) = .ok m := by
  unfold strSlice
  rw [if_pos ⟨by simp, by simp, hm, ht⟩]
  simp

theorem strSliceFrom_cut {ε : Type} (p t : List UInt8) (ht : isCharBoundary (p ++ t) p.length = true) :
    (strSliceFrom (p ++ t) p.length : Out ε _) = .ok t := by
  unfold strSliceFrom strSlice
  have : isCharBoundary (p ++ t) (p ++ t).length = true := by simp [isCharBoundary]
  rw [if_pos ⟨by simp, Nat.le_refl _, ht, this⟩]
  simp

/-! ### The last occurrence of a byte -/

theorem rposition_none (b : UInt8) (s : List UInt8) : rposition b s = none ↔ b ∉ s := by
  induction s with
  | nil => simp [rposition]
  | cons x s ih =>
    simp only [rposition]
    cases h : rposition b s with
    | none =>
      have := ih.1 h
      by_cases hx : x = b
      · simp [hx]
      · simp [hx, this, Ne.symm hx]
    | some i =>
      have : ¬ b ∉ s := fun hn => by rw [ih.2 hn] at h; cases h
      simp only [Decidable.not_not] at this
      simp [this]

theorem rposition_split (b : UInt8) (p t : List UInt8) (ht : b ∉ t) : rposition b (p ++ b :: t) = some p.length := by
  induction p with
  | nil => simp [rposition, (rposition_none b t).2 ht]
  | cons x p ih => simp [rposition, ih]

theorem last_split (b : UInt8) (s : List UInt8) (h : b ∈ s) : ∃ p t, s = p ++ b :: t ∧ b ∉ t := by
  induction s with
  | nil => cases h
  | cons x s ih =>
    by_cases hs : b ∈ s
    · obtain ⟨p, t, rfl, ht⟩ := ih hs
      exact ⟨x :: p, t, rfl, ht⟩
    · have : b = x := by simpa [hs] using h
      subst this
      exact ⟨[], s, rfl, hs⟩

theorem last_unique (b : UInt8) (p t p' t' : List UInt8) (h : p ++ b :: t = p' ++ b :: t') (ht : b ∉ t) (ht' : b ∉ t') :
    p = p' ∧ t = t' := by
  have h1 := rposition_split b p t ht
  have h2 := rposition_split b p' t' ht'
  rw [h] at h1
  rw [h1] at h2
  have hl : p.length = p'.length := by simpa using h2
  have := List.append_inj h hl
  exact ⟨this.1, by simpa using this.2⟩

end Verif.Ip
