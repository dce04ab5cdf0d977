import Verif.Proof.DomainValid

/-! A conversion that satisfies the assumed laws: ASCII host names. -/

namespace Verif.Domain

open Verif.Spec Verif.Spec.Domain

/-- Split at the dots. -/
def labelsOf (s : List UInt8) : List (List UInt8) :=
  s.foldr (fun b ls => if b = asc '.' then [] :: ls else match ls with | l :: ls => (b :: l) :: ls | [] => [[b]]) [[]]

/-- Letters, digits and inner hyphens, labels of 1 to 63 bytes, 253 bytes at most, possibly a final dot; capitals are
lowered. -/
def ldh : Idna := fun s =>
  let t := s.map lowered
  let body := stripDot t
  if body ≠ [] ∧ body.length ≤ 253 ∧ body.getLast? ≠ some (asc '.') ∧
      (∀ b ∈ t, b ∈ ascii "abcdefghijklmnopqrstuvwxyz0123456789-.") ∧
      ∀ l ∈ labelsOf body, l ≠ [] ∧ l.length ≤ 63 ∧ l.head? ≠ some (asc '-') ∧ l.getLast? ≠ some (asc '-')
  then some t else none

theorem lowered_symbols : ∀ b ∈ ascii "abcdefghijklmnopqrstuvwxyz0123456789-.", lowered b = b := by decide

theorem map_lowered (t : List UInt8) (h : ∀ b ∈ t, b ∈ ascii "abcdefghijklmnopqrstuvwxyz0123456789-.") : t.map lowered = t := by
  induction t with
  | nil => rfl
  | cons b t ih =>
    rw [List.map_cons, ih fun x hx => h x (List.mem_cons_of_mem _ hx), lowered_symbols b (h b (by simp))]

theorem ldh_laws : IdnaLaws ldh := by
  have inv : ∀ s a, ldh s = some a → (stripDot a ≠ [] ∧ (stripDot a).length ≤ 253 ∧ (stripDot a).getLast? ≠ some (asc '.') ∧
      (∀ b ∈ a, b ∈ ascii "abcdefghijklmnopqrstuvwxyz0123456789-.") ∧
      ∀ l ∈ labelsOf (stripDot a), l ≠ [] ∧ l.length ≤ 63 ∧ l.head? ≠ some (asc '-') ∧ l.getLast? ≠ some (asc '-')) := by
    intro s a h
    unfold ldh at h
    simp only at h
    split at h
    · rename_i hc; cases h; exact hc
    · cases h
  have mk : ∀ a, (stripDot a ≠ [] ∧ (stripDot a).length ≤ 253 ∧ (stripDot a).getLast? ≠ some (asc '.') ∧
      (∀ b ∈ a, b ∈ ascii "abcdefghijklmnopqrstuvwxyz0123456789-.") ∧
      ∀ l ∈ labelsOf (stripDot a), l ≠ [] ∧ l.length ≤ 63 ∧ l.head? ≠ some (asc '-') ∧ l.getLast? ≠ some (asc '-')) → ldh a = some a := by
    intro a h
    unfold ldh
    simp only
    rw [map_lowered a h.2.2.2.1, if_pos h]
  refine ⟨fun s a h => (inv s a h).2.2.2.1, fun s a h => mk a (inv s a h), ?_, ?_⟩
  · rintro s a h rfl
    exact (inv s [] h).1 rfl
  · intro s a h
    have := inv s _ h
    have e : stripDot (a ++ ascii ".") = a := (stem_iff _ _).1 (.inl rfl)
    rw [e] at this
    have hn : ¬ ∃ c, a = c ++ ascii "." := by rw [← getLast_dot]; exact this.2.2.1
    have e2 : stripDot a = a := (stem_iff _ _).1 (.inr ⟨rfl, hn⟩)
    refine ⟨mk a ?_, hn⟩
    rw [e2]
    exact ⟨this.1, this.2.1, this.2.2.1, fun b hb => this.2.2.2.1 b (List.mem_append_left _ hb), this.2.2.2.2⟩

/-- `ldh` with one more name: full-width digits become an address, as UTS 46 has it. -/
def wide (s : List UInt8) : Option (List UInt8) := if s = BaseN.strBytes "８.8.8.8".toList then some (ascii "8.8.8.8") else ldh s

theorem wide_laws : IdnaLaws wide := by
  have h8 : ldh (ascii "8.8.8.8") = some (ascii "8.8.8.8") := by decide +kernel
  have hne : ∀ s a, ldh s = some a → wide a = ldh a := by
    intro s a h
    unfold wide
    rw [if_neg]
    rintro rfl
    exact absurd (ldh_laws.symbols _ _ h 0xEF (by decide +kernel)) (by decide)
  have key : ∀ s a, wide s = some a → ∃ t, ldh t = some a := by
    intro s a h
    unfold wide at h
    split at h
    · cases h; exact ⟨_, h8⟩
    · exact ⟨s, h⟩
  refine ⟨?_, ?_, ?_, ?_⟩
  · intro s a h
    obtain ⟨t, ht⟩ := key s a h
    exact ldh_laws.symbols t a ht
  · intro s a h
    obtain ⟨t, ht⟩ := key s a h
    rw [hne t a ht]
    exact ldh_laws.again t a ht
  · intro s a h
    obtain ⟨t, ht⟩ := key s a h
    exact ldh_laws.nonempty t a ht
  · intro s a h
    obtain ⟨t, ht⟩ := key s _ h
    obtain ⟨h1, h2⟩ := ldh_laws.root t a ht
    exact ⟨by rw [hne a a h1]; exact h1, h2⟩

end Verif.Domain
