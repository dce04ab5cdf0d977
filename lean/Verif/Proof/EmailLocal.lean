import Verif.Spec.Email
import Verif.Proof.HostValid

/-! The side of an email before the `@`. -/

namespace Verif.Email

open Verif.Spec Verif.Spec.Email
open Verif.Ip (Str str_cut str_append boundary_cut boundary_byte strSlice strSliceFrom strSlice_mid strSliceFrom_cut isCharBoundary)
open Verif.Domain (bind_ok_iff bind_err_iff bind_panic_iff)

/-! ### Positions and slices -/

theorem position_none (b : UInt8) (l : List UInt8) : position b l = none ↔ b ∉ l := by
  induction l with
  | nil => simp [position]
  | cons x l ih =>
    unfold position
    by_cases h : x = b
    · simp [h]
    · rw [if_neg h, Option.map_eq_none_iff, ih]
      simp [Ne.symm h]

theorem position_some (b : UInt8) (p t : List UInt8) (h : b ∉ p) : position b (p ++ b :: t) = some p.length := by
  induction p with
  | nil => simp [position]
  | cons x p ih =>
    simp only [List.mem_cons, not_or] at h
    rw [List.cons_append, position, if_neg (Ne.symm h.1), ih h.2]
    simp

theorem split_mem (b : UInt8) (l : List UInt8) (h : b ∈ l) : ∃ p t, l = p ++ b :: t ∧ b ∉ p := by
  induction l with
  | nil => cases h
  | cons x l ih =>
    by_cases hx : x = b
    · exact ⟨[], l, by rw [hx]; rfl, by simp⟩
    · have hl : b ∈ l := by
        rcases List.mem_cons.1 h with h | h
        · exact absurd h.symm hx
        · exact h
      obtain ⟨p, t, rfl, hp⟩ := ih hl
      exact ⟨x :: p, t, rfl, by simp [Ne.symm hx, hp]⟩

theorem position_take_some (b : UInt8) (p t : List UInt8) (h : b ∉ p) (n : Nat) (hn : p.length < n) :
    position b ((p ++ b :: t).take n) = some p.length := by
  obtain ⟨m, rfl⟩ : ∃ m, n = p.length + (m + 1) := ⟨n - p.length - 1, by omega⟩
  rw [List.take_length_add_append, List.take_succ_cons, position_some _ _ _ h]

theorem position_take_none (b : UInt8) (p t : List UInt8) (h : b ∉ p) (n : Nat) (hn : n ≤ p.length) :
    position b ((p ++ b :: t).take n) = none := by
  rw [List.take_append_of_le_length hn, position_none]
  exact fun hm => h (List.mem_of_mem_take hm)

/-- `&s[a..b]` of an inner part that is followed by an ASCII byte. -/
theorem slice_mid {ε : Type} (p m t : List UInt8) (b : UInt8) (hb : b.toNat < 128) (hm : Str (m ++ b :: t)) (i j : Nat) (hi : i = p.length)
    (hj : j = p.length + m.length) : (strSlice (p ++ (m ++ b :: t)) i j : Out ε _) = .ok m := by
  subst hi hj
  have h1 := boundary_cut p (m ++ b :: t) hm
  have h2 := boundary_byte (p ++ m) t b hb
  rw [List.append_assoc] at h2
  have := strSlice_mid (ε := ε) p m (b :: t)
  rw [List.append_assoc] at this
  rw [← List.length_append]
  exact this h1 h2

theorem str_tail (b : UInt8) (t : List UInt8) (hb : b.toNat < 128) (h : Str (b :: t)) : Str t := (str_cut [] t b hb h).2

theorem idx_cut {ε : Type} (p t : List UInt8) (b : UInt8) (i : Nat) (hi : i = p.length) : (idx (p ++ b :: t) i : Out ε _) = .ok b := by
  subst hi
  simp [idx]

theorem idx_end {ε : Type} (s : List UInt8) : (idx s s.length : Out ε _) = .panic := by simp [idx]

theorem sliceFrom_cut {ε : Type} (p t : List UInt8) (i : Nat) (hi : i = p.length) : (sliceFrom (p ++ t) i : Out ε _) = .ok t := by
  subst hi
  simp [sliceFrom]

/-! ### Leading comments -/

theorem lead_none (c : Allow) (limit : Nat) (b : UInt8) (s : List UInt8) (h : b ≠ asc '(') : leadComment c limit (b :: s) = .ok (0, none) := by
  simp [leadComment, idx, h]

theorem lead_disallow (limit : Nat) (s : List UInt8) : leadComment .disallow limit (asc '(' :: s) = .err .commentDisallow := by
  simp [leadComment, idx]

theorem lead_some (limit : Nat) (c t : List UInt8) (hs : Str (asc '(' :: (c ++ asc ')' :: t))) (hc : asc ')' ∉ c) (hl : c.length < limit) :
    leadComment .allow limit (asc '(' :: (c ++ asc ')' :: t)) = if t = [] then .err .invalid else .ok (c.length + 2, some c) := by
  have h1 := slice_mid (ε := EmailError) [asc '('] c t (asc ')') (by decide) (str_tail _ _ (by decide) hs) 1 (c.length + 1) rfl (by simp; omega)
  have h2 : (sliceFrom (asc '(' :: (c ++ asc ')' :: t)) 1 : Out EmailError _) = .ok (c ++ asc ')' :: t) := sliceFrom_cut [asc '('] _ 1 rfl
  simp only [List.singleton_append] at h1
  simp only [leadComment, idx, List.getElem?_cons_zero, Out.bind_ok, if_true, reduceCtorEq, if_false]
  rw [if_pos (by simp; omega), h2, Out.bind_ok, position_take_some _ _ _ hc _ hl]
  simp only
  rw [h1, Out.bind_ok]
  by_cases ht : t = []
  · subst ht
    simp
  · have : 0 < t.length := List.length_pos_iff.2 ht
    rw [if_neg (by simp; omega), if_neg ht]

theorem lead_long (limit : Nat) (r : List UInt8) (h : ∀ c t, r = c ++ asc ')' :: t → asc ')' ∉ c → limit ≤ c.length) :
    leadComment .allow limit (asc '(' :: r) = .err .invalid := by
  have h2 : (sliceFrom (asc '(' :: r) 1 : Out EmailError _) = .ok r := sliceFrom_cut [asc '('] _ 1 rfl
  simp only [leadComment, idx, List.getElem?_cons_zero, Out.bind_ok, if_true, reduceCtorEq, if_false]
  split
  · rw [h2, Out.bind_ok]
    have : position (asc ')') (r.take limit) = none := by
      by_cases hm : asc ')' ∈ r
      · obtain ⟨p, t, rfl, hp⟩ := split_mem _ _ hm
        exact position_take_none _ _ _ hp _ (h p t rfl hp)
      · rw [position_none]; exact fun k => hm (List.mem_of_mem_take k)
    rw [this]
  · rfl

theorem first_unique (b : UInt8) (p t p' t' : List UInt8) (h : p ++ b :: t = p' ++ b :: t') (hp : b ∉ p) (hp' : b ∉ p') : p = p' ∧ t = t' := by
  have h1 := position_some b p t hp
  have h2 := position_some b p' t' hp'
  rw [h, h2] at h1
  have hl : p.length = p'.length := by simpa using h1.symm
  obtain ⟨rfl, h4⟩ := List.append_inj h hl
  exact ⟨rfl, by simpa using h4⟩

/-- What a leading comment is. -/
structure Lead (c : Allow) (limit : Nat) (s : List UInt8) (oc : Option (List UInt8)) (rest : List UInt8) : Prop where
  text : s = comment oc ++ rest
  nonempty : rest ≠ []
  closed : Closed oc
  none : oc = none → rest.head? ≠ some (asc '(')
  allowed : oc ≠ Option.none → c = .allow
  short : ∀ cc, oc = some cc → cc.length < limit

theorem comment_some (c t : List UInt8) : comment (some c) ++ t = asc '(' :: (c ++ asc ')' :: t) := by
  simp [comment, ascii, asc]

theorem lead_ok (c : Allow) (limit : Nat) (s : List UInt8) (hs : Str s) (hne : s ≠ []) (n : Nat) (oc : Option (List UInt8)) :
    leadComment c limit s = .ok (n, oc) ↔ ∃ rest, Lead c limit s oc rest ∧ n = (comment oc).length := by
  cases s with
  | nil => exact absurd rfl hne
  | cons b r =>
    by_cases hb : b = asc '('
    · subst hb
      cases c with
      | disallow =>
        rw [lead_disallow]
        constructor
        · intro h; cases h
        · rintro ⟨rest, h, _⟩
          cases oc with
          | none => exact absurd (by rw [← show asc '(' :: r = rest from h.text]; rfl) (h.none rfl)
          | some cc => exact absurd (h.allowed (by simp)) (by simp)
      | allow =>
        by_cases hex : ∃ cc t, r = cc ++ asc ')' :: t ∧ asc ')' ∉ cc ∧ cc.length < limit
        · obtain ⟨cc, t, rfl, hcc, hl⟩ := hex
          rw [lead_some limit cc t hs hcc hl]
          constructor
          · intro h
            split at h
            · cases h
            · rename_i ht
              cases h
              refine ⟨t, ⟨(comment_some _ _).symm, ht, ?_, by simp, by simp, ?_⟩, by simp [comment, ascii]⟩
              · rintro _ ⟨⟩; exact hcc
              · rintro _ ⟨⟩; exact hl
          · rintro ⟨rest, h, rfl⟩
            cases oc with
            | none => exact absurd (by rw [← show asc '(' :: _ = rest from h.text]; rfl) (h.none rfl)
            | some c' =>
              have he := h.text
              rw [comment_some] at he
              obtain ⟨rfl, rfl⟩ := first_unique _ _ _ _ _ (List.cons.inj he).2 hcc (h.closed _ rfl)
              rw [if_neg h.nonempty]
              simp [comment, ascii]
        · rw [lead_long limit r (by
            intro cc t h1 h2
            exact Nat.le_of_not_lt fun h3 => hex ⟨cc, t, h1, h2, h3⟩)]
          constructor
          · intro h; cases h
          · rintro ⟨rest, h, rfl⟩
            cases oc with
            | none => exact absurd (by rw [← show asc '(' :: _ = rest from h.text]; rfl) (h.none rfl)
            | some c' =>
              have he := h.text
              rw [comment_some] at he
              exact absurd ⟨c', rest, (List.cons.inj he).2, h.closed _ rfl, h.short _ rfl⟩ hex
    · rw [lead_none c limit b r hb]
      constructor
      · intro h; cases h
        exact ⟨b :: r, ⟨rfl, by simp, by simp [Closed], fun _ => by simpa using hb, by simp, by simp⟩, rfl⟩
      · rintro ⟨rest, h, rfl⟩
        cases oc with
        | none => rfl
        | some cc =>
          have he := h.text
          rw [comment_some] at he
          exact absurd (List.cons.inj he).1 hb

theorem lead_panic (c : Allow) (limit : Nat) (s : List UInt8) (hs : Str s) (hne : s ≠ []) : leadComment c limit s ≠ .panic := by
  cases s with
  | nil => exact absurd rfl hne
  | cons b r =>
    by_cases hb : b = asc '('
    · subst hb
      cases c with
      | disallow => rw [lead_disallow]; simp
      | allow =>
        by_cases hex : ∃ cc t, r = cc ++ asc ')' :: t ∧ asc ')' ∉ cc ∧ cc.length < limit
        · obtain ⟨cc, t, rfl, hcc, hl⟩ := hex
          rw [lead_some limit cc t hs hcc hl]
          split <;> simp
        · rw [lead_long limit r (by
            intro cc t h1 h2
            exact Nat.le_of_not_lt fun h3 => hex ⟨cc, t, h1, h2, h3⟩)]
          simp
    · rw [lead_none c limit b r hb]; simp

/-- Errors of a leading comment. -/
theorem lead_err (c : Allow) (limit : Nat) (s : List UInt8) (hs : Str s) (e : EmailError) (h : leadComment c limit s = .err e) :
    e = .invalid ∨ e = .commentDisallow ∧ c = .disallow ∧ s.head? = some (asc '(') := by
  cases s with
  | nil => simp [leadComment, idx] at h
  | cons b r =>
    by_cases hb : b = asc '('
    · subst hb
      cases c with
      | disallow => rw [lead_disallow] at h; cases h; simp
      | allow =>
        by_cases hex : ∃ cc t, r = cc ++ asc ')' :: t ∧ asc ')' ∉ cc ∧ cc.length < limit
        · obtain ⟨cc, t, rfl, hcc, hl⟩ := hex
          rw [lead_some limit cc t hs hcc hl] at h
          split at h <;> cases h
          exact .inl rfl
        · rw [lead_long limit r (by
            intro cc t h1 h2
            exact Nat.le_of_not_lt fun h3 => hex ⟨cc, t, h1, h2, h3⟩)] at h
          cases h; exact .inl rfl
    · rw [lead_none c limit b r hb] at h; cases h

/-! ### Classes of bytes -/

set_option synthInstance.maxSize 1000 in
set_option synthInstance.maxHeartbeats 400000 in
theorem classes : ∀ b : UInt8,
    (isAtext b = true ∧ b ∈ atext ∧ b.toNat < 128 ∧ b ∉ specials ∧ b ∉ ascii ".\\ \t" ∧ b ≠ asc '"' ∧ b ≠ asc '(' ∧ b ≠ asc '@' ∧ b ≠ asc '.') ∨
    b = asc '.' ∨ b = asc '\\' ∨ (b = asc ' ' ∨ b = asc '\t') ∨
    (isAtext b = false ∧ isSpecial b = true ∧ b ∉ atext ∧ b.toNat < 128 ∧ b ∈ specials ∧ b ∉ ascii ".\\ \t" ∧ b ≠ asc '"') ∨
    b = asc '"' ∨
    (isAtext b = false ∧ isSpecial b = false ∧ b ∉ atext ∧ b ∉ specials ∧ b ∉ ascii ".\\ \t" ∧ b ≠ asc '"' ∧ b ≠ asc '(' ∧ b ≠ asc '@') := by
  apply BaseN.forall_uint8; decide +kernel

theorem other_iff (na : Allow) (b : UInt8) : otherByte na b = true ↔ Wide na b := by
  simp [otherByte, Wide]

instance (na : Allow) (b : UInt8) : Decidable (Wide na b) := inferInstanceAs (Decidable (_ ∧ _))

end Verif.Email
