import Verif.Proof.EmailBody

/-! The side of an email before the `@`: local part and second comment. -/

namespace Verif.Email

open Verif.Spec Verif.Spec.Email
open Verif.Ip (Str str_cut str_append boundary_cut boundary_byte strSlice strSliceFrom strSlice_mid strSliceFrom_cut isCharBoundary)
open Verif.Domain (bind_ok_iff bind_err_iff bind_panic_iff)

/-- What the local part is. -/
structure LocalAt (na : Allow) (start : Nat) (r : List UInt8) (l : Local) (rest : List UInt8) : Prop where
  text : r = quote l.quoted l.text ++ rest
  nonempty : rest ≠ []
  len : l.len = start + (quote l.quoted l.text).length
  unquoted : l.quoted = false → Unquoted na l.text ∧ Fits 64 start l.text ∧ (rest.head? = some (asc '@') ∨ rest.head? = some (asc '('))
  quoted : l.quoted = true → Quoted Escape na l.text ∧ Fits 63 (start + 1) l.text ∧ start ≠ 62
  need : l.needQuoted = true ↔ l.quoted = true ∧ ¬ Unquoted na l.text

theorem quote_true (t rest : List UInt8) : quote true t ++ rest = asc '"' :: (t ++ asc '"' :: rest) := by
  simp [quote, ascii, asc]

theorem quote_len (t : List UInt8) : (quote true t).length = t.length + 2 := by simp [quote, ascii]

theorem sliceQ (a m t : List UInt8) (hm : Str (m ++ asc '"' :: t)) (i j : Nat) (hi : i = a.length + 1) (hj : j = a.length + 1 + m.length) :
    (strSlice (a ++ asc '"' :: (m ++ asc '"' :: t)) i j : Out EmailError _) = .ok m := by
  have h := slice_mid (ε := EmailError) (a ++ [asc '"']) m t (asc '"') (by decide) hm i j (by simpa using hi) (by simpa using hj)
  rw [List.append_assoc] at h
  exact h

/-- The quoted branch, with the panics ruled out. -/
theorem localPart_quoted (na : Allow) (a r : List UInt8) (hs : Str (asc '"' :: r)) (l : Local) :
    localPart na (a ++ asc '"' :: r) a.length = .ok l ↔ ∃ rest, LocalAt na a.length (asc '"' :: r) l rest ∧ l.quoted = true := by
  have hr : Str r := str_tail _ _ (by decide) hs
  unfold localPart
  rw [idx_cut _ _ _ _ rfl, Out.bind_ok, if_pos rfl]
  simp only
  cases r with
  | nil =>
    rw [if_pos (by simp)]
    constructor
    · intro h; cases h
    · rintro ⟨rest, h, hq⟩
      have := h.text
      rw [hq, quote_true] at this
      simp at this
  | cons x r =>
    by_cases h62 : a.length = 62
    · rw [if_pos (.inl (by omega))]
      constructor
      · intro h; cases h
      · rintro ⟨rest, h, hq⟩
        exact absurd h62 (h.quoted hq).2.2
    · have hx : (idx (a ++ asc '"' :: x :: r) (a.length + 1) : Out EmailError _) = .ok x := by
        have := idx_cut (ε := EmailError) (a ++ [asc '"']) r x (a.length + 1) (by simp)
        rwa [List.append_assoc] at this
      have hd : (a ++ asc '"' :: x :: r).drop (a.length + 1 + 1) = r := by
        have : a.length + 1 + 1 = a.length + 2 := rfl
        rw [this, List.drop_length_add_append]; rfl
      rw [if_neg (by simp; omega), hx, Out.bind_ok, quotedFirst_eq, hd]
      by_cases hq : QByte na false x
      · rw [if_pos hq]
        simp only [Out.bind_ok, Bool.false_or]
        rw [bind_ok_iff]
        constructor
        · rintro ⟨⟨q, nq⟩, h1, h2⟩
          rw [quotedLoop_ok] at h1
          obtain ⟨body, rest, rfl, rfl, hb, he, hf, rfl⟩ := h1
          have hqb : QBytes na false (x :: body) := ⟨hq, hb⟩
          have hsl := sliceQ a (x :: body) rest hr (a.length + 1) (a.length + 1 + 1 + body.length) rfl (by simp; omega)
          simp only [List.cons_append] at hsl
          rw [hsl, Out.bind_ok] at h2
          split at h2
          · cases h2
          · rename_i hne
            cases h2
            refine ⟨rest, ⟨?_, ?_, ?_, by simp, ?_, ?_⟩, rfl⟩
            · rw [quote_true]; rfl
            · rintro rfl; exact hne (by simp; omega)
            · rw [quote_len]; simp; omega
            · intro _
              refine ⟨(quoted_iff na _).2 ⟨by simp, hqb, he⟩, (fits_cons _ _ _ _).2 ⟨fun k => by omega, hf⟩, h62⟩
            · simp only [true_and]
              exact needQuoted_iff na x body hqb
        · rintro ⟨rest, h, hlq⟩
          obtain ⟨text, nq, qd, len⟩ := l
          simp only at hlq
          subst hlq
          have ht := h.text
          simp only [quote_true] at ht
          obtain ⟨hQ, hF, _⟩ := h.quoted rfl
          simp only at hQ hF
          rw [quoted_iff] at hQ
          obtain ⟨hne, hqb, he⟩ := hQ
          cases text with
          | nil => exact absurd rfl hne
          | cons y body =>
            have ht2 := (List.cons.inj ht).2
            rw [List.cons_append] at ht2
            obtain ⟨rfl, rfl⟩ := List.cons.inj ht2
            rw [fits_cons] at hF
            refine ⟨(a.length + 1 + 1 + body.length, needStep true x || needs (dotStep false x) body), ?_, ?_⟩
            · rw [quotedLoop_ok]
              exact ⟨body, rest, rfl, rfl, hqb.2, he, hF.2, rfl⟩
            · have hsl := sliceQ a (x :: body) rest hr (a.length + 1) (a.length + 1 + 1 + body.length) rfl (by simp; omega)
              simp only [List.cons_append] at hsl
              simp only
              rw [hsl, Out.bind_ok]
              have hrl : 0 < rest.length := List.length_pos_iff.2 h.nonempty
              rw [if_neg (by simp; omega)]
              have hlen := h.len
              simp only [quote_len, List.length_cons] at hlen
              have hnd := h.need
              simp only [true_and] at hnd
              have := needQuoted_iff na x body hqb
              have hnq : nq = (needStep true x || needs (dotStep false x) body) := by
                rw [Bool.eq_iff_iff, hnd, this]
              rw [hlen, hnq]
              congr 2
              omega
      · rw [if_neg hq]
        constructor
        · intro h; cases h
        · rintro ⟨rest, h, hlq⟩
          have hQ := (h.quoted hlq).1
          rw [quoted_iff] at hQ
          have ht := h.text
          rw [hlq, quote_true] at ht
          cases htx : l.text with
          | nil => exact absurd htx hQ.1
          | cons y body =>
            rw [htx] at ht hQ
            have := (List.cons.inj (List.cons.inj ht).2).1
            subst this
            exact absurd hQ.2.1.1 hq

theorem unquoted_cons (na : Allow) (x : UInt8) (body : List UInt8) :
    Unquoted na (x :: body) ↔ (x ≠ asc '.' ∧ UByte na x) ∧ (∀ b ∈ body, UByte na b) ∧ ¬ ascii ".." <:+: body := by
  unfold Unquoted
  rw [dots_cons]
  constructor
  · rintro ⟨_, h1, h2, h3⟩
    simp only [List.head?_cons, ne_eq, Option.some.injEq] at h1
    exact ⟨⟨h1, h2 x (by simp)⟩, fun b hb => h2 b (by simp [hb]), fun k => h3 (.inr k)⟩
  · rintro ⟨⟨h1, h2⟩, h3, h4⟩
    refine ⟨by simp, by simpa using h1, ?_, ?_⟩
    · intro b hb
      rcases List.mem_cons.1 hb with rfl | hb
      · exact h2
      · exact h3 b hb
    · rintro (k | k)
      · exact h1 k.1
      · exact h4 k

theorem first_iff (na : Allow) (x : UInt8) : (isAtext x = true ∨ otherByte na x = true) ↔ x ≠ asc '.' ∧ UByte na x := by
  rw [other_iff]
  rcases classes x with h | rfl | rfl | (rfl | rfl) | h | rfl | h
  · exact ⟨fun _ => ⟨h.2.2.2.2.2.2.2.2, .inl h.2.1⟩, fun _ => .inl h.1⟩
  · constructor
    · rintro (h | h)
      · exact absurd h (by decide)
      · exact absurd h.2 (by decide)
    · exact fun h => absurd rfl h.1
  all_goals first
    | (obtain ⟨h1, h2, h3, h4, h5, h6, h7⟩ := h
       have hnot : ¬ 128 ≤ x.toNat := by omega
       have e0 : ¬ x = asc '.' := by rintro rfl; exact h6 (by decide)
       unfold UByte Wide; simp [h1, h3, e0, hnot]; done)
    | (obtain ⟨h1, h2, h3, h4, h5, h6, h7, h8⟩ := h
       have e0 : ¬ x = asc '.' := by rintro rfl; exact h5 (by decide)
       unfold UByte; simp [h1, h3, e0]; done)
    | (constructor
       · rintro (h | h)
         · exact absurd h (by decide)
         · exact absurd h.2 (by decide)
       · rintro ⟨_, k | k | k⟩
         · exact absurd k (by decide)
         · exact absurd k (by decide)
         · exact .inr k)

theorem quote_false (t : List UInt8) : quote false t = t := by simp [quote]

theorem localPart_unquoted (na : Allow) (a r : List UInt8) (x : UInt8) (hx : x ≠ asc '"') (hs : Str (x :: r)) (ha : a.length ≤ 63) (l : Local) :
    localPart na (a ++ x :: r) a.length = .ok l ↔ ∃ rest, LocalAt na a.length (x :: r) l rest ∧ l.quoted = false := by
  have hd : (a ++ x :: r).drop (a.length + 1) = r := by
    rw [List.drop_length_add_append]; rfl
  unfold localPart
  rw [idx_cut _ _ _ _ rfl, Out.bind_ok, if_neg hx, hd]
  by_cases h1 : isAtext x = true ∨ otherByte na x = true
  · rw [if_pos h1, bind_ok_iff]
    rw [first_iff] at h1
    have key : ∀ body rest : List UInt8, r = body ++ rest → (rest.head? = some (asc '@') ∨ rest.head? = some (asc '(')) →
        (strSlice (a ++ x :: r) a.length (a.length + 1 + body.length) : Out EmailError _) = .ok (x :: body) := by
      rintro body rest rfl hr
      cases rest with
      | nil => simp at hr
      | cons c rest =>
        refine slice_mid (ε := EmailError) a (x :: body) rest c ?_ hs _ _ rfl (by simp; omega)
        simp only [List.head?_cons, Option.some.injEq] at hr
        rcases hr with rfl | rfl <;> decide
    constructor
    · rintro ⟨q, h2, h3⟩
      rw [unquotedLoop_ok] at h2
      obtain ⟨body, rest, hr, rfl, hh, hb, _, hdd, hf⟩ := h2
      rw [key body rest hr hh, Out.bind_ok] at h3
      cases h3
      have hu : Unquoted na (x :: body) := (unquoted_cons _ _ _).2 ⟨h1, hb, hdd⟩
      refine ⟨rest, ⟨by rw [quote_false, hr]; rfl, ?_, by rw [quote_false]; simp; omega, fun _ => ⟨hu, (fits_cons _ _ _ _).2 ⟨fun k => by omega, hf⟩, hh⟩, by simp, by simp⟩, rfl⟩
      rintro rfl; simp at hh
    · rintro ⟨rest, h, hq⟩
      obtain ⟨text, nq, qd, len⟩ := l
      simp only at hq
      subst hq
      obtain ⟨hU, hF, hh⟩ := h.unquoted rfl
      have ht := h.text
      simp only [quote_false] at ht hU hF hh
      cases text with
      | nil => exact absurd rfl hU.1
      | cons y body =>
        obtain ⟨rfl, hr⟩ := List.cons.inj ht
        rw [unquoted_cons] at hU
        refine ⟨a.length + 1 + body.length, ?_, ?_⟩
        · rw [unquotedLoop_ok]
          exact ⟨body, rest, hr, rfl, hh, hU.2.1, by simp, hU.2.2, ((fits_cons _ _ _ _).1 hF).2⟩
        · rw [key body rest hr hh, Out.bind_ok]
          have hn : nq = false := by
            have := h.need
            simpa using this
          have hl := h.len
          simp only [quote_false, List.length_cons] at hl
          rw [hl, hn]
          congr 2
          omega
  · rw [if_neg h1]
    constructor
    · intro h; cases h
    · rintro ⟨rest, h, hq⟩
      rw [first_iff] at h1
      have hU := (h.unquoted hq).1
      have ht := h.text
      rw [hq, quote_false] at ht
      cases htx : l.text with
      | nil => exact absurd htx hU.1
      | cons y body =>
        rw [htx] at ht hU
        have := (List.cons.inj ht).1
        subst this
        exact absurd ((unquoted_cons _ _ _).1 hU).1 h1

theorem localPart_ok (na : Allow) (a r : List UInt8) (hr : r ≠ []) (hs : Str r) (ha : a.length ≤ 63) (l : Local) :
    localPart na (a ++ r) a.length = .ok l ↔ ∃ rest, LocalAt na a.length r l rest := by
  cases r with
  | nil => exact absurd rfl hr
  | cons x r =>
    by_cases hx : x = asc '"'
    · subst hx
      rw [localPart_quoted na a r hs]
      constructor
      · rintro ⟨rest, h, _⟩; exact ⟨rest, h⟩
      · rintro ⟨rest, h⟩
        refine ⟨rest, h, ?_⟩
        cases hq : l.quoted
        · have hU := (h.unquoted hq).1
          have ht := h.text
          rw [hq, quote_false] at ht
          cases htx : l.text with
          | nil => exact absurd htx hU.1
          | cons y body =>
            rw [htx] at ht hU
            have := (List.cons.inj ht).1
            subst this
            rcases ((unquoted_cons _ _ _).1 hU).1.2 with k | k | k
            · exact absurd k (by decide)
            · exact absurd k (by decide)
            · exact absurd k.2 (by decide)
        · rfl
    · rw [localPart_unquoted na a r x hx hs ha]
      constructor
      · rintro ⟨rest, h, _⟩; exact ⟨rest, h⟩
      · rintro ⟨rest, h⟩
        refine ⟨rest, h, ?_⟩
        cases hq : l.quoted
        · rfl
        · have ht := h.text
          rw [hq, quote_true] at ht
          exact absurd (List.cons.inj ht).1 hx

/-- A local part is accepted, or the error is `Invalid`. -/
theorem localPart_other (na : Allow) (a r : List UInt8) (hr : r ≠ []) (hs : Str r) :
    (∃ l, localPart na (a ++ r) a.length = .ok l) ∨ localPart na (a ++ r) a.length = .err .invalid := by
  cases r with
  | nil => exact absurd rfl hr
  | cons x r =>
    unfold localPart
    rw [idx_cut _ _ _ _ rfl, Out.bind_ok]
    by_cases hx : x = asc '"'
    · subst hx
      rw [if_pos rfl]
      simp only
      split
      · exact .inr rfl
      · rename_i hne
        cases r with
        | nil => exact absurd (by simp) hne
        | cons y r =>
          have hy : (idx (a ++ asc '"' :: y :: r) (a.length + 1) : Out EmailError _) = .ok y := by
            have := idx_cut (ε := EmailError) (a ++ [asc '"']) r y (a.length + 1) (by simp)
            rwa [List.append_assoc] at this
          have hd : (a ++ asc '"' :: y :: r).drop (a.length + 1 + 1) = r := by
            have : a.length + 1 + 1 = a.length + 2 := rfl
            rw [this, List.drop_length_add_append]; rfl
          rw [hy, Out.bind_ok, quotedFirst_eq, hd]
          split
          · simp only [Out.bind_ok]
            rcases quotedLoop_other na r (a.length + 1 + 1) (false || escStep false y) (needStep true y) (dotStep false y) with ⟨⟨q, nq⟩, h⟩ | h
            · rw [h, Out.bind_ok]
              rw [quotedLoop_ok] at h
              obtain ⟨body, rest, rfl, rfl, _⟩ := h
              have hr : Str (y :: (body ++ asc '"' :: rest)) := str_tail _ _ (by decide) hs
              have hsl := sliceQ a (y :: body) rest hr (a.length + 1) (a.length + 1 + 1 + body.length) rfl (by simp; omega)
              simp only [List.cons_append] at hsl
              simp only
              rw [hsl, Out.bind_ok]
              split
              · exact .inr rfl
              · exact .inl ⟨_, rfl⟩
            · rw [h]; exact .inr rfl
          · exact .inr rfl
    · rw [if_neg hx]
      split
      · have hd : (a ++ x :: r).drop (a.length + 1) = r := by
          rw [List.drop_length_add_append]; rfl
        rw [hd]
        rcases unquotedLoop_other na r (a.length + 1) false with ⟨q, h⟩ | h
        · rw [h, Out.bind_ok]
          rw [unquotedLoop_ok] at h
          obtain ⟨body, rest, rfl, rfl, hh, _⟩ := h
          cases rest with
          | nil => simp at hh
          | cons c rest =>
            have hsl := slice_mid (ε := EmailError) a (x :: body) rest c (by
              simp only [List.head?_cons, Option.some.injEq] at hh
              rcases hh with rfl | rfl <;> decide) hs a.length (a.length + 1 + body.length) rfl (by simp; omega)
            simp only [List.cons_append] at hsl
            rw [hsl]
            exact .inl ⟨_, rfl⟩
        · rw [h]; exact .inr rfl
      · exact .inr rfl

/-- The decomposition is unique. -/
theorem localAt_unique (na : Allow) (a r : List UInt8) (hr : r ≠ []) (hs : Str r) (ha : a.length ≤ 63) (l l' : Local) (rest rest' : List UInt8)
    (h : LocalAt na a.length r l rest) (h' : LocalAt na a.length r l' rest') : l = l' ∧ rest = rest' := by
  have h1 := (localPart_ok na a r hr hs ha l).2 ⟨rest, h⟩
  have h2 := (localPart_ok na a r hr hs ha l').2 ⟨rest', h'⟩
  rw [h1] at h2
  cases h2
  exact ⟨rfl, List.append_cancel_left (h.text.symm.trans h'.text)⟩

/-- What remains after a local part is a string. -/
theorem localAt_str (na : Allow) (start : Nat) (r : List UInt8) (hs : Str r) (l : Local) (rest : List UInt8) (h : LocalAt na start r l rest) :
    Str rest := by
  have ht := h.text
  cases hq : l.quoted
  · rw [hq, quote_false] at ht
    have hh := (h.unquoted hq).2.2
    cases rest with
    | nil => exact absurd rfl h.nonempty
    | cons c rest =>
      have hc : c.toNat < 128 := by
        simp only [List.head?_cons, Option.some.injEq] at hh
        rcases hh with rfl | rfl <;> decide
      rw [ht] at hs
      have := (str_cut l.text rest c hc hs).2
      exact str_append [c] rest (Verif.Ip.str_ascii _ (by simpa using hc)) this
  · rw [hq, quote_true] at ht
    rw [ht] at hs
    exact (str_cut (asc '"' :: l.text) rest (asc '"') (by decide) hs).2

/-! ### Comment 2 -/

/-- What the second comment is. `p` is what comes before. -/
structure After (o : Opts) (p r : List UInt8) (oc : Option (List UInt8)) (rest : List UInt8) : Prop where
  text : r = comment oc ++ rest
  nonempty : rest ≠ []
  closed : Closed oc
  none : oc = none → rest.head? ≠ some (asc '(')
  allowed : oc ≠ Option.none → o.comment = .allow
  short : ∀ cc, oc = some cc → p.length + (comment oc).length ≤ 64 ∨ o.checked = false ∧ 64 ≤ p.length

/-- The text is short, so a wrapped budget has no effect. -/
def budgetOf (len : Nat) : Nat := if len ≤ 64 then 64 - len else 2 ^ 64 + 64 - len

theorem budget_eq (checked : Bool) (len : Nat) : budget checked len = if 64 < len ∧ checked = true then .panic else .ok (budgetOf len) := by
  unfold budget budgetOf
  by_cases h : len ≤ 64
  · rw [if_pos h, if_neg (by omega), if_pos h]
  · rw [if_neg h, if_neg h]
    cases checked
    · simp
    · rw [if_pos rfl, if_pos ⟨by omega, rfl⟩]

theorem after_none (o : Opts) (p r : List UInt8) (b : UInt8) (hb : b ≠ asc '(') : afterLocal o (p ++ b :: r) p.length = .ok (p.length, none) := by
  unfold afterLocal
  rw [idx_cut _ _ _ _ rfl, Out.bind_ok, if_neg hb]

theorem after_disallow (o : Opts) (p r : List UInt8) (ho : o.comment = .disallow) :
    afterLocal o (p ++ asc '(' :: r) p.length = .err .commentDisallow := by
  unfold afterLocal
  rw [idx_cut _ _ _ _ rfl, Out.bind_ok, if_pos rfl, if_pos ho]

theorem after_end (o : Opts) (p : List UInt8) (ho : o.comment = .allow) :
    afterLocal o (p ++ [asc '(']) p.length = .err .invalid := by
  unfold afterLocal
  rw [idx_cut _ _ _ _ rfl, Out.bind_ok, if_pos rfl, if_neg (by simp [ho])]
  simp

/-- The comment branch: a panic, or the search for the closing parenthesis. -/
theorem after_open (o : Opts) (p r : List UInt8) (hr : r ≠ []) (ho : o.comment = .allow) :
    afterLocal o (p ++ asc '(' :: r) p.length =
      if 64 < p.length + 1 ∧ o.checked = true then .panic
      else match position (asc ')') (r.take (budgetOf (p.length + 1))) with
        | some i => (strSlice (p ++ asc '(' :: r) (p.length + 1) (i + (p.length + 1))).bind fun comment =>
            if i + (p.length + 1) + 1 = (p ++ asc '(' :: r).length then .err .invalid else .ok (i + (p.length + 1) + 1, some comment)
        | none => .err .invalid := by
  have h1 : (sliceFrom (p ++ asc '(' :: r) (p.length + 1) : Out EmailError _) = .ok r := by
    have := sliceFrom_cut (ε := EmailError) (p ++ [asc '(']) r (p.length + 1) (by simp)
    rwa [List.append_assoc] at this
  have hl : 0 < r.length := List.length_pos_iff.2 hr
  unfold afterLocal
  rw [idx_cut _ _ _ _ rfl, Out.bind_ok, if_pos rfl, if_neg (by simp [ho])]
  simp only
  rw [if_pos (by simp; omega), h1, Out.bind_ok, budget_eq]
  split
  · rfl
  · rw [Out.bind_ok]
    cases position (asc ')') (r.take (budgetOf (p.length + 1))) <;> rfl

theorem after_some (o : Opts) (p c t : List UInt8) (hs : Str (c ++ asc ')' :: t)) (ho : o.comment = .allow) (hc : asc ')' ∉ c)
    (hn : ¬ (64 < p.length + 1 ∧ o.checked = true)) (hl : c.length < budgetOf (p.length + 1)) :
    afterLocal o (p ++ asc '(' :: (c ++ asc ')' :: t)) p.length =
      if t = [] then .err .invalid else .ok (p.length + (c.length + 2), some c) := by
  rw [after_open o p _ (by simp) ho, if_neg hn, position_take_some _ _ _ hc _ hl]
  have hsl := slice_mid (ε := EmailError) (p ++ [asc '(']) c t (asc ')') (by decide) hs (p.length + 1) (c.length + (p.length + 1)) (by simp) (by simp; omega)
  rw [List.append_assoc] at hsl
  simp only [List.singleton_append] at hsl
  simp only
  rw [hsl, Out.bind_ok]
  by_cases ht : t = []
  · subst ht
    rw [if_pos (by simp; omega), if_pos rfl]
  · have : 0 < t.length := List.length_pos_iff.2 ht
    rw [if_neg (by simp; omega), if_neg ht]
    congr 2
    omega

theorem after_long (o : Opts) (p r : List UInt8) (hr : r ≠ []) (ho : o.comment = .allow) (hn : ¬ (64 < p.length + 1 ∧ o.checked = true))
    (h : ∀ c t, r = c ++ asc ')' :: t → asc ')' ∉ c → budgetOf (p.length + 1) ≤ c.length) :
    afterLocal o (p ++ asc '(' :: r) p.length = .err .invalid := by
  rw [after_open o p _ hr ho, if_neg hn]
  have : position (asc ')') (r.take (budgetOf (p.length + 1))) = none := by
    by_cases hm : asc ')' ∈ r
    · obtain ⟨p, t, rfl, hp⟩ := split_mem _ _ hm
      exact position_take_none _ _ _ hp _ (h p t rfl hp)
    · rw [position_none]; exact fun k => hm (List.mem_of_mem_take k)
  rw [this]

theorem budgetOf_lt (o : Opts) (p : List UInt8) (n : Nat) (hn : ¬ (64 < p.length + 1 ∧ o.checked = true)) (hp : p.length + n ≤ 400) :
    n < budgetOf (p.length + 1) ↔ (p.length + (n + 2) ≤ 64 ∨ o.checked = false ∧ 64 ≤ p.length) := by
  unfold budgetOf
  cases hc : o.checked
  · simp only [true_and]
    split <;> omega
  · simp only [hc, and_true] at hn
    rw [if_pos (by omega)]
    simp
    omega

theorem afterLocal_ok (o : Opts) (p r : List UInt8) (hs : Str r) (hr : r ≠ []) (hl : p.length + r.length ≤ 320) (n : Nat) (oc : Option (List UInt8)) :
    afterLocal o (p ++ r) p.length = .ok (n, oc) ↔ ∃ rest, After o p r oc rest ∧ n = p.length + (comment oc).length := by
  cases r with
  | nil => exact absurd rfl hr
  | cons b r =>
    by_cases hb : b = asc '('
    · subst hb
      have hstr : Str r := str_tail _ _ (by decide) hs
      have hnone : ∀ rest, ¬ (After o p (asc '(' :: r) none rest) := by
        intro rest h
        exact absurd (by rw [← show asc '(' :: r = rest from h.text]; rfl) (h.none rfl)
      cases ho : o.comment with
      | disallow =>
        rw [after_disallow o p r ho]
        constructor
        · intro h; cases h
        · rintro ⟨rest, h, _⟩
          cases oc with
          | none => exact absurd h (hnone _)
          | some cc => exact absurd (h.allowed (by simp)) (by simp [ho])
      | allow =>
        by_cases hrn : r = []
        · subst hrn
          rw [after_end o p ho]
          constructor
          · intro h; cases h
          · rintro ⟨rest, h, _⟩
            cases oc with
            | none => exact absurd h (hnone _)
            | some cc =>
              have := h.text
              rw [comment_some] at this
              simp at this
        · by_cases hn : 64 < p.length + 1 ∧ o.checked = true
          · rw [after_open o p r hrn ho, if_pos hn]
            constructor
            · intro h; cases h
            · rintro ⟨rest, h, _⟩
              cases oc with
              | none => exact absurd h (hnone _)
              | some cc =>
                rcases h.short _ rfl with k | k
                · have : (comment (some cc)).length = cc.length + 2 := by simp [comment, ascii]
                  omega
                · rw [k.1] at hn; simp at hn
          · by_cases hex : ∃ cc t, r = cc ++ asc ')' :: t ∧ asc ')' ∉ cc ∧ cc.length < budgetOf (p.length + 1)
            · obtain ⟨cc, t, rfl, hcc, hlt⟩ := hex
              rw [after_some o p cc t hstr ho hcc hn hlt]
              have hlen : p.length + cc.length ≤ 400 := by simp at hl; omega
              constructor
              · intro h
                split at h
                · cases h
                · rename_i ht
                  cases h
                  refine ⟨t, ⟨(comment_some _ _).symm, ht, ?_, by simp, by simp [ho], ?_⟩, by simp [comment, ascii]⟩
                  · rintro _ ⟨⟩; exact hcc
                  · rintro _ ⟨⟩
                    have := (budgetOf_lt o p _ hn hlen).1 hlt
                    have hcl : (comment (some cc)).length = cc.length + 2 := by simp [comment, ascii]
                    rw [hcl]; exact this
              · rintro ⟨rest, h, rfl⟩
                cases oc with
                | none => exact absurd h (hnone _)
                | some c' =>
                  have he := h.text
                  rw [comment_some] at he
                  obtain ⟨rfl, rfl⟩ := first_unique _ _ _ _ _ (List.cons.inj he).2 hcc (h.closed _ rfl)
                  rw [if_neg h.nonempty]
                  simp [comment, ascii]
            · rw [after_long o p r hrn ho hn (by
                intro cc t h1 h2
                exact Nat.le_of_not_lt fun h3 => hex ⟨cc, t, h1, h2, h3⟩)]
              constructor
              · intro h; cases h
              · rintro ⟨rest, h, rfl⟩
                cases oc with
                | none => exact absurd h (hnone _)
                | some c' =>
                  have he := h.text
                  rw [comment_some] at he
                  have hr' := (List.cons.inj he).2
                  refine absurd ⟨c', rest, hr', h.closed _ rfl, ?_⟩ hex
                  have hlen : p.length + c'.length ≤ 400 := by rw [hr'] at hl; simp at hl; omega
                  rw [budgetOf_lt o p _ hn hlen]
                  have := h.short _ rfl
                  have hcl : (comment (some c')).length = c'.length + 2 := by simp [comment, ascii]
                  rw [hcl] at this; exact this
    · rw [after_none o p r b hb]
      constructor
      · intro h; cases h
        exact ⟨b :: r, ⟨rfl, by simp, by simp [Closed], fun _ => by simpa using hb, by simp, by simp⟩, rfl⟩
      · rintro ⟨rest, h, rfl⟩
        cases oc with
        | none => rfl
        | some cc =>
          have he := h.text
          rw [comment_some] at he
          exact absurd (List.cons.inj he).1 hb

theorem afterLocal_panic (o : Opts) (p r : List UInt8) (hs : Str r) (hr : r ≠ []) :
    afterLocal o (p ++ r) p.length = .panic ↔ Overflows o p r := by
  unfold Overflows
  cases r with
  | nil => exact absurd rfl hr
  | cons b r =>
    by_cases hb : b = asc '('
    · subst hb
      have hstr : Str r := str_tail _ _ (by decide) hs
      cases ho : o.comment with
      | disallow => rw [after_disallow o p r ho]; simp
      | allow =>
        by_cases hrn : r = []
        · subst hrn
          rw [after_end o p ho]
          simp
        · by_cases hn : 64 < p.length + 1 ∧ o.checked = true
          · rw [after_open o p r hrn ho, if_pos hn]
            simp only [true_iff]
            exact ⟨trivial, hn.2, by omega, r, hrn, rfl⟩
          · have hnot : ¬ (Allow.allow = Allow.allow ∧ o.checked = true ∧ 64 ≤ p.length ∧ ∃ t, t ≠ [] ∧ asc '(' :: r = asc '(' :: t) := by
              rintro ⟨_, h1, h2, _⟩; exact hn ⟨by omega, h1⟩
            refine ⟨fun hp => ?_, fun k => absurd k hnot⟩
            exfalso
            revert hp
            by_cases hex : ∃ cc t, r = cc ++ asc ')' :: t ∧ asc ')' ∉ cc ∧ cc.length < budgetOf (p.length + 1)
            · obtain ⟨cc, t, rfl, hcc, hlt⟩ := hex
              rw [after_some o p cc t hstr ho hcc hn hlt]
              split <;> simp
            · rw [after_long o p r hrn ho hn (by
                intro cc t h1 h2
                exact Nat.le_of_not_lt fun h3 => hex ⟨cc, t, h1, h2, h3⟩)]
              simp
    · rw [after_none o p r b hb]
      simp [hb]

theorem afterLocal_err (o : Opts) (p r : List UInt8) (hs : Str r) (hr : r ≠ []) (e : EmailError) (h : afterLocal o (p ++ r) p.length = .err e) :
    e = .invalid ∨ e = .commentDisallow ∧ o.comment = .disallow ∧ r.head? = some (asc '(') := by
  cases r with
  | nil => exact absurd rfl hr
  | cons b r =>
    by_cases hb : b = asc '('
    · subst hb
      have hstr : Str r := str_tail _ _ (by decide) hs
      cases ho : o.comment with
      | disallow => rw [after_disallow o p r ho] at h; cases h; simp
      | allow =>
        by_cases hrn : r = []
        · subst hrn
          rw [after_end o p ho] at h; cases h; exact .inl rfl
        · by_cases hn : 64 < p.length + 1 ∧ o.checked = true
          · rw [after_open o p r hrn ho, if_pos hn] at h; cases h
          · by_cases hex : ∃ cc t, r = cc ++ asc ')' :: t ∧ asc ')' ∉ cc ∧ cc.length < budgetOf (p.length + 1)
            · obtain ⟨cc, t, rfl, hcc, hlt⟩ := hex
              rw [after_some o p cc t hstr ho hcc hn hlt] at h
              split at h <;> cases h
              exact .inl rfl
            · rw [after_long o p r hrn ho hn (by
                intro cc t h1 h2
                exact Nat.le_of_not_lt fun h3 => hex ⟨cc, t, h1, h2, h3⟩)] at h
              cases h; exact .inl rfl
    · rw [after_none o p r b hb] at h; cases h

end Verif.Email
