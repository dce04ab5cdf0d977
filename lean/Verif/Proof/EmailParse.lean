import Verif.Proof.EmailValid

/-! The outcome of the `email` validator: the whole text. -/

namespace Verif.Email

open Verif.Spec Verif.Spec.Ip Verif.Spec.Domain Verif.Spec.Host Verif.Spec.Email Verif.StdIp
open Verif.Ip (Str str_cut str_append str_ascii boundary_cut strSlice strSliceFrom strSliceFrom_cut isCharBoundary)
open Verif.Domain (Idna bind_ok_iff bind_err_iff bind_panic_iff localName_iff manyLabels_iff isLocalDomain isAtLeastTwoLabelsDomain tells_iff tells_congr)
open Verif.Host (Host)

/-! ### The side before the `@` -/

theorem localText_of (o : Opts) (s r1 r2 : List UInt8) (c1 : Option (List UInt8)) (l : Local) (h1 : Lead o.comment 62 s c1 r1)
    (h2 : LocalAt o.nonAscii (comment c1).length r1 l r2) : LocalText o c1 l.quoted l.text where
  closed := h1.closed
  allowed := h1.allowed
  short c hc := by have := h1.short c hc; omega
  unquoted hq := ⟨(h2.unquoted hq).1, (h2.unquoted hq).2.1⟩
  quoted hq := h2.quoted hq

theorem comment_len (o : Opts) (c1 : Option (List UInt8)) (q : Bool) (t : List UInt8) (h : LocalText o c1 q t) : (comment c1).length ≤ 63 := by
  cases c1 with
  | none => simp [comment]
  | some c => have := h.short c rfl; simp [comment, ascii]; omega

theorem unquoted_head (na : Allow) (t : List UInt8) (h : Unquoted na t) : ∃ b r, t = b :: r ∧ b ≠ asc '(' ∧ b ≠ asc '"' ∧ b ≠ asc '@' := by
  cases t with
  | nil => exact absurd rfl h.1
  | cons b r =>
    refine ⟨b, r, rfl, ?_⟩
    rcases h.2.2.1 b (by simp) with k | k | k
    · exact ⟨by rintro rfl; exact absurd k (by decide), by rintro rfl; exact absurd k (by decide), by rintro rfl; exact absurd k (by decide)⟩
    · subst k; decide
    · exact ⟨by rintro rfl; exact absurd k.2 (by decide), by rintro rfl; exact absurd k.2 (by decide), by rintro rfl; exact absurd k.2 (by decide)⟩

theorem quote_head (o : Opts) (c1 : Option (List UInt8)) (q : Bool) (t r2 : List UInt8) (h : LocalText o c1 q t) :
    quote q t ++ r2 ≠ [] ∧ (quote q t ++ r2).head? ≠ some (asc '(') := by
  cases q
  · obtain ⟨b, r, rfl, hb, _⟩ := unquoted_head _ _ (h.unquoted rfl).1
    rw [quote_false]
    exact ⟨by simp, by simpa using hb⟩
  · rw [quote_true]
    exact ⟨by simp, by simp [asc]⟩

theorem lead_of (o : Opts) (s r2 : List UInt8) (c1 : Option (List UInt8)) (q : Bool) (t : List UInt8) (h : LocalText o c1 q t)
    (hs : s = comment c1 ++ (quote q t ++ r2)) : Lead o.comment 62 s c1 (quote q t ++ r2) where
  text := hs
  nonempty := (quote_head o c1 q t r2 h).1
  closed := h.closed
  none _ := (quote_head o c1 q t r2 h).2
  allowed := h.allowed
  short c hc := by have := h.short c hc; omega

theorem localAt_of (o : Opts) (r2 : List UInt8) (c1 : Option (List UInt8)) (q nq : Bool) (t : List UInt8) (h : LocalText o c1 q t)
    (hr : r2 ≠ []) (hh : q = false → r2.head? = some (asc '@') ∨ r2.head? = some (asc '(')) (hn : nq = true ↔ q = true ∧ ¬ Unquoted o.nonAscii t) :
    LocalAt o.nonAscii (comment c1).length (quote q t ++ r2) ⟨t, nq, q, (comment c1).length + (quote q t).length⟩ r2 where
  text := rfl
  nonempty := hr
  len := rfl
  unquoted hq := ⟨(h.unquoted hq).1, (h.unquoted hq).2, hh hq⟩
  quoted hq := h.quoted hq
  need := hn

/-! ### Steps of the parser -/

/-- What follows the local part. -/
def rest2 (o : Opts) (idna : Idna) (s : List UInt8) (c1 : Option (List UInt8)) (l : Local) : Out EmailError Parsed :=
  (afterLocal o s l.len).bind fun r =>
    (idx s r.1).bind fun b =>
      if b ≠ asc '@' ∨ r.1 + 1 = s.length then .err .invalid
      else
        (strSliceFrom s (r.1 + 1)).bind fun t =>
          (domainSide o idna t (if l.quoted && l.needQuoted then -2 else 0)).bind fun d =>
            .ok ⟨l.text, l.needQuoted, d.1, c1, r.2, d.2.2.1, d.2.2.2, d.2.1⟩

theorem parse_eq (o : Opts) (idna : Idna) (s : List UInt8) :
    parse o idna s = if s.length = 0 ∨ s.length > 320 then .err .invalid
      else (leadComment o.comment 62 s).bind fun r => (localPart o.nonAscii s r.1).bind fun l => rest2 o idna s r.2 l := rfl

/-- Stage 1: the comment and the local part are found. -/
theorem parse_local (o : Opts) (idna : Idna) (s r2 : List UInt8) (c1 : Option (List UInt8)) (q nq : Bool) (t : List UInt8) (hs : Str s)
    (hlen : s.length ≤ 320) (h : LocalText o c1 q t) (ht : s = comment c1 ++ (quote q t ++ r2)) (hr : r2 ≠ [])
    (hh : q = false → r2.head? = some (asc '@') ∨ r2.head? = some (asc '(')) (hn : nq = true ↔ q = true ∧ ¬ Unquoted o.nonAscii t) :
    parse o idna s = rest2 o idna s c1 ⟨t, nq, q, (comment c1).length + (quote q t).length⟩ := by
  have hlead := lead_of o s r2 c1 q t h ht
  have hrs := lead_str _ _ _ hs _ _ hlead
  have hne : s ≠ [] := by
    rw [ht]
    intro k
    exact hlead.nonempty (List.append_eq_nil_iff.1 k).2
  have h1 := (lead_ok o.comment 62 s hs hne _ c1).2 ⟨_, hlead, rfl⟩
  have h2 := (localPart_ok o.nonAscii (comment c1) (quote q t ++ r2) hlead.nonempty hrs (comment_len o c1 q t h) _).2
    ⟨r2, localAt_of o r2 c1 q nq t h hr hh hn⟩
  rw [← ht] at h2
  rw [parse_eq, if_neg (by have := List.length_pos_iff.2 hne; omega), h1, Out.bind_ok]
  simp only
  rw [h2, Out.bind_ok]

/-- Stage 1, from the outcome. -/
theorem parse_stage (o : Opts) (idna : Idna) (s : List UInt8) (hs : Str s) :
    parse o idna s = .err .invalid ∨
    parse o idna s = .err .commentDisallow ∧ o.comment = .disallow ∧ s.head? = some (asc '(') ∨
    ∃ c1 l r2, s.length ≤ 320 ∧ s = comment c1 ++ (quote l.quoted l.text ++ r2) ∧ r2 ≠ [] ∧ Str r2 ∧ LocalText o c1 l.quoted l.text ∧
      (l.quoted = false → r2.head? = some (asc '@') ∨ r2.head? = some (asc '(')) ∧ (l.needQuoted = true ↔ l.quoted = true ∧ ¬ Unquoted o.nonAscii l.text) ∧
      l.len = (comment c1 ++ quote l.quoted l.text).length ∧ parse o idna s = rest2 o idna s c1 l := by
  rw [parse_eq]
  by_cases h0 : s.length = 0 ∨ s.length > 320
  · rw [if_pos h0]; exact .inl rfl
  · rw [if_neg h0]
    have hne : s ≠ [] := by rintro rfl; exact h0 (.inl rfl)
    cases h1 : leadComment o.comment 62 s with
    | panic => exact absurd h1 (lead_panic _ _ _ hs hne)
    | err e =>
      rcases lead_err _ _ _ hs e h1 with rfl | ⟨rfl, k1, k2⟩
      · exact .inl rfl
      · exact .inr (.inl ⟨rfl, k1, k2⟩)
    | ok r =>
      obtain ⟨n, c1⟩ := r
      rw [lead_ok _ _ _ hs hne] at h1
      obtain ⟨r1, hl, rfl⟩ := h1
      have hrs := lead_str _ _ _ hs _ _ hl
      have ht := hl.text
      simp only [Out.bind_ok]
      have hcl : (comment c1).length ≤ 63 := by
        cases c1 with
        | none => simp [comment]
        | some c => have := hl.short c rfl; simp [comment, ascii]; omega
      rcases localPart_other o.nonAscii (comment c1) r1 hl.nonempty hrs with ⟨l, h2⟩ | h2
      · rw [← ht] at h2
        rw [h2, Out.bind_ok]
        right; right
        have h2' := h2
        rw [ht, localPart_ok _ _ _ hl.nonempty hrs hcl] at h2'
        obtain ⟨r2, hat⟩ := h2'
        have hlt := localText_of o s r1 r2 c1 l hl hat
        refine ⟨c1, l, r2, by omega, by rw [← hat.text]; exact ht, hat.nonempty, localAt_str _ _ _ hrs _ _ hat, hlt, fun hq => (hat.unquoted hq).2.2, hat.need, ?_, rfl⟩
        rw [hat.len]; simp
      · rw [← ht] at h2
        rw [h2]; exact .inl rfl

/-- Stage 2: the second comment and the `@` are found. -/
theorem rest2_at (o : Opts) (idna : Idna) (p t : List UInt8) (c1 c2 : Option (List UInt8)) (l : Local) (hl : l.len = p.length)
    (hlen : (p ++ (comment c2 ++ asc '@' :: t)).length ≤ 320) (h2 : Comment2 o p.length c2) (hs : Str (comment c2 ++ asc '@' :: t)) (ht : t ≠ []) :
    rest2 o idna (p ++ (comment c2 ++ asc '@' :: t)) c1 l =
      (domainSide o idna t (if l.quoted && l.needQuoted then -2 else 0)).bind fun d =>
        .ok ⟨l.text, l.needQuoted, d.1, c1, c2, d.2.2.1, d.2.2.2, d.2.1⟩ := by
  have haft : After o p (comment c2 ++ asc '@' :: t) c2 (asc '@' :: t) := by
    refine ⟨rfl, by simp, h2.1, fun _ => by simp [asc], fun h => (h2.2 h).1, ?_⟩
    rintro cc rfl
    exact (h2.2 (by simp)).2
  have h3 := (afterLocal_ok o p (comment c2 ++ asc '@' :: t) hs (by simp) (by simpa using hlen) _ c2).2 ⟨_, haft, rfl⟩
  unfold rest2
  rw [hl, h3, Out.bind_ok]
  simp only
  have e : p ++ (comment c2 ++ asc '@' :: t) = (p ++ comment c2) ++ asc '@' :: t := by simp
  have e2 : p ++ (comment c2 ++ asc '@' :: t) = (p ++ comment c2 ++ [asc '@']) ++ t := by simp
  have hts : Str t := (str_cut (comment c2) t (asc '@') (by decide) hs).2
  have hsl : (strSliceFrom (p ++ (comment c2 ++ asc '@' :: t)) (p.length + (comment c2).length + 1) : Out EmailError _) = .ok t := by
    have := strSliceFrom_cut (ε := EmailError) (p ++ comment c2 ++ [asc '@']) t (boundary_cut _ _ hts)
    rw [e2]
    rw [show p.length + (comment c2).length + 1 = (p ++ comment c2 ++ [asc '@']).length by simp; omega]
    exact this
  have hix : (idx (p ++ (comment c2 ++ asc '@' :: t)) (p.length + (comment c2).length) : Out EmailError _) = .ok (asc '@') := by
    rw [e]
    exact idx_cut _ _ _ _ (by simp)
  have : 0 < t.length := List.length_pos_iff.2 ht
  rw [hix, Out.bind_ok, if_neg (by
    rintro (k | k)
    · exact k rfl
    · simp at k; omega), hsl, Out.bind_ok]

/-- Stage 2, from the outcome. -/
theorem rest2_stage (o : Opts) (idna : Idna) (p r2 : List UInt8) (c1 : Option (List UInt8)) (l : Local) (hl : l.len = p.length) (hs : Str r2)
    (hr : r2 ≠ []) (hlen : (p ++ r2).length ≤ 320) :
    rest2 o idna (p ++ r2) c1 l = .err .invalid ∨
    rest2 o idna (p ++ r2) c1 l = .err .commentDisallow ∧ o.comment = .disallow ∧ r2.head? = some (asc '(') ∨
    rest2 o idna (p ++ r2) c1 l = .panic ∧ Overflows o p r2 ∨
    ∃ c2 t, r2 = comment c2 ++ asc '@' :: t ∧ t ≠ [] ∧ Str t ∧ Comment2 o p.length c2 := by
  cases h : afterLocal o (p ++ r2) p.length with
  | panic =>
    right; right; left
    refine ⟨?_, (afterLocal_panic o p r2 hs hr).1 h⟩
    unfold rest2; rw [hl, h]; rfl
  | err e =>
    rcases afterLocal_err o p r2 hs hr e h with rfl | ⟨rfl, k1, k2⟩
    · left; unfold rest2; rw [hl, h]; rfl
    · right; left; refine ⟨?_, k1, k2⟩
      unfold rest2; rw [hl, h]; rfl
  | ok r =>
    obtain ⟨n, c2⟩ := r
    have h' := h
    rw [afterLocal_ok o p r2 hs hr (by simpa using hlen)] at h'
    obtain ⟨r3, haft, rfl⟩ := h'
    have ht := haft.text
    cases r3 with
    | nil => exact absurd rfl haft.nonempty
    | cons b t =>
      have hix : (idx (p ++ r2) (p.length + (comment c2).length) : Out EmailError _) = .ok b := by
        rw [ht, ← List.append_assoc]
        exact idx_cut _ _ _ _ (by simp)
      by_cases hk : b ≠ asc '@' ∨ t = []
      · left
        unfold rest2
        rw [hl, h, Out.bind_ok]
        simp only
        rw [hix, Out.bind_ok, if_pos ?_]
        rcases hk with hk | hk
        · exact .inl hk
        · right; rw [ht, hk]; simp; omega
      · right; right; right
        have hb : b = asc '@' := Decidable.of_not_not fun k => hk (.inl k)
        subst hb
        refine ⟨c2, t, ht, fun k => hk (.inr k), ?_, haft.closed, ?_⟩
        · rw [ht] at hs
          exact (str_cut _ _ _ (by decide) hs).2
        · intro hc
          refine ⟨haft.allowed hc, ?_⟩
          cases c2 with
          | none => exact absurd rfl hc
          | some c => exact haft.short c rfl

/-! ### The whole parser -/

/-- The value of what was parsed. -/
def valueOf (o : Opts) (p : Parsed) : Value :=
  ⟨p.text, p.needQuoted, p.host, p.comment1, p.comment2, p.comment3, p.comment4, if o.loc = .allow ∧ o.atl ≠ .allow then some p.isLocal else none⟩

theorem shown_iff (o : Opts) (f : Option Bool) (x : Host) :
    Tells (o.loc = .allow ∧ o.atl ≠ .allow) f (LocalHost x) ↔ f = if o.loc = .allow ∧ o.atl ≠ .allow then some (localOf o (isLocalHost x)) else none := by
  rw [← tells_congr _ _ _ _ (isLocalHost_iff x), tells_iff]
  have : (if o.loc = .allow ∧ o.atl ≠ .allow then some (isLocalHost x) else none) =
      (if o.loc = .allow ∧ o.atl ≠ .allow then some (localOf o (isLocalHost x)) else none) := by
    split
    · rename_i h; unfold localOf; rw [if_neg (fun k => h.2 k.1)]
    · rfl
  rw [this]

theorem parse_ok (o : Opts) (idna : Idna) (s : List UInt8) (hs : Str s) (P : Parsed) :
    parse o idna s = .ok P ↔ (∃ q t h tail, Denotes o idna s (valueOf o P) q t h tail) ∧ P.isLocal = localOf o (isLocalHost P.host) := by
  constructor
  · intro hp
    rcases parse_stage o idna s hs with h | ⟨h, _⟩ | ⟨c1, l, r2, hlen, ht, hr, hrs, hlt, hh, hn, hl, h⟩
    · rw [h] at hp; cases hp
    · rw [h] at hp; cases hp
    · rw [h] at hp
      rw [← List.append_assoc] at ht
      rw [ht] at hp
      rcases rest2_stage o idna _ r2 c1 l hl hrs hr (by rw [← ht]; exact hlen) with k | ⟨k, _⟩ | ⟨k, _⟩ | ⟨c2, t, hr2, htn, hts, h2⟩
      · rw [k] at hp; cases hp
      · rw [k] at hp; cases hp
      · rw [k] at hp; cases hp
      · rw [hr2] at hp ht hrs
        rw [rest2_at o idna _ t c1 c2 l hl (by rw [← ht]; exact hlen) h2 hrs htn, bind_ok_iff] at hp
        obtain ⟨⟨x, isl, c3, c4⟩, hd, he⟩ := hp
        cases he
        have hoff : (if l.quoted && l.needQuoted then -2 else 0 : Int) = -(((if l.needQuoted = true then 2 else 0 : Nat)) : Int) := by
          cases hnq : l.needQuoted
          · simp
          · simp [(hn.1 hnq).1]
        rw [hoff, domainSide_ok _ _ _ hts htn] at hd
        obtain ⟨⟨h, tail, hdt⟩, rfl⟩ := hd
        refine ⟨⟨l.quoted, t, h, tail, ?_, hlen, hlt, h2, hn, hdt, ?_⟩, rfl⟩
        · rw [ht]; simp [valueOf, ascii, asc]
        · exact (shown_iff o _ x).2 rfl
  · rintro ⟨⟨q, t, h, tail, hd⟩, hloc⟩
    have ht := hd.text
    have hcl := hd.localText
    have hcn := hd.needQuoted
    have hc2 := hd.comment2
    have hdt := hd.domainText
    simp only [valueOf] at ht hcl hcn hc2 hdt
    have hne : t ≠ [] := by
      intro k
      have := hdt.text
      rw [k] at this
      have hh := (host_nonempty idna h _ hdt.host).1
      have h1 := (List.append_eq_nil_iff.1 this.symm).1
      exact hh (List.append_eq_nil_iff.1 h1).2
    have ht' : s = comment P.comment1 ++ (quote q P.text ++ (comment P.comment2 ++ asc '@' :: t)) := by rw [ht]; simp [ascii, asc]
    have ht2 : s = (comment P.comment1 ++ quote q P.text) ++ (comment P.comment2 ++ asc '@' :: t) := by rw [ht]; simp [ascii, asc]
    have hrs : Str (comment P.comment2 ++ asc '@' :: t) := by
      have h1 := lead_of o s _ P.comment1 q P.text hcl ht'
      have h2 := lead_str _ _ _ hs _ _ h1
      refine localAt_str o.nonAscii (comment P.comment1).length _ h2 ⟨P.text, P.needQuoted, q, _⟩ _ (localAt_of o _ P.comment1 q P.needQuoted P.text hcl (by simp) ?_ hcn)
      intro _
      cases P.comment2 with
      | none => left; rfl
      | some c => right; rw [comment_some]; rfl
    have hts : Str t := (str_cut _ _ _ (by decide) hrs).2
    rw [parse_local o idna s _ P.comment1 q P.needQuoted P.text hs hd.short hcl ht' (by simp) (by
      intro _
      cases P.comment2 with
      | none => left; rfl
      | some c => right; rw [comment_some]; rfl) hcn, ht2,
      rest2_at o idna _ t _ P.comment2 _ (by simp) (by rw [← ht2]; exact hd.short) hc2 hrs hne]
    have hoff : (if q && P.needQuoted then -2 else 0 : Int) = -(((if P.needQuoted = true then 2 else 0 : Nat)) : Int) := by
      cases hnq : P.needQuoted
      · simp
      · simp [(hcn.1 hnq).1]
    simp only
    have hdom := (domainSide_ok o idna t hts hne _ P.host P.isLocal P.comment3 P.comment4).2 ⟨⟨h, tail, hdt⟩, hloc⟩
    rw [hoff]
    refine (congrArg (fun d => Out.bind d _) hdom).trans ?_
    rfl

theorem parse_panic (o : Opts) (idna : Idna) (s : List UInt8) (hs : Str s) :
    parse o idna s = .panic ↔ s.length ≤ 320 ∧ ∃ c1 q t r2, s = comment c1 ++ quote q t ++ r2 ∧ LocalText o c1 q t ∧
      Overflows o (comment c1 ++ quote q t) r2 := by
  constructor
  · intro hp
    rcases parse_stage o idna s hs with h | ⟨h, _⟩ | ⟨c1, l, r2, hlen, ht, hr, hrs, hlt, hh, hn, hl, h⟩
    · rw [h] at hp; cases hp
    · rw [h] at hp; cases hp
    · rw [h] at hp
      rw [← List.append_assoc] at ht
      rw [ht] at hp
      rcases rest2_stage o idna _ r2 c1 l hl hrs hr (by rw [← ht]; exact hlen) with k | ⟨k, _⟩ | ⟨k, k2⟩ | ⟨c2, t, hr2, htn, hts, h2⟩
      · rw [k] at hp; cases hp
      · rw [k] at hp; cases hp
      · exact ⟨hlen, c1, l.quoted, l.text, r2, ht, hlt, k2⟩
      · rw [hr2] at hp ht hrs
        rw [rest2_at o idna _ t c1 c2 l hl (by rw [← ht]; exact hlen) h2 hrs htn, bind_panic_iff] at hp
        rcases hp with hp | ⟨_, _, hp⟩
        · exact absurd hp (domainSide_panic _ _ _ hts htn _)
        · cases hp
  · rintro ⟨hlen, c1, q, t, r2, ht, hlt, hov⟩
    obtain ⟨u, hu, hr2⟩ := hov.2.2.2
    have ht' : s = comment c1 ++ (quote q t ++ r2) := by rw [ht]; simp
    have hr : r2 ≠ [] := by rw [hr2]; simp
    have hh : q = false → r2.head? = some (asc '@') ∨ r2.head? = some (asc '(') := by intro _; right; rw [hr2]; rfl
    obtain ⟨nq, hnq⟩ : ∃ nq : Bool, nq = true ↔ q = true ∧ ¬ Unquoted o.nonAscii t := by
      by_cases k : q = true ∧ ¬ Unquoted o.nonAscii t
      · exact ⟨true, by simp [k]⟩
      · exact ⟨false, by simp [k]⟩
    have hrs : Str r2 := by
      have h1 := lead_of o s _ c1 q t hlt ht'
      have h2 := lead_str _ _ _ hs _ _ h1
      exact localAt_str o.nonAscii (comment c1).length _ h2 ⟨t, nq, q, _⟩ _ (localAt_of o _ c1 q nq t hlt hr hh hnq)
    rw [parse_local o idna s r2 c1 q nq t hs hlen hlt ht' hr hh hnq]
    unfold rest2
    simp only
    have := (afterLocal_panic o (comment c1 ++ quote q t) r2 hrs hr).2 hov
    rw [← ht, List.length_append] at this
    rw [this]; rfl

/-! ### Errors -/

theorem names_of_blames (o : Opts) (x : Host) (e : EmailError) (h : Blames o x e) : Names o e := by
  unfold Names
  rcases h with ⟨rfl, h, _⟩ | ⟨rfl, h, _⟩ | ⟨rfl, h, _⟩ | ⟨rfl, h, _⟩ | ⟨rfl, h, _⟩ | ⟨rfl, h, _⟩ <;> simp [h]

theorem names_disallow (o : Opts) (h : o.comment = .disallow) : Names o .commentDisallow := by unfold Names; simp [h]

theorem finishSide_err (o : Opts) (p tail : List UInt8) (hp : HostPart) (hl : hp.len = p.length) (hs : Str tail) (offset : Int) (c3 : Option (List UInt8))
    (e : EmailError) (h : finishSide o (p ++ tail) offset c3 hp = .err e) : e = .invalid ∨ e = .commentDisallow ∧ o.comment = .disallow ∧ tail ≠ [] := by
  unfold finishSide at h
  split at h
  · cases h; exact .inl rfl
  · rw [bind_err_iff] at h
    rcases h with h | ⟨_, _, h⟩
    · rw [hl] at h
      rcases tail_other o.comment p tail hs with ⟨c4, k⟩ | k | ⟨k, k2, k3⟩
      · rw [k] at h; cases h
      · rw [k] at h; cases h; exact .inl rfl
      · rw [k] at h; cases h; exact .inr ⟨rfl, k2, k3⟩
    · cases h

theorem domainSide_names (o : Opts) (idna : Idna) (t : List UInt8) (hs : Str t) (hne : t ≠ []) (offset : Int) (e : EmailError)
    (h : domainSide o idna t offset = .err e) : Names o e := by
  rw [domainSide_eq] at h
  split at h
  · cases h; exact .inl rfl
  · rw [bind_err_iff] at h
    rcases h with h | ⟨⟨n, c⟩, h1, h2⟩
    · rcases lead_err _ _ _ hs e h with rfl | ⟨rfl, k, _⟩
      · exact .inl rfl
      · exact names_disallow o k
    · rw [lead_ok _ _ _ hs hne] at h1
      obtain ⟨rest, hl, rfl⟩ := h1
      have hrs := lead_str _ _ _ hs _ _ hl
      have ht := hl.text
      simp only at h2
      cases hrest : rest with
      | nil => exact absurd hrest hl.nonempty
      | cons b r =>
        rcases host_other o idna (comment c) rest b (by rw [hrest]; rfl) hrs with ⟨x', h, tail, hr, hx, hts⟩ | k
        · rw [hr] at ht hrs
          have hst := host_tail_str idna h tail x' hx hts hrs
          rw [ht, hostSide_text o idna _ h tail x' hx hts hrs] at h2
          rcases hostOut_blame _ _ _ _ _ e h2 with k | k
          · exact names_of_blames _ _ _ k
          · rw [← List.append_assoc] at k
            rcases finishSide_err o _ tail _ (by simp [partOf]) hst _ _ e k with rfl | ⟨rfl, k, _⟩
            · exact .inl rfl
            · exact names_disallow o k
        · unfold hostSide at h2
          rw [ht, hrest, idx_cut _ _ _ _ rfl, Out.bind_ok] at h2
          rw [hrest] at k
          unfold Names
          rcases k with k | k | k | k
          · rw [k] at h2; cases h2; simp
          all_goals
            rw [k.1] at h2; cases h2; simp [k.2.1]

theorem parse_names (o : Opts) (idna : Idna) (s : List UInt8) (hs : Str s) (e : EmailError) (hp : parse o idna s = .err e) : Names o e := by
  rcases parse_stage o idna s hs with h | ⟨h, hd, _⟩ | ⟨c1, l, r2, hlen, ht, hr, hrs, hlt, hh, hn, hl, h⟩
  · rw [h] at hp; cases hp; exact .inl rfl
  · rw [h] at hp; cases hp; exact names_disallow o hd
  · rw [h] at hp
    rw [← List.append_assoc] at ht
    rw [ht] at hp
    rcases rest2_stage o idna _ r2 c1 l hl hrs hr (by rw [← ht]; exact hlen) with k | ⟨k, hd, _⟩ | ⟨k, _⟩ | ⟨c2, t, hr2, htn, hts, h2⟩
    · rw [k] at hp; cases hp; exact .inl rfl
    · rw [k] at hp; cases hp; exact names_disallow o hd
    · rw [k] at hp; cases hp
    · rw [hr2] at hp ht hrs
      rw [rest2_at o idna _ t c1 c2 l hl (by rw [← ht]; exact hlen) h2 hrs htn, bind_err_iff] at hp
      rcases hp with hp | ⟨_, _, hp⟩
      · exact domainSide_names _ _ _ hts htn _ e hp
      · cases hp

theorem comment_ne (c : Option (List UInt8)) (h : c ≠ none) : (comment c).head? = some (asc '(') := by
  cases c with
  | none => exact absurd rfl h
  | some c => rw [← List.append_nil (comment (some c)), comment_some]; rfl

theorem domainSide_blame (o : Opts) (idna : Idna) (t : List UInt8) (hs : Str t) (hne : t ≠ []) (saved : Nat) (e : EmailError)
    (he : domainSide o idna t (-(saved : Int)) = .err e) (x : Host) (c3 c4 : Option (List UInt8)) (h tail : List UInt8)
    (k : DomainText (relaxed o) idna saved t c3 x c4 h tail) :
    Blames o x e ∨ e = .commentDisallow ∧ o.comment = .disallow ∧ (c3 ≠ none ∨ c4 ≠ none) := by
  have hh := host_nonempty idna h x k.host
  have ht : t = comment c3 ++ (h ++ tail) := by rw [k.text]; simp
  rw [domainSide_eq, if_neg (by have := k.short; omega)] at he
  by_cases hc3 : c3 ≠ none ∧ o.comment = .disallow
  · rw [hc3.2] at he
    have : ∃ r, t = asc '(' :: r := by
      cases c3 with
      | none => exact absurd rfl hc3.1
      | some c => rw [comment_some] at ht; exact ⟨_, ht⟩
    obtain ⟨r, hr⟩ := this
    rw [hr, lead_disallow] at he
    cases he
    exact .inr ⟨rfl, hc3.2, .inl hc3.1⟩
  · have hl : Lead o.comment 253 t c3 (h ++ tail) := by
      refine ⟨ht, by simp [hh.1], k.closed, ?_, ?_, ?_⟩
      · intro _
        rw [List.head?_append]
        cases h with
        | nil => exact absurd rfl hh.1
        | cons b h => simpa using hh.2
      · intro hn
        cases ho : o.comment
        · rfl
        · exact absurd ⟨hn, ho⟩ hc3
      · rintro cc rfl
        have := k.short
        rw [ht] at this
        have hpos : 0 < h.length := List.length_pos_iff.2 hh.1
        simp [comment, ascii] at this
        omega
    have hts : TailStart x tail := fun _ => tail_start _ c4 tail k.after
    have hrs := lead_str _ _ _ hs _ _ hl
    have hst := host_tail_str idna h tail x k.host hts hrs
    rw [(lead_ok _ _ _ hs hne _ _).2 ⟨_, hl, rfl⟩, Out.bind_ok] at he
    simp only at he
    rw [ht, hostSide_text o idna _ h tail x k.host hts hrs] at he
    rcases hostOut_blame _ _ _ _ _ e he with kb | kb
    · exact .inl kb
    · right
      unfold finishSide at kb
      split at kb
      · rename_i k1
        exfalso
        simp only [partOf, List.length_append, Int.natCast_add] at k1
        have kp := k.printed
        simp only [List.length_append] at kp
        omega
      · rw [bind_err_iff] at kb
        rcases kb with kb | ⟨_, _, kb⟩
        · have e1 : (partOf o x (comment c3).length h).len = (comment c3 ++ h).length := by simp [partOf]
          rw [e1, ← List.append_assoc] at kb
          cases ho : o.comment with
          | allow =>
            have : afterDomain .allow (comment c3 ++ h ++ tail) (comment c3 ++ h).length = .ok c4 := (tail_ok (relaxed o) _ tail hst c4).2 k.after
            rw [ho, this] at kb; cases kb
          | disallow =>
            rcases tail_other o.comment (comment c3 ++ h) tail hst with ⟨c', k'⟩ | k' | ⟨k', _, k2⟩
            · rw [k'] at kb; cases kb
            · exfalso
              rw [ho] at k'
              unfold afterDomain at k'
              split at k'
              · rw [if_pos rfl] at k'; cases k'
              · cases k'
            · rw [k'] at kb; cases kb
              refine ⟨rfl, rfl, .inr ?_⟩
              rintro rfl
              obtain ⟨_, _, junk, e1, e2⟩ := k.after
              rw [e2 rfl] at e1
              exact k2 e1
        · cases kb

theorem parse_blame (o : Opts) (idna : Idna) (s : List UInt8) (hs : Str s) (e : EmailError) (hp : parse o idna s = .err e) (v : Value) (q : Bool)
    (t h tail : List UInt8) (hd : Denotes (relaxed o) idna s v q t h tail) : BlamesAll o v e := by
  have hdt := hd.domainText
  have hcl := hd.localText
  have hcn := hd.needQuoted
  have hc2 := hd.comment2
  have hne : t ≠ [] := by
    intro k
    have := hdt.text
    rw [k] at this
    have hh := (host_nonempty idna h _ hdt.host).1
    have h1 := (List.append_eq_nil_iff.1 this.symm).1
    exact hh (List.append_eq_nil_iff.1 h1).2
  have ht' : s = comment v.comment1 ++ (quote q v.text ++ (comment v.comment2 ++ asc '@' :: t)) := by rw [hd.text]; simp [ascii, asc]
  have ht2 : s = (comment v.comment1 ++ quote q v.text) ++ (comment v.comment2 ++ asc '@' :: t) := by rw [hd.text]; simp [ascii, asc]
  have hhead : q = false → (comment v.comment2 ++ asc '@' :: t).head? = some (asc '@') ∨ (comment v.comment2 ++ asc '@' :: t).head? = some (asc '(') := by
    intro _
    cases v.comment2 with
    | none => left; rfl
    | some c => right; rw [comment_some]; rfl
  have hrs : Str (comment v.comment2 ++ asc '@' :: t) := by
    have h1 := lead_of _ s _ v.comment1 q v.text hcl ht'
    have h2 := lead_str _ _ _ hs _ _ h1
    exact localAt_str o.nonAscii (comment v.comment1).length _ h2 ⟨v.text, v.needQuoted, q, _⟩ _ (localAt_of (relaxed o) _ v.comment1 q v.needQuoted v.text hcl (by simp) hhead hcn)
  have hts : Str t := (str_cut _ _ _ (by decide) hrs).2
  by_cases h1 : v.comment1 ≠ none ∧ o.comment = .disallow
  · have : ∃ r, s = asc '(' :: r := by
      obtain ⟨c, hc⟩ : ∃ c, v.comment1 = some c := by
        cases hv : v.comment1 with
        | none => exact absurd hv h1.1
        | some c => exact ⟨c, rfl⟩
      rw [hc, comment_some] at ht'; exact ⟨_, ht'⟩
    obtain ⟨r, hr⟩ := this
    have hle := hd.short
    rw [parse_eq, if_neg (by rw [hr] at hle ⊢; simp at hle ⊢; omega), h1.2, hr, lead_disallow] at hp
    cases hp
    exact .inr ⟨rfl, h1.2, fun k => h1.1 k.1⟩
  · have hlt : LocalText o v.comment1 q v.text := by
      refine ⟨hcl.closed, ?_, hcl.short, hcl.unquoted, hcl.quoted⟩
      intro hn
      cases ho : o.comment
      · rfl
      · exact absurd ⟨hn, ho⟩ h1
    rw [parse_local o idna s _ v.comment1 q v.needQuoted v.text hs hd.short hlt ht' (by simp) hhead hcn] at hp
    by_cases h2 : v.comment2 ≠ none ∧ o.comment = .disallow
    · unfold rest2 at hp
      simp only at hp
      obtain ⟨c, hc⟩ : ∃ c, v.comment2 = some c := by
        cases hv : v.comment2 with
        | none => exact absurd hv h2.1
        | some c => exact ⟨c, rfl⟩
      rw [ht2, hc, comment_some, ← List.length_append, after_disallow o _ _ h2.2] at hp
      cases hp
      exact .inr ⟨rfl, h2.2, fun k => h2.1 k.2.1⟩
    · have h2' : Comment2 o (comment v.comment1 ++ quote q v.text).length v.comment2 := by
        refine ⟨hc2.1, fun hn => ⟨?_, (hc2.2 hn).2⟩⟩
        cases ho : o.comment
        · rfl
        · exact absurd ⟨hn, ho⟩ h2
      rw [ht2, rest2_at o idna _ t _ v.comment2 _ (by simp) (by rw [← ht2]; exact hd.short) h2' hrs hne, bind_err_iff] at hp
      rcases hp with hp | ⟨_, _, hp⟩
      · have hoff : (if q && v.needQuoted then -2 else 0 : Int) = -(((if v.needQuoted = true then 2 else 0 : Nat)) : Int) := by
          cases hnq : v.needQuoted
          · simp
          · simp [(hcn.1 hnq).1]
        simp only at hp
        rw [hoff] at hp
        rcases domainSide_blame o idna t hts hne _ e hp _ _ _ _ _ hdt with k | ⟨k1, k2, k3⟩
        · exact .inl k
        · refine .inr ⟨k1, k2, fun k => ?_⟩
          rcases k3 with k3 | k3
          · exact k3 k.2.2.1
          · exact k3 k.2.2.2
      · cases hp

/-! ### Values -/

theorem create_eq (o : Opts) (P : Parsed) (hk : HostOk o P.host)
    (hc : o.comment = .disallow → P.comment1 = none ∧ P.comment2 = none ∧ P.comment3 = none ∧ P.comment4 = none) :
    create o P = .ok (valueOf o P) := by
  have hv : (if o.comment = .allow then
      (⟨P.text, P.needQuoted, P.host, P.comment1, P.comment2, P.comment3, P.comment4, if o.loc = .allow ∧ o.atl ≠ .allow then some P.isLocal else none⟩ : Value)
      else ⟨P.text, P.needQuoted, P.host, none, none, none, none, if o.loc = .allow ∧ o.atl ≠ .allow then some P.isLocal else none⟩) = valueOf o P := by
    unfold valueOf
    cases ho : o.comment
    · rfl
    · obtain ⟨h1, h2, h3, h4⟩ := hc ho
      rw [h1, h2, h3, h4]; rfl
  unfold create
  simp only
  rw [hv]
  unfold HostOk at hk
  cases hh : P.host <;> rw [hh] at hk <;> cases hi : o.ip <;> simp [hi] at hk ⊢

theorem denotes_comments (o : Opts) (idna : Idna) (s : List UInt8) (v : Value) (q : Bool) (t h tail : List UInt8) (hd : Denotes o idna s v q t h tail)
    (ho : o.comment = .disallow) : v.comment1 = none ∧ v.comment2 = none ∧ v.comment3 = none ∧ v.comment4 = none := by
  have none_of : ∀ c : Option (List UInt8), (c ≠ none → o.comment = .allow) → c = none := by
    intro c hc
    cases c with
    | none => rfl
    | some c => rw [ho] at hc; exact absurd (hc (by simp)) (by simp)
  exact ⟨none_of _ hd.localText.allowed, none_of _ fun h => (hd.comment2.2 h).1, none_of _ hd.domainText.allowed, none_of _ hd.domainText.after.2.1⟩

theorem create_parse (o : Opts) (idna : Idna) (s : List UInt8) (hs : Str s) (P : Parsed) (hp : parse o idna s = .ok P) : create o P = .ok (valueOf o P) := by
  rw [parse_ok o idna s hs] at hp
  obtain ⟨⟨q, t, h, tail, hd⟩, _⟩ := hp
  exact create_eq o P hd.domainText.ok (fun ho => denotes_comments o idna s _ q t h tail hd ho)

theorem parseStr_ok (o : Opts) (idna : Idna) (s : List UInt8) (hs : Str s) (v : Value) :
    parseStr o idna s = .ok v ↔ ∃ q t h tail, Denotes o idna s v q t h tail := by
  unfold parseStr
  rw [bind_ok_iff]
  constructor
  · rintro ⟨P, hp, hc⟩
    rw [create_parse o idna s hs P hp] at hc
    cases hc
    exact ((parse_ok o idna s hs P).1 hp).1
  · rintro ⟨q, t, h, tail, hd⟩
    have hv : v = valueOf o ⟨v.text, v.needQuoted, v.host, v.comment1, v.comment2, v.comment3, v.comment4, localOf o (isLocalHost v.host)⟩ := by
      unfold valueOf
      have := (shown_iff o _ _).1 hd.isLocal
      obtain ⟨a1, a2, a3, a4, a5, a6, a7, a8⟩ := v
      simp only at this ⊢
      rw [this]
    refine ⟨⟨v.text, v.needQuoted, v.host, v.comment1, v.comment2, v.comment3, v.comment4, localOf o (isLocalHost v.host)⟩, ?_, ?_⟩
    · rw [parse_ok o idna s hs, ← hv]
      exact ⟨⟨q, t, h, tail, hd⟩, rfl⟩
    · have hd' := hd
      rw [hv] at hd'
      have := create_eq o ⟨v.text, v.needQuoted, v.host, v.comment1, v.comment2, v.comment3, v.comment4, localOf o (isLocalHost v.host)⟩ hd'.domainText.ok
        (fun ho => denotes_comments o idna s _ q t h tail hd ho)
      rw [this]
      exact congrArg Out.ok hv.symm

theorem parseStr_err (o : Opts) (idna : Idna) (s : List UInt8) (hs : Str s) (e : EmailError) : parseStr o idna s = .err e ↔ parse o idna s = .err e := by
  unfold parseStr
  rw [bind_err_iff]
  constructor
  · rintro (h | ⟨P, hp, hc⟩)
    · exact h
    · rw [create_parse o idna s hs P hp] at hc; cases hc
  · exact .inl

theorem parseStr_panic (o : Opts) (idna : Idna) (s : List UInt8) (hs : Str s) : parseStr o idna s = .panic ↔ parse o idna s = .panic := by
  unfold parseStr
  rw [bind_panic_iff]
  constructor
  · rintro (h | ⟨P, hp, hc⟩)
    · exact h
    · rw [create_parse o idna s hs P hp] at hc; cases hc
  · exact .inl

theorem validate_void (o : Opts) (idna : Idna) (s : List UInt8) (hs : Str s) : validateStr o idna s = (parseStr o idna s).void := by
  unfold validateStr parseStr
  cases h : parse o idna s with
  | ok P => simp only [Out.bind_ok]; rw [create_parse o idna s hs P h]; rfl
  | err e => rfl
  | panic => rfl

end Verif.Email
