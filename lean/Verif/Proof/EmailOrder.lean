import Verif.Spec.EmailOrder
import Verif.Proof.Order
import Verif.Proof.EmailParse

/-! The order of the checks of `email`: lemmas. -/

namespace Verif.EmailOrder

open Verif.Spec Verif.Spec.Domain Verif.Spec.Host Verif.Spec.Email Verif.Spec.Order Verif.Spec.EmailOrder Verif.Order Verif.Email
open Verif.Ip (Str str_cut)
open Verif.Domain (Idna localName_iff)
open Verif.Host (Host)

theorem begins_rest (o : Opts) (idna : Idna) (s : List UInt8) (hs : Str s) (hlen : s.length ≤ 320) (c1 : Option (List UInt8)) (q : Bool)
    (t r : List UInt8) (h : Begins o s c1 q t r) :
    ∃ l : Local, l.len = (comment c1 ++ quote q t).length ∧ l.quoted = q ∧ (l.needQuoted = true ↔ q = true ∧ ¬ Unquoted o.nonAscii t) ∧ Str r ∧
      parse o idna s = rest2 o idna ((comment c1 ++ quote q t) ++ r) c1 l := by
  obtain ⟨h1, h2, h3, h4⟩ := h
  have e : s = comment c1 ++ (quote q t ++ r) := by rw [h1]; simp
  classical
  let nq : Bool := decide (q = true ∧ ¬ Unquoted o.nonAscii t)
  have hn : nq = true ↔ q = true ∧ ¬ Unquoted o.nonAscii t := decide_eq_true_iff
  have hp := parse_local o idna s r c1 q nq t hs hlen h2 e h3 h4 hn
  refine ⟨⟨t, nq, q, (comment c1).length + (quote q t).length⟩, by simp, rfl, hn, ?_, ?_⟩
  · have hl := lead_str _ _ _ hs _ _ (lead_of o s r c1 q t h2 e)
    exact localAt_str _ _ _ hl _ _ (localAt_of o r c1 q nq t h2 h3 h4 hn)
  · rw [hp, ← h1]

theorem left_checks (o : Opts) (idna : Idna) (s : List UInt8) (hs : Str s) (hp : parse o idna s ≠ .panic) (hn : ¬ ∃ saved d, UpToAt o s saved d) :
    Decide (left o s) (parse o idna s) := by
  unfold left
  by_cases h0 : s = [] ∨ 320 < s.length
  · have : parse o idna s = .err .invalid := by
      rw [parse_eq, if_pos]
      rcases h0 with rfl | h0
      · exact .inl rfl
      · exact .inr h0
    rw [this]; exact decide_err _ _ _ h0
  refine decide_skip _ _ _ _ h0 ?_
  have hlen : s.length ≤ 320 := Nat.le_of_not_lt fun k => h0 (.inr k)
  have hne : s ≠ [] := fun k => h0 (.inl k)
  have hif : ¬ (s.length = 0 ∨ s.length > 320) := by
    have := List.length_pos_iff.2 hne
    omega
  by_cases h1 : o.comment = .disallow ∧ s.head? = some (asc '(')
  · have : parse o idna s = .err .commentDisallow := by
      rw [parse_eq, if_neg hif]
      cases s with
      | nil => exact absurd rfl hne
      | cons b r =>
        obtain ⟨k1, k2⟩ := h1
        cases k2
        rw [k1, lead_disallow]; rfl
    rw [this]; exact decide_err _ _ _ h1
  refine decide_skip _ _ _ _ h1 ?_
  have stage : ∀ c1 q t r, Begins o s c1 q t r → ¬ (o.comment = .disallow ∧ r.head? = some (asc '(')) → parse o idna s = .err .invalid := by
    intro c1 q t r h hd
    obtain ⟨l, hl, hq, hnq, hr, he⟩ := begins_rest o idna s hs hlen c1 q t r h
    obtain ⟨k1, k2, k3, k4⟩ := h
    rw [he] at hp ⊢
    rcases rest2_stage o idna (comment c1 ++ quote q t) r c1 l hl hr k3 (by rw [← k1]; exact hlen) with k | ⟨_, k⟩ | ⟨k, _⟩ | ⟨c2, d, k, kd, _, kc⟩
    · exact k
    · exact absurd k hd
    · exact absurd k hp
    · refine absurd ?_ hn
      have hs' : s = comment c1 ++ quote q t ++ comment c2 ++ ascii "@" ++ d := by
        rw [k1, k]; simp [ascii, asc]
      by_cases hc : q = true ∧ ¬ Unquoted o.nonAscii t
      · exact ⟨2, d, c1, q, t, c2, hs', hlen, kd, k2, kc, .inl ⟨hc.1, hc.2, rfl⟩⟩
      · exact ⟨0, d, c1, q, t, c2, hs', hlen, kd, k2, kc, .inr ⟨hc, rfl⟩⟩
  have none : (¬ ∃ c1 q t r, Begins o s c1 q t r) → parse o idna s = .err .invalid := by
    intro h
    rcases parse_stage o idna s hs with k | ⟨_, k⟩ | ⟨c1, l, r2, _, k1, k2, _, k3, k4, _⟩
    · exact k
    · exact absurd k h1
    · refine absurd ⟨c1, l.quoted, l.text, r2, ?_, k3, k2, k4⟩ h
      rw [k1]; simp
  by_cases h2 : ¬ ∃ c1 q t r, Begins o s c1 q t r
  · rw [none h2]; exact decide_err _ _ _ h2
  refine decide_skip _ _ _ _ h2 ?_
  by_cases h3 : o.comment = .disallow ∧ ∃ c1 q t r, Begins o s c1 q t r ∧ r.head? = some (asc '(')
  · have : parse o idna s = .err .commentDisallow := by
      obtain ⟨ho, c1, q, t, r, hb, hr⟩ := h3
      obtain ⟨l, hl, -, -, -, he⟩ := begins_rest o idna s hs hlen c1 q t r hb
      cases r with
      | nil => cases hr
      | cons b r =>
        cases hr
        rw [he, rest2, hl, after_disallow o _ r ho]; rfl
    rw [this]; exact decide_err _ _ _ h3
  refine decide_skip _ _ _ _ h3 ?_
  obtain ⟨c1, q, t, r, hb⟩ := Classical.not_not.1 h2
  rw [stage c1 q t r hb fun k => h3 ⟨k.1, c1, q, t, r, hb, k.2⟩]
  exact decide_err _ _ _ hn

theorem parse_at (o : Opts) (idna : Idna) (s : List UInt8) (hs : Str s) (saved : Nat) (d : List UInt8) (h : UpToAt o s saved d) :
    Str d ∧ d ≠ [] ∧ (parse o idna s).void = (domainSide o idna d (-(saved : Int))).void := by
  obtain ⟨c1, q, t, c2, h1, hlen, hd, h2, h3, h4⟩ := h
  have e2 : comment c2 ++ ascii "@" ++ d = comment c2 ++ asc '@' :: d := by simp [ascii, asc]
  have e : s = comment c1 ++ quote q t ++ (comment c2 ++ asc '@' :: d) := by rw [h1, ← e2]; simp
  have hb : Begins o s c1 q t (comment c2 ++ asc '@' :: d) := by
    refine ⟨e, h2, by simp, fun _ => ?_⟩
    cases c2 with
    | none => exact .inl rfl
    | some c => rw [comment_some]; exact .inr rfl
  obtain ⟨l, hl, hq, hnq, hr, he⟩ := begins_rest o idna s hs hlen c1 q t _ hb
  refine ⟨(str_cut _ _ _ (by decide) hr).2, hd, ?_⟩
  rw [he, rest2_at o idna _ d c1 c2 l hl (by rw [← e]; exact hlen) h3 hr hd]
  have : (if (l.quoted && l.needQuoted) = true then (-2 : Int) else 0) = -(saved : Int) := by
    rcases h4 with ⟨k1, k2, rfl⟩ | ⟨k, rfl⟩
    · rw [if_pos (by rw [hq, k1, hnq.2 ⟨k1, k2⟩]; rfl)]; rfl
    · rw [if_neg]; · rfl
      intro k'
      rw [Bool.and_eq_true] at k'
      exact k (hnq.1 k'.2)
  rw [this]
  cases domainSide o idna d (-(saved : Int)) <;> rfl

/-- The comment before the host. -/
theorem lead_starts (o : Opts) (d : List UInt8) (hd : d.length ≤ 255) (c3 : Option (List UInt8)) (r : List UInt8) (h : HostStarts d c3 r)
    (hc : c3 ≠ none → o.comment = .allow) : Lead o.comment 253 d c3 r := by
  obtain ⟨h1, h2, h3, h4⟩ := h
  refine ⟨h1, h3, h2, fun _ => h4, hc, ?_⟩
  rintro cc rfl
  rw [h1, comment_some] at hd
  have := List.length_pos_iff.2 h3
  simp at hd
  omega

theorem starts_comment (o : Opts) (d : List UInt8) (c3 : Option (List UInt8)) (r : List UInt8) (h : d = comment c3 ++ r)
    (hd : ¬ (o.comment = .disallow ∧ d.head? = some (asc '('))) : c3 ≠ none → o.comment = .allow := by
  intro k
  cases ho : o.comment with
  | allow => rfl
  | disallow =>
    cases c3 with
    | none => exact absurd rfl k
    | some c =>
      rw [comment_some] at h
      exact absurd ⟨ho, by rw [h]; rfl⟩ hd

theorem noHost_checks (o : Opts) (idna : Idna) (d : List UInt8) (hs : Str d) (hne : d ≠ []) (offset : Int)
    (hn : ¬ ∃ c3 h x tail, HostIn idna d c3 h x tail) : Decide (noHost o idna d) (domainSide o idna d offset) := by
  unfold noHost
  rw [domainSide_eq]
  by_cases h0 : 255 < d.length
  · rw [if_pos h0]; exact decide_err _ _ _ h0
  rw [if_neg h0]
  refine decide_skip _ _ _ _ h0 ?_
  by_cases h1 : o.comment = .disallow ∧ d.head? = some (asc '(')
  · have : leadComment o.comment 253 d = .err .commentDisallow := by
      cases d with
      | nil => exact absurd rfl hne
      | cons b r =>
        obtain ⟨k1, k2⟩ := h1
        cases k2
        rw [k1, lead_disallow]
    rw [this]; exact decide_err _ _ _ h1
  refine decide_skip _ _ _ _ h1 ?_
  by_cases h2 : ¬ ∃ c3 r, HostStarts d c3 r
  · have : ((leadComment o.comment 253 d).bind fun r => hostSide o idna d offset r.1 r.2) = .err .invalid := by
      cases hl : leadComment o.comment 253 d with
      | panic => exact absurd hl (lead_panic _ _ _ hs hne)
      | err e =>
        rcases lead_err _ _ _ hs e hl with rfl | ⟨_, k⟩
        · rfl
        · exact absurd k h1
      | ok v =>
        obtain ⟨n, c3⟩ := v
        rw [lead_ok _ _ _ hs hne] at hl
        obtain ⟨r, hl, rfl⟩ := hl
        rw [Out.bind_ok]
        have ht := hl.text
        cases r with
        | nil => exact absurd rfl hl.nonempty
        | cons b r =>
          by_cases hb : b = asc '('
          · unfold hostSide hostBranch
            simp only
            rw [ht, idx_cut _ _ _ _ rfl, Out.bind_ok, if_pos hb]; rfl
          · exact absurd ⟨c3, b :: r, ht, hl.closed, by simp, by simpa using hb⟩ h2
    rw [this]; exact decide_err _ _ _ h2
  refine decide_skip _ _ _ _ h2 ?_
  obtain ⟨c3, r, hst⟩ := Classical.not_not.1 h2
  have hl := lead_starts o d (by omega) c3 r hst (starts_comment o d c3 r hst.1 h1)
  have hrs := lead_str _ _ _ hs _ _ hl
  have uniq : ∀ c' r', HostStarts d c' r' → r' = r := by
    intro c' r' h'
    have hl' := lead_starts o d (by omega) c' r' h' (starts_comment o d c' r' h'.1 h1)
    have a := (lead_ok o.comment 253 d hs hne _ c3).2 ⟨r, hl, rfl⟩
    have b := (lead_ok o.comment 253 d hs hne _ c').2 ⟨r', hl', rfl⟩
    rw [a] at b
    have e : c3 = c' := (Prod.mk.inj (Out.ok.inj b)).2
    subst e
    exact List.append_cancel_left (h'.1.symm.trans hst.1)
  rw [(lead_ok o.comment 253 d hs hne _ c3).2 ⟨r, hl, rfl⟩, Out.bind_ok]
  have ht := hl.text
  have hsome : ∃ b, r.head? = some b := by
    cases r with
    | nil => exact absurd rfl hl.nonempty
    | cons b r => exact ⟨b, rfl⟩
  obtain ⟨b, hb⟩ := hsome
  have hb1 : b ≠ asc '(' := fun k => hst.2.2.2 (by rw [hb, k])
  have hside : ∀ e, hostBranch o idna (comment c3 ++ r) (comment c3).length b = .err e →
      hostSide o idna d offset (comment c3).length c3 = .err e := by
    intro e he
    unfold hostSide
    cases r with
    | nil => cases hb
    | cons b' r =>
      cases hb
      rw [ht, idx_cut _ _ _ _ rfl, Out.bind_ok, he]; rfl
  by_cases h3 : o.ip = .disallow ∧ ∃ c3 r, HostStarts d c3 r ∧ r.head? = some (asc '[')
  · obtain ⟨k1, c', r', k2, k3⟩ := h3
    have := uniq c' r' k2
    subst this
    rw [hb] at k3
    cases k3
    rw [hside .ipDisallow (by unfold hostBranch ipPart; rw [if_neg hb1, if_pos rfl, if_pos k1])]
    exact decide_err _ _ _ ⟨k1, c', r', k2, hb⟩
  refine decide_skip _ _ _ _ h3 ?_
  by_cases h4 : o.atl = .disallow ∧ ∃ c3 r, HostStarts d c3 r ∧ r.head? = some (asc '[')
  · obtain ⟨k1, c', r', k2, k3⟩ := h4
    have := uniq c' r' k2
    subst this
    have hi : o.ip ≠ .disallow := fun k => h3 ⟨k, c', r', k2, k3⟩
    rw [hb] at k3
    cases k3
    rw [hside .atLeastTwoLabelsDisallow (by unfold hostBranch ipPart; rw [if_neg hb1, if_pos rfl, if_neg hi, if_pos k1])]
    exact decide_err _ _ _ ⟨k1, c', r', k2, hb⟩
  refine decide_skip _ _ _ _ h4 ?_
  by_cases h5 : o.ip = .must ∧ ∃ c3 r, HostStarts d c3 r ∧ r.head? ≠ some (asc '[')
  · obtain ⟨k1, c', r', k2, k3⟩ := h5
    have := uniq c' r' k2
    subst this
    rw [hside .ipMust (by
      unfold hostBranch domainPart
      rw [if_neg hb1, if_neg (by rintro rfl; exact k3 hb), if_pos k1])]
    exact decide_err _ _ _ ⟨k1, c', r', k2, k3⟩
  refine decide_skip _ _ _ _ h5 ?_
  have : hostBranch o idna (comment c3 ++ r) (comment c3).length b = .err .invalid := by
    rcases host_other o idna (comment c3) r b hb hrs with ⟨x, h, tail, k1, k2, k3⟩ | k | ⟨_, k1, rfl⟩ | ⟨_, k1, rfl⟩ | ⟨_, k1, k2⟩
    · refine absurd ⟨c3, h, x, tail, ?_, hl.closed, k2, k3⟩ hn
      rw [ht, k1]; simp
    · exact k
    · exact absurd ⟨k1, c3, r, hst, hb⟩ h3
    · exact absurd ⟨k1, c3, r, hst, hb⟩ h4
    · exact absurd ⟨k1, c3, r, hst, by rw [hb]; simpa using k2⟩ h5
  rw [hside _ this]
  exact decide_err _ _ _ hn

theorem host_checks (o : Opts) (idna : Idna) (d : List UInt8) (hs : Str d) (hne : d ≠ []) (saved : Nat) (c3 : Option (List UInt8)) (h : List UInt8)
    (x : Host) (tail : List UInt8) (hi : HostIn idna d c3 h x tail) :
    Decide (EmailOrder.host o saved d c3 h x tail) (domainSide o idna d (-(saved : Int))) := by
  obtain ⟨h1, h2, hx, hts⟩ := hi
  have ht : d = comment c3 ++ (h ++ tail) := by rw [h1]; simp
  have hh := host_nonempty idna h x hx
  have hst : HostStarts d c3 (h ++ tail) := by
    refine ⟨ht, h2, by simp [hh.1], ?_⟩
    cases h with
    | nil => exact absurd rfl hh.1
    | cons b h => exact hh.2
  unfold EmailOrder.host
  rw [domainSide_eq]
  by_cases h0 : 255 < d.length
  · rw [if_pos h0]; exact decide_err _ _ _ h0
  rw [if_neg h0]
  refine decide_skip _ _ _ _ h0 ?_
  by_cases c1 : o.comment = .disallow ∧ c3 ≠ none
  · have : leadComment o.comment 253 d = .err .commentDisallow := by
      cases c3 with
      | none => exact absurd rfl c1.2
      | some c => rw [ht, comment_some, c1.1, lead_disallow]
    rw [this]; exact decide_err _ _ _ c1
  refine decide_skip _ _ _ _ c1 ?_
  have hl := lead_starts o d (by omega) c3 _ hst (fun k => by
    cases ho : o.comment with
    | allow => rfl
    | disallow => exact absurd ⟨ho, k⟩ c1)
  have hrs := lead_str _ _ _ hs _ _ hl
  have hst' := host_tail_str idna h tail x hx hts hrs
  rw [(lead_ok o.comment 253 d hs hne _ c3).2 ⟨_, hl, rfl⟩, Out.bind_ok]
  simp only
  rw [ht, hostSide_text o idna _ h tail x hx hts hrs]
  -- what follows the labels
  have rest : ∀ hp : HostPart, hp = partOf o x (comment c3).length h →
      Decide [(o.loc = .must ∧ ¬ LocalHost x, .localMust), (o.loc = .disallow ∧ LocalHost x, .localDisallow),
        (h.length + saved < (showHost x).length ∧ 255 + saved < (comment c3 ++ showHost x ++ tail).length, .invalid),
        (o.comment = .disallow ∧ tail ≠ [], .commentDisallow), (¬ ∃ c4, Tail o c4 tail, .invalid)]
      ((checkLocal o.loc hp.isLocal).bind fun _ => finishSide o (comment c3 ++ (h ++ tail)) (-(saved : Int)) c3 hp) := by
    rintro hp rfl
    have hloc : (partOf o x (comment c3).length h).isLocal = localOf o (isLocalHost x) := rfl
    rw [hloc]
    by_cases k1 : o.loc = .must ∧ ¬ LocalHost x
    · have : checkLocal o.loc (localOf o (isLocalHost x)) = .err .localMust := by
        have := k1.2
        rw [← isLocalHost_iff] at this
        unfold checkLocal localOf
        simp [k1.1, this]
      rw [this]; exact decide_err _ _ _ k1
    refine decide_skip _ _ _ _ k1 ?_
    by_cases k2 : o.loc = .disallow ∧ LocalHost x
    · have : checkLocal o.loc (localOf o (isLocalHost x)) = .err .localDisallow := by
        have := k2.2
        rw [← isLocalHost_iff] at this
        unfold checkLocal localOf
        simp [k2.1, this]
      rw [this]; exact decide_err _ _ _ k2
    refine decide_skip _ _ _ _ k2 ?_
    have hok : checkLocal o.loc (localOf o (isLocalHost x)) = .ok () := by
      rw [checkLocal_ok, isLocalHost_iff]
      unfold Verif.Spec.Ip.LocalOk
      cases ho : o.loc with
      | allow => trivial
      | must => exact Classical.not_not.1 fun k => k1 ⟨ho, k⟩
      | disallow => exact fun k => k2 ⟨ho, k⟩
    rw [hok, Out.bind_ok]
    unfold finishSide partOf
    simp only
    have e : (comment c3 ++ (h ++ tail)) = (comment c3 ++ h) ++ tail := by simp
    have hlen : (comment c3).length + h.length = (comment c3 ++ h).length := by simp
    by_cases k3 : h.length + saved < (showHost x).length ∧ 255 + saved < (comment c3 ++ showHost x ++ tail).length
    · rw [if_pos (by
        simp only [List.length_append, Int.natCast_add] at k3 ⊢
        omega)]
      exact decide_err _ _ _ k3
    rw [if_neg (by
      simp only [List.length_append, Int.natCast_add] at k3 ⊢
      omega)]
    refine decide_skip _ _ _ _ k3 ?_
    rw [e, hlen]
    by_cases k4 : o.comment = .disallow ∧ tail ≠ []
    · have : afterDomain o.comment (comment c3 ++ h ++ tail) (comment c3 ++ h).length = .err .commentDisallow := by
        unfold afterDomain
        rw [if_pos (by have := List.length_pos_iff.2 k4.2; simp; omega), if_pos k4.1]
      rw [this]; exact decide_err _ _ _ k4
    refine decide_skip _ _ _ _ k4 ?_
    by_cases k5 : ∃ c4, Tail o c4 tail
    · obtain ⟨c4, k5⟩ := k5
      rw [(tail_ok o _ tail hst' c4).2 k5, Out.bind_ok]
      exact decide_skip _ _ _ _ (fun k => k ⟨c4, k5⟩) ((decide_nil _).2 ⟨_, rfl⟩)
    · rcases tail_other o.comment (comment c3 ++ h) tail hst' with ⟨c4, k⟩ | k | ⟨_, k⟩
      · exact absurd ⟨c4, (tail_ok o _ tail hst' c4).1 k⟩ k5
      · rw [k]; exact decide_err _ _ _ k5
      · exact absurd k k4
  unfold hostOut
  cases x with
  | domain a =>
    refine decide_skip _ _ _ _ (fun k => k.2 ⟨a, rfl⟩) (decide_skip _ _ _ _ (fun k => k.2 ⟨a, rfl⟩) ?_)
    simp only
    by_cases k1 : o.ip = .must
    · rw [if_pos k1]; exact decide_err _ _ _ ⟨k1, a, rfl⟩
    rw [if_neg k1]
    refine decide_skip _ _ _ _ (fun k => k1 k.1) ?_
    by_cases k2 : o.atl = .must ∧ ∃ b, Host.domain a = .domain b ∧ ¬ LocalName b ∧ ¬ ManyLabels b
    · obtain ⟨k2, b, k3, k4, k5⟩ := k2
      cases k3
      have : checkLabels o.atl (localOf o (isLocalHost (.domain a))) a = .err .atLeastTwoLabelsMust := by
        have k5' := k5
        rw [← Verif.Domain.manyLabels_iff] at k5'
        have k4' : ¬ isLocalHost (.domain a) = true := by rw [isLocalHost_iff]; exact k4
        unfold checkLabels localOf
        simp [k2, k4', k5']
      rw [this]; exact decide_err _ _ _ ⟨k2, a, rfl, k4, k5⟩
    refine decide_skip _ _ _ _ k2 ?_
    by_cases k3 : o.atl = .disallow ∧ ∃ b, Host.domain a = .domain b ∧ ¬ LocalName b ∧ ManyLabels b
    · obtain ⟨k3, b, k4, k5, k6⟩ := k3
      cases k4
      have : checkLabels o.atl (localOf o (isLocalHost (.domain a))) a = .err .atLeastTwoLabelsDisallow := by
        have k6' := k6
        rw [← Verif.Domain.manyLabels_iff] at k6'
        have k5' : ¬ isLocalHost (.domain a) = true := by rw [isLocalHost_iff]; exact k5
        unfold checkLabels localOf
        simp [k3, k5', k6']
      rw [this]; exact decide_err _ _ _ ⟨k3, a, rfl, k5, k6⟩
    refine decide_skip _ _ _ _ k3 ?_
    have : checkLabels o.atl (localOf o (isLocalHost (.domain a))) a = .ok () := by
      rw [checkLabels_ok, isLocalHost_iff]
      unfold LabelsOk
      cases ho : o.atl with
      | allow => trivial
      | must =>
        refine Classical.or_iff_not_imp_left.2 fun k => Classical.byContradiction fun k' => k2 ⟨ho, a, rfl, k, k'⟩
      | disallow =>
        refine Classical.or_iff_not_imp_left.2 fun k k' => k3 ⟨ho, a, rfl, k, k'⟩
    rw [this]
    exact rest _ rfl
  | ipv4 y =>
    have nd : ¬ ∃ a, Host.ipv4 y = .domain a := by rintro ⟨a, k⟩; cases k
    by_cases k1 : o.ip = .disallow
    · simp only; rw [if_pos k1]; exact decide_err _ _ _ ⟨k1, nd⟩
    refine decide_skip _ _ _ _ (fun k => k1 k.1) ?_
    by_cases k2 : o.atl = .disallow
    · simp only; rw [if_neg k1, if_pos k2]; exact decide_err _ _ _ ⟨k2, nd⟩
    refine decide_skip _ _ _ _ (fun k => k2 k.1) (decide_skip _ _ _ _ (fun k => nd k.2) (decide_skip _ _ _ _ (by rintro ⟨_, a, k, _⟩; cases k)
      (decide_skip _ _ _ _ (by rintro ⟨_, a, k, _⟩; cases k) ?_)))
    simp only; rw [if_neg k1, if_neg k2]
    exact rest _ rfl
  | ipv6 y =>
    have nd : ¬ ∃ a, Host.ipv6 y = .domain a := by rintro ⟨a, k⟩; cases k
    by_cases k1 : o.ip = .disallow
    · simp only; rw [if_pos k1]; exact decide_err _ _ _ ⟨k1, nd⟩
    refine decide_skip _ _ _ _ (fun k => k1 k.1) ?_
    by_cases k2 : o.atl = .disallow
    · simp only; rw [if_neg k1, if_pos k2]; exact decide_err _ _ _ ⟨k2, nd⟩
    refine decide_skip _ _ _ _ (fun k => k2 k.1) (decide_skip _ _ _ _ (fun k => nd k.2) (decide_skip _ _ _ _ (by rintro ⟨_, a, k, _⟩; cases k)
      (decide_skip _ _ _ _ (by rintro ⟨_, a, k, _⟩; cases k) ?_)))
    simp only; rw [if_neg k1, if_neg k2]
    exact rest _ rfl

end Verif.EmailOrder
