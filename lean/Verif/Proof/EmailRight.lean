import Verif.Proof.EmailLeft

/-! The side of an email after the `@`. -/

namespace Verif.Email

open Verif.Spec Verif.Spec.Ip Verif.Spec.Domain Verif.Spec.Host Verif.Spec.Email Verif.StdIp
open Verif.Ip (Str str_cut str_append str_ascii boundary_cut boundary_byte strSlice strSliceFrom strSlice_mid strSliceFrom_cut isCharBoundary
  isLocalV4 isLocalV6 v6Text_ascii v6Text_no_bracket text_ascii text_bytes text_ne_nil isLocalV4_iff isLocalV6_iff)
open Verif.Domain (Idna bind_ok_iff bind_err_iff bind_panic_iff getLast_dot localName_iff manyLabels_iff isLocalDomain isAtLeastTwoLabelsDomain)
open Verif.Host (Host)

/-- The branch on the first byte of the host. -/
def hostBranch (o : Opts) (idna : Idna) (t : List UInt8) (start : Nat) (b : UInt8) : Out EmailError HostPart :=
  if b = asc '(' then .err .invalid else if b = asc '[' then ipPart o t start else domainPart o idna t start

def isLocalHost : Host → Bool
  | .ipv4 x => isLocalV4 x
  | .ipv6 x => isLocalV6 x
  | .domain a => isLocalDomain a

theorem isLocalHost_iff (h : Host) : isLocalHost h = true ↔ LocalHost h := by
  cases h with
  | ipv4 x => exact isLocalV4_iff x
  | ipv6 x => exact isLocalV6_iff x
  | domain a => exact localName_iff a

/-- What the branch gives for a host. -/
def hostOut (o : Opts) (x : Host) (start : Nat) (h : List UInt8) : Out EmailError HostPart :=
  let hp : HostPart := ⟨x, localOf o (isLocalHost x), start + h.length, ((showHost x).length : Int) - h.length⟩
  match x with
  | .domain a => if o.ip = .must then .err .ipMust else (checkLabels o.atl (localOf o (isLocalHost x)) a).bind fun _ => .ok hp
  | _ => if o.ip = .disallow then .err .ipDisallow else if o.atl = .disallow then .err .atLeastTwoLabelsDisallow else .ok hp

theorem bracket_lt : (asc ']').toNat < 128 := by decide

theorem showV4_text (x : V4) : showV4 x = x.text := Verif.StdIp.showV4_eq x

/-! ### Addresses -/

theorem ipPart_v6 (o : Opts) (p m t : List UInt8) (hs : Str (m ++ asc ']' :: t)) (hm : asc ']' ∉ m) (h1 : o.ip ≠ .disallow) (h2 : o.atl ≠ .disallow) :
    ipPart o (p ++ (ascii "[IPv6:" ++ (m ++ asc ']' :: t))) p.length =
      match parseV6 m with
      | some ip => .ok ⟨.ipv6 ip, localOf o (isLocalV6 ip), p.length + (m.length + 7), ((showV6 ip).length : Int) - m.length⟩
      | none => .err .invalid := by
  have e1 : (sliceFrom (p ++ (ascii "[IPv6:" ++ (m ++ asc ']' :: t))) (p.length + 1) : Out EmailError _) = .ok (ascii "IPv6:" ++ (m ++ asc ']' :: t)) := by
    have := sliceFrom_cut (ε := EmailError) (p ++ ascii "[") (ascii "IPv6:" ++ (m ++ asc ']' :: t)) (p.length + 1) (by simp [ascii])
    rw [List.append_assoc] at this
    exact this
  have e2 : (sliceFrom (p ++ (ascii "[IPv6:" ++ (m ++ asc ']' :: t))) (p.length + 1 + 5) : Out EmailError _) = .ok (m ++ asc ']' :: t) := by
    have := sliceFrom_cut (ε := EmailError) (p ++ ascii "[IPv6:") (m ++ asc ']' :: t) (p.length + 1 + 5) (by simp [ascii])
    rw [List.append_assoc] at this
    exact this
  have e3 : (strSlice (p ++ (ascii "[IPv6:" ++ (m ++ asc ']' :: t))) (p.length + 1 + 5) (m.length + (p.length + 1 + 5)) : Out EmailError _) = .ok m := by
    have := slice_mid (ε := EmailError) (p ++ ascii "[IPv6:") m t (asc ']') (by decide) hs (p.length + 1 + 5) (m.length + (p.length + 1 + 5))
      (by simp [ascii]) (by simp [ascii]; omega)
    rw [List.append_assoc] at this
    exact this
  unfold ipPart
  rw [if_neg h1, if_neg h2]
  simp only
  rw [if_pos (by simp [ascii]), e1, Out.bind_ok, if_pos (List.prefix_append _ _), if_pos (by simp [ascii]; omega), e2, Out.bind_ok, position_some _ _ _ hm]
  simp only
  rw [e3, Out.bind_ok]
  cases parseV6 m with
  | none => rfl
  | some ip =>
    simp only
    congr 2
    omega

theorem ipPart_v6_open (o : Opts) (p m : List UInt8) (hm : asc ']' ∉ m) (h1 : o.ip ≠ .disallow) (h2 : o.atl ≠ .disallow) :
    ipPart o (p ++ (ascii "[IPv6:" ++ m)) p.length = .err .invalid := by
  have e1 : (sliceFrom (p ++ (ascii "[IPv6:" ++ m)) (p.length + 1) : Out EmailError _) = .ok (ascii "IPv6:" ++ m) := by
    have := sliceFrom_cut (ε := EmailError) (p ++ ascii "[") (ascii "IPv6:" ++ m) (p.length + 1) (by simp [ascii])
    rw [List.append_assoc] at this
    exact this
  have e2 : (sliceFrom (p ++ (ascii "[IPv6:" ++ m)) (p.length + 1 + 5) : Out EmailError _) = .ok m := by
    have := sliceFrom_cut (ε := EmailError) (p ++ ascii "[IPv6:") m (p.length + 1 + 5) (by simp [ascii])
    rw [List.append_assoc] at this
    exact this
  unfold ipPart
  rw [if_neg h1, if_neg h2]
  simp only
  rw [if_pos (by simp [ascii]), e1, Out.bind_ok, if_pos (List.prefix_append _ _)]
  split
  · rw [e2, Out.bind_ok, (position_none _ _).2 hm]
  · rfl

theorem ipPart_v4 (o : Opts) (p m t : List UInt8) (hs : Str (m ++ asc ']' :: t)) (hm : asc ']' ∉ m) (h1 : o.ip ≠ .disallow) (h2 : o.atl ≠ .disallow)
    (h6 : ¬ ascii "IPv6:" <+: m ++ asc ']' :: t) :
    ipPart o (p ++ (ascii "[" ++ (m ++ asc ']' :: t))) p.length =
      match parseV4 m with
      | some ip => .ok ⟨.ipv4 ip, localOf o (isLocalV4 ip), p.length + (m.length + 2), 0⟩
      | none => .err .invalid := by
  have e1 : (sliceFrom (p ++ (ascii "[" ++ (m ++ asc ']' :: t))) (p.length + 1) : Out EmailError _) = .ok (m ++ asc ']' :: t) := by
    have := sliceFrom_cut (ε := EmailError) (p ++ ascii "[") (m ++ asc ']' :: t) (p.length + 1) (by simp [ascii])
    rw [List.append_assoc] at this
    exact this
  have e3 : (strSlice (p ++ (ascii "[" ++ (m ++ asc ']' :: t))) (p.length + 1) (m.length + (p.length + 1)) : Out EmailError _) = .ok m := by
    have := slice_mid (ε := EmailError) (p ++ ascii "[") m t (asc ']') (by decide) hs (p.length + 1) (m.length + (p.length + 1))
      (by simp [ascii]) (by simp [ascii]; omega)
    rw [List.append_assoc] at this
    exact this
  unfold ipPart
  rw [if_neg h1, if_neg h2]
  simp only
  rw [if_pos (by simp [ascii]; omega), e1, Out.bind_ok, if_neg h6, position_some _ _ _ hm]
  simp only
  rw [e3, Out.bind_ok]
  cases parseV4 m with
  | none => rfl
  | some ip =>
    simp only
    congr 2
    omega

theorem ipPart_v4_open (o : Opts) (p m : List UInt8) (hm : asc ']' ∉ m) (h1 : o.ip ≠ .disallow) (h2 : o.atl ≠ .disallow)
    (h6 : ¬ ascii "IPv6:" <+: m) : ipPart o (p ++ (ascii "[" ++ m)) p.length = .err .invalid := by
  have e1 : (sliceFrom (p ++ (ascii "[" ++ m)) (p.length + 1) : Out EmailError _) = .ok m := by
    have := sliceFrom_cut (ε := EmailError) (p ++ ascii "[") m (p.length + 1) (by simp [ascii])
    rw [List.append_assoc] at this
    exact this
  unfold ipPart
  rw [if_neg h1, if_neg h2]
  simp only
  split
  · rw [e1, Out.bind_ok, if_neg h6, (position_none _ _).2 hm]
  · rfl

theorem v4_not_v6 (x : V4) (r : List UInt8) : ¬ ascii "IPv6:" <+: x.text ++ r := by
  rintro ⟨s, hs⟩
  have hne := text_ne_nil x
  cases hx : x.text with
  | nil => exact hne hx
  | cons b l =>
    rw [hx] at hs
    have hb : asc 'I' = b := (List.cons.inj hs).1
    have := text_bytes x b (by rw [hx]; simp)
    rw [← hb] at this
    revert this
    decide

theorem v4_no_bracket (x : V4) : asc ']' ∉ x.text := by
  intro h
  have := text_bytes x _ h
  revert this
  decide

/-! ### The host -/

theorem domainPart_text (o : Opts) (idna : Idna) (p d tail : List UInt8) (hd : asc '(' ∉ d) (hs : Str (d ++ tail))
    (htail : tail = [] ∨ tail.head? = some (asc '(')) (ho : o.ip ≠ .must) :
    domainPart o idna (p ++ (d ++ tail)) p.length =
      if d.getLast? = some (asc '.') then .err .invalid
      else match idna d with
        | some a =>
          (checkLabels o.atl (localOf o (isLocalDomain a)) a).bind fun _ =>
            .ok ⟨.domain a, localOf o (isLocalDomain a), p.length + d.length, (a.length : Int) - d.length⟩
        | none => .err .invalid := by
  unfold domainPart
  rw [if_neg ho, sliceFrom_cut p (d ++ tail) _ rfl, Out.bind_ok]
  rcases htail with rfl | ht
  · rw [List.append_nil] at hs ⊢
    rw [(position_none _ _).2 hd]
    simp only
    rw [strSliceFrom_cut p d (boundary_cut p d hs), Out.bind_ok]
    rfl
  · cases tail with
    | nil => cases ht
    | cons c tail =>
      simp only [List.head?_cons, Option.some.injEq] at ht
      subst ht
      rw [position_some _ _ _ hd]
      simp only
      rw [slice_mid p d tail (asc '(') (by decide) hs _ _ rfl (by omega), Out.bind_ok]
      rfl

/-- The tail of a domain starts with a comment. -/
def TailStart (x : Host) (tail : List UInt8) : Prop := (∃ a, x = .domain a) → tail = [] ∨ tail.head? = some (asc '(')

theorem host_text (o : Opts) (idna : Idna) (p h tail : List UInt8) (x : Host) (hx : HostText idna h x) (hs : Str (h ++ tail))
    (ht : TailStart x tail) (b : UInt8) (hb : (h ++ tail).head? = some b) :
    hostBranch o idna (p ++ (h ++ tail)) p.length b = hostOut o x p.length h := by
  cases hx with
  | ipv4 =>
    rename_i x
    have : b = asc '[' := by simpa [ascii] using hb.symm
    subst this
    unfold hostBranch
    rw [if_neg (by decide), if_pos rfl]
    have hlen : (ascii "[" ++ x.text ++ ascii "]").length = x.text.length + 2 := by simp [ascii]
    unfold hostOut
    simp only
    by_cases h1 : o.ip = .disallow
    · unfold ipPart; rw [if_pos h1, if_pos h1]
    · by_cases h2 : o.atl = .disallow
      · unfold ipPart; rw [if_neg h1, if_pos h2, if_neg h1, if_pos h2]
      · rw [if_neg h1, if_neg h2]
        have e : ascii "[" ++ x.text ++ ascii "]" ++ tail = ascii "[" ++ (x.text ++ asc ']' :: tail) := by simp [ascii, asc]
        rw [e, ipPart_v4 o p x.text tail (by
          rw [e] at hs
          exact str_tail (asc '[') _ (by decide) hs) (v4_no_bracket x) h1 h2 (v4_not_v6 x _), (parseV4_iff _ _).2 rfl, hlen]
        simp only [showHost, showV4_text]
        congr 2
        simp [isLocalHost]
        omega
  | ipv6 hv =>
    rename_i t x
    have : b = asc '[' := by simpa [ascii] using hb.symm
    subst this
    unfold hostBranch
    rw [if_neg (by decide), if_pos rfl]
    have hlen : (ascii "[IPv6:" ++ t ++ ascii "]").length = t.length + 7 := by simp [ascii]
    unfold hostOut
    simp only
    by_cases h1 : o.ip = .disallow
    · unfold ipPart; rw [if_pos h1, if_pos h1]
    · by_cases h2 : o.atl = .disallow
      · unfold ipPart; rw [if_neg h1, if_pos h2, if_neg h1, if_pos h2]
      · rw [if_neg h1, if_neg h2]
        have e : ascii "[IPv6:" ++ t ++ ascii "]" ++ tail = ascii "[IPv6:" ++ (t ++ asc ']' :: tail) := by simp [ascii, asc]
        rw [e, ipPart_v6 o p t tail (by
          rw [e] at hs
          have := (str_cut (ascii "[IPv6") (t ++ asc ']' :: tail) (asc ':') (by decide) hs).2
          exact this) (v6Text_no_bracket _ _ hv).2 h1 h2, (parseV6_iff _ _).2 hv, hlen]
        simp only [showHost, isLocalHost]
        congr 2
        simp [ascii]
        omega
  | domain h1 h2 h3 h4 h5 =>
    rename_i a
    have hb1 : b ≠ asc '[' ∧ b ≠ asc '(' := by
      cases h with
      | nil => exact absurd rfl h1
      | cons c h =>
        simp only [List.cons_append, List.head?_cons, Option.some.injEq] at hb
        subst hb
        exact ⟨by simpa using h2, fun k => h3 (by simp [k])⟩
    unfold hostBranch
    rw [if_neg hb1.2, if_neg hb1.1]
    unfold hostOut
    simp only
    by_cases ho : o.ip = .must
    · unfold domainPart; rw [if_pos ho, if_pos ho]
    · rw [if_neg ho, domainPart_text o idna p h tail h3 hs (ht ⟨a, rfl⟩) ho, if_neg (by rw [getLast_dot]; exact h4), h5]
      rfl

/-- A host that is accepted, is one. -/
theorem host_found (o : Opts) (idna : Idna) (p r : List UInt8) (b : UInt8) (hb : r.head? = some b) (hs : Str r) (hp : HostPart)
    (h : hostBranch o idna (p ++ r) p.length b = .ok hp) : ∃ h tail, r = h ++ tail ∧ HostText idna h hp.host ∧ TailStart hp.host tail := by
  unfold hostBranch at h
  split at h
  · cases h
  · rename_i hb1
    split at h
    · rename_i hb2
      subst hb2
      cases r with
      | nil => cases hb
      | cons c r =>
        simp only [List.head?_cons, Option.some.injEq] at hb
        subst hb
        have h1 : o.ip ≠ .disallow := by intro k; unfold ipPart at h; rw [if_pos k] at h; cases h
        have h2 : o.atl ≠ .disallow := by intro k; unfold ipPart at h; rw [if_neg h1, if_pos k] at h; cases h
        have hr : Str r := str_tail _ _ (by decide) hs
        by_cases h6 : ascii "IPv6:" <+: r
        · obtain ⟨m, rfl⟩ := h6
          by_cases hm : asc ']' ∈ m
          · obtain ⟨m, t, rfl, hm'⟩ := split_mem _ _ hm
            have := ipPart_v6 o p m t ((str_cut (ascii "IPv6") _ (asc ':') (by decide) hr).2) hm' h1 h2
            rw [show p ++ asc '[' :: (ascii "IPv6:" ++ (m ++ asc ']' :: t)) = p ++ (ascii "[IPv6:" ++ (m ++ asc ']' :: t)) from rfl, this] at h
            cases hv : parseV6 m with
            | none => rw [hv] at h; cases h
            | some ip =>
              rw [hv] at h
              cases h
              rw [parseV6_iff] at hv
              exact ⟨ascii "[IPv6:" ++ m ++ ascii "]", t, by simp [ascii, asc], .ipv6 hv, fun k => by obtain ⟨a, k⟩ := k; cases k⟩
          · have := ipPart_v6_open o p m hm h1 h2
            rw [show p ++ asc '[' :: (ascii "IPv6:" ++ m) = p ++ (ascii "[IPv6:" ++ m) from rfl, this] at h
            cases h
        · by_cases hm : asc ']' ∈ r
          · obtain ⟨m, t, rfl, hm'⟩ := split_mem _ _ hm
            have := ipPart_v4 o p m t hr hm' h1 h2 h6
            rw [show p ++ asc '[' :: (m ++ asc ']' :: t) = p ++ (ascii "[" ++ (m ++ asc ']' :: t)) from rfl, this] at h
            cases hv : parseV4 m with
            | none => rw [hv] at h; cases h
            | some ip =>
              rw [hv] at h
              cases h
              rw [parseV4_iff] at hv
              subst hv
              exact ⟨ascii "[" ++ ip.text ++ ascii "]", t, by simp [ascii, asc], .ipv4, fun k => by obtain ⟨a, k⟩ := k; cases k⟩
          · have := ipPart_v4_open o p r hm h1 h2 h6
            rw [show p ++ asc '[' :: r = p ++ (ascii "[" ++ r) from rfl, this] at h
            cases h
    · rename_i hb2
      have ho : o.ip ≠ .must := by intro k; unfold domainPart at h; rw [if_pos k] at h; cases h
      obtain ⟨d, tail, rfl, hd, ht⟩ : ∃ d tail, r = d ++ tail ∧ asc '(' ∉ d ∧ (tail = [] ∨ tail.head? = some (asc '(')) := by
        by_cases hm : asc '(' ∈ r
        · obtain ⟨m, t, rfl, hm'⟩ := split_mem _ _ hm
          exact ⟨m, asc '(' :: t, rfl, hm', .inr rfl⟩
        · exact ⟨r, [], by simp, hm, .inl rfl⟩
      rw [domainPart_text o idna p d tail hd hs ht ho] at h
      split at h
      · cases h
      · rename_i hdot
        cases hi : idna d with
        | none => rw [hi] at h; cases h
        | some a =>
          rw [hi] at h
          simp only at h
          rw [bind_ok_iff] at h
          obtain ⟨_, _, h⟩ := h
          cases h
          have hdn : d ≠ [] := by
            rintro rfl
            rw [List.nil_append] at hb
            rcases ht with rfl | ht
            · cases hb
            · rw [ht] at hb; cases hb; exact hb1 rfl
          refine ⟨d, tail, rfl, .domain hdn ?_ hd ?_ hi, fun _ => ht⟩
          · cases d with
            | nil => exact absurd rfl hdn
            | cons c d =>
              simp only [List.cons_append, List.head?_cons, Option.some.injEq] at hb
              subst hb
              simpa using hb2
          · rw [← getLast_dot]; exact hdot

/-- Decomposition of the host, for the remaining outcomes: without a host the error does not depend on one. -/
theorem host_other (o : Opts) (idna : Idna) (p r : List UInt8) (b : UInt8) (hb : r.head? = some b) (hs : Str r) :
    (∃ x h tail, r = h ++ tail ∧ HostText idna h x ∧ TailStart x tail) ∨
    hostBranch o idna (p ++ r) p.length b = .err .invalid ∨
    hostBranch o idna (p ++ r) p.length b = .err .ipDisallow ∧ o.ip = .disallow ∧ b = asc '[' ∨
    hostBranch o idna (p ++ r) p.length b = .err .atLeastTwoLabelsDisallow ∧ o.atl = .disallow ∧ b = asc '[' ∨
    hostBranch o idna (p ++ r) p.length b = .err .ipMust ∧ o.ip = .must ∧ b ≠ asc '[' := by
  unfold hostBranch
  by_cases hb1 : b = asc '('
  · rw [if_pos hb1]; exact .inr (.inl rfl)
  · rw [if_neg hb1]
    by_cases hb2 : b = asc '['
    · rw [if_pos hb2]
      subst hb2
      cases r with
      | nil => cases hb
      | cons c r =>
        simp only [List.head?_cons, Option.some.injEq] at hb
        subst hb
        by_cases h1 : o.ip = .disallow
        · unfold ipPart; rw [if_pos h1]; exact .inr (.inr (.inl ⟨rfl, h1, rfl⟩))
        by_cases h2 : o.atl = .disallow
        · unfold ipPart; rw [if_neg h1, if_pos h2]; exact .inr (.inr (.inr (.inl ⟨rfl, h2, rfl⟩)))
        have hr : Str r := str_tail _ _ (by decide) hs
        by_cases h6 : ascii "IPv6:" <+: r
        · obtain ⟨m, rfl⟩ := h6
          by_cases hm : asc ']' ∈ m
          · obtain ⟨m, t, rfl, hm'⟩ := split_mem _ _ hm
            have := ipPart_v6 o p m t ((str_cut (ascii "IPv6") _ (asc ':') (by decide) hr).2) hm' h1 h2
            rw [show p ++ asc '[' :: (ascii "IPv6:" ++ (m ++ asc ']' :: t)) = p ++ (ascii "[IPv6:" ++ (m ++ asc ']' :: t)) from rfl, this]
            cases hv : parseV6 m with
            | none => exact .inr (.inl rfl)
            | some ip =>
              rw [parseV6_iff] at hv
              exact .inl ⟨.ipv6 ip, ascii "[IPv6:" ++ m ++ ascii "]", t, by simp [ascii, asc], .ipv6 hv, fun k => by obtain ⟨a, k⟩ := k; cases k⟩
          · have := ipPart_v6_open o p m hm h1 h2
            rw [show p ++ asc '[' :: (ascii "IPv6:" ++ m) = p ++ (ascii "[IPv6:" ++ m) from rfl, this]
            exact .inr (.inl rfl)
        · by_cases hm : asc ']' ∈ r
          · obtain ⟨m, t, rfl, hm'⟩ := split_mem _ _ hm
            have := ipPart_v4 o p m t hr hm' h1 h2 h6
            rw [show p ++ asc '[' :: (m ++ asc ']' :: t) = p ++ (ascii "[" ++ (m ++ asc ']' :: t)) from rfl, this]
            cases hv : parseV4 m with
            | none => exact .inr (.inl rfl)
            | some ip =>
              rw [parseV4_iff] at hv
              subst hv
              exact .inl ⟨.ipv4 ip, ascii "[" ++ ip.text ++ ascii "]", t, by simp [ascii, asc], .ipv4, fun k => by obtain ⟨a, k⟩ := k; cases k⟩
          · have := ipPart_v4_open o p r hm h1 h2 h6
            rw [show p ++ asc '[' :: r = p ++ (ascii "[" ++ r) from rfl, this]
            exact .inr (.inl rfl)
    · rw [if_neg hb2]
      by_cases ho : o.ip = .must
      · unfold domainPart; rw [if_pos ho]; exact .inr (.inr (.inr (.inr ⟨rfl, ho, hb2⟩)))
      obtain ⟨d, tail, rfl, hd, ht⟩ : ∃ d tail, r = d ++ tail ∧ asc '(' ∉ d ∧ (tail = [] ∨ tail.head? = some (asc '(')) := by
        by_cases hm : asc '(' ∈ r
        · obtain ⟨m, t, rfl, hm'⟩ := split_mem _ _ hm
          exact ⟨m, asc '(' :: t, rfl, hm', .inr rfl⟩
        · exact ⟨r, [], by simp, hm, .inl rfl⟩
      rw [domainPart_text o idna p d tail hd hs ht ho]
      split
      · exact .inr (.inl rfl)
      · rename_i hdot
        cases hi : idna d with
        | none => exact .inr (.inl rfl)
        | some a =>
          have hdn : d ≠ [] := by
            rintro rfl
            rw [List.nil_append] at hb
            rcases ht with rfl | ht
            · cases hb
            · rw [ht] at hb; cases hb; exact hb1 rfl
          refine .inl ⟨.domain a, d, tail, rfl, .domain hdn ?_ hd ?_ hi, fun _ => ht⟩
          · cases d with
            | nil => exact absurd rfl hdn
            | cons c d =>
              simp only [List.cons_append, List.head?_cons, Option.some.injEq] at hb
              subst hb
              simpa using hb2
          · rw [← getLast_dot]; exact hdot

/-! ### Comment 4 -/

theorem tail_ok (o : Opts) (p tail : List UInt8) (hs : Str tail) (c4 : Option (List UInt8)) :
    afterDomain o.comment (p ++ tail) p.length = .ok c4 ↔ Tail o c4 tail := by
  unfold afterDomain Tail
  cases tail with
  | nil =>
    rw [if_neg (by simp)]
    constructor
    · intro h; cases h
      exact ⟨by simp [Closed], by simp, [], by simp [comment]⟩
    · rintro ⟨_, _, junk, h, _⟩
      cases c4 with
      | none => rfl
      | some c => rw [comment_some] at h; cases h
  | cons b t =>
    rw [if_pos (by simp)]
    cases ho : o.comment with
    | disallow =>
      rw [if_pos rfl]
      constructor
      · intro h; cases h
      · rintro ⟨_, h1, junk, h, h2⟩
        cases c4 with
        | none => rw [h2 rfl] at h; cases h
        | some c => exact absurd (h1 (by simp)) (by simp)
    | allow =>
      rw [if_neg (by simp), idx_cut _ _ _ _ rfl, Out.bind_ok]
      by_cases hb : b = asc '('
      · subst hb
        rw [if_pos rfl]
        simp only
        have ht : Str t := str_tail _ _ (by decide) hs
        have h1 : (sliceFrom (p ++ asc '(' :: t) (p.length + 1) : Out EmailError _) = .ok t := by
          have := sliceFrom_cut (ε := EmailError) (p ++ [asc '(']) t (p.length + 1) (by simp)
          rwa [List.append_assoc] at this
        by_cases hm : asc ')' ∈ t
        · obtain ⟨c, junk, rfl, hc⟩ := split_mem _ _ hm
          have h2 := slice_mid (ε := EmailError) (p ++ [asc '(']) c junk (asc ')') (by decide) ht (p.length + 1) (c.length + (p.length + 1)) (by simp) (by simp; omega)
          rw [List.append_assoc] at h2
          simp only [List.singleton_append] at h2
          rw [if_pos (by simp; omega), h1, Out.bind_ok, position_some _ _ _ hc]
          simp only
          rw [h2, Out.bind_ok]
          constructor
          · intro h; cases h
            refine ⟨?_, by simp, junk, (comment_some _ _).symm, by simp⟩
            rintro _ ⟨⟩; exact hc
          · rintro ⟨k1, _, junk', k2, k3⟩
            cases c4 with
            | none => rw [k3 rfl] at k2; cases k2
            | some c' =>
              rw [comment_some] at k2
              obtain ⟨rfl, _⟩ := first_unique _ _ _ _ _ (List.cons.inj k2).2 hc (k1 _ rfl)
              rfl
        · have : ∀ q : Prop, (∃ junk, asc '(' :: t = comment c4 ++ junk ∧ (c4 = none → junk = [])) → q := by
            rintro q ⟨junk, k2, k3⟩
            cases c4 with
            | none => rw [k3 rfl] at k2; cases k2
            | some c' =>
              rw [comment_some] at k2
              exact absurd (by rw [(List.cons.inj k2).2]; simp) hm
          constructor
          · intro h
            split at h
            · rw [h1, Out.bind_ok, (position_none _ _).2 hm] at h; cases h
            · cases h
          · rintro ⟨_, _, k⟩; exact this _ k
      · rw [if_neg hb]
        constructor
        · intro h; cases h
        · rintro ⟨_, _, junk, k2, k3⟩
          cases c4 with
          | none => rw [k3 rfl] at k2; cases k2
          | some c' =>
            rw [comment_some] at k2
            exact absurd (List.cons.inj k2).1 hb

theorem tail_other (c : Allow) (p tail : List UInt8) (hs : Str tail) :
    (∃ c4, afterDomain c (p ++ tail) p.length = .ok c4) ∨ afterDomain c (p ++ tail) p.length = .err .invalid ∨
    afterDomain c (p ++ tail) p.length = .err .commentDisallow ∧ c = .disallow ∧ tail ≠ [] := by
  unfold afterDomain
  cases tail with
  | nil => rw [if_neg (by simp)]; exact .inl ⟨_, rfl⟩
  | cons b t =>
    rw [if_pos (by simp)]
    cases c with
    | disallow => rw [if_pos rfl]; exact .inr (.inr ⟨rfl, rfl, by simp⟩)
    | allow =>
      rw [if_neg (by simp), idx_cut _ _ _ _ rfl, Out.bind_ok]
      by_cases hb : b = asc '('
      · subst hb
        rw [if_pos rfl]
        simp only
        have ht : Str t := str_tail _ _ (by decide) hs
        have h1 : (sliceFrom (p ++ asc '(' :: t) (p.length + 1) : Out EmailError _) = .ok t := by
          have := sliceFrom_cut (ε := EmailError) (p ++ [asc '(']) t (p.length + 1) (by simp)
          rwa [List.append_assoc] at this
        by_cases hm : asc ')' ∈ t
        · obtain ⟨c, junk, rfl, hc⟩ := split_mem _ _ hm
          have h2 := slice_mid (ε := EmailError) (p ++ [asc '(']) c junk (asc ')') (by decide) ht (p.length + 1) (c.length + (p.length + 1)) (by simp) (by simp; omega)
          rw [List.append_assoc] at h2
          simp only [List.singleton_append] at h2
          rw [if_pos (by simp; omega), h1, Out.bind_ok, position_some _ _ _ hc]
          simp only
          rw [h2]
          exact .inl ⟨_, rfl⟩
        · split
          · rw [h1, Out.bind_ok, (position_none _ _).2 hm]; exact .inr (.inl rfl)
          · exact .inr (.inl rfl)
      · rw [if_neg hb]; exact .inr (.inl rfl)

end Verif.Email
