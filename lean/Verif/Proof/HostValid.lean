import Verif.Spec.Host
import Verif.Proof.Host

/-! The outcome of the `host` validator, and its authority strings. -/

namespace Verif.Host

open Verif.StdIp Verif.Spec Verif.Spec.Ip Verif.Spec.Domain Verif.Spec.Host
open Verif.Ip (Str isLocalV4 isLocalV4_iff isLocalV6 isLocalV6_iff IpError)
open Verif.Domain (Split TextOk Denotes split_exists split_unique hostPort_iff textOk_iff bind_ok_iff bind_err_iff bind_panic_iff Idna
  isLocalDomain localName_iff getLast_dot tells_iff tells_congr hostPort_unique hostPort_lt join hostPort_join join_str idna_chars)

/-- The input starts with a bracket or is the text of an IPv6 address. -/
def Looks6 (s : List UInt8) : Prop := s.head? = some (asc '[') ∨ ∃ x : V6, V6Text s x.segs

theorem looks6_ne (s : List UInt8) (h : Looks6 s) : s ≠ [] := by
  rintro rfl
  rcases h with h | ⟨x, h⟩
  · cases h
  · exact Ip.v6Text_ne_nil _ _ h rfl

theorem parse_v6_disallow (o : Opts) (idna : Idna) (s : List UInt8) (h : Looks6 s) (ho : o.atl = .disallow) :
    parse o idna s = .err .atLeastTwoLabelsDisallow := by
  cases s with
  | nil => exact absurd rfl (looks6_ne _ h)
  | cons b s =>
    by_cases hb : b = asc '['
    · simp only [parse, if_pos hb, bracketPart, if_pos ho]
    · rcases h with h | ⟨x, h⟩
      · exact absurd (by simpa using h) hb
      · simp only [parse, if_neg hb, (parseV6_iff _ x).2 h, barePart, if_pos ho]

theorem parse_v6 (o : Opts) (idna : Idna) (s : List UInt8) (h : Looks6 s) (ho : o.atl ≠ .disallow) :
    parse o idna s = lift o (Ip.parseIpv6 o.loc o.port s) := by
  cases s with
  | nil => exact absurd rfl (looks6_ne _ h)
  | cons b s =>
    by_cases hb : b = asc '['
    · simp only [parse, Ip.parseIpv6, if_pos hb, lift_bracket o ho]
    · rcases h with h | ⟨x, h⟩
      · exact absurd (by simpa using h) hb
      · simp only [parse, Ip.parseIpv6, if_neg hb, (parseV6_iff _ x).2 h, bare_eq o ho]

theorem parse_name (o : Opts) (idna : Idna) (s : List UInt8) (h : ¬ Looks6 s) (hne : s ≠ []) : parse o idna s = namePart o idna s := by
  cases s with
  | nil => exact absurd rfl hne
  | cons b s =>
    have hb : b ≠ asc '[' := by rintro rfl; exact h (.inl rfl)
    have h6 : parseV6 (b :: s) = none := by
      cases hx : parseV6 (b :: s) with
      | none => rfl
      | some x => exact absurd (.inr ⟨x, (parseV6_iff _ x).1 hx⟩) h
    simp only [parse, if_neg hb, h6]

theorem lift_ok (o : Opts) (q : Out IpError (Ip.Parsed V6)) (r : Parsed) :
    lift o q = .ok r ↔ ∃ x p l, q = .ok (x, p, l) ∧ r = (.ipv6 x, p, localOf o (isLocalV6 x)) := by
  cases q with
  | ok v =>
    obtain ⟨x, p, l⟩ := v
    constructor
    · intro h; cases h; exact ⟨x, p, l, rfl, rfl⟩
    · rintro ⟨x, p, l, h, rfl⟩; cases h; rfl
  | err e => simp [lift]
  | panic => simp [lift]

theorem v6Input_looks (s : List UInt8) (x : V6) (p : Option Nat) (h : V6Input s x p) : Looks6 s := by
  rcases (Ip.v6Input_iff s x p).1 h with ⟨_, h⟩ | h
  · exact .inr ⟨x, h⟩
  · exact .inl (Ip.bracketInput_head _ _ _ h)

theorem v4_iff (s : List UInt8) (x : V4) (p : Option Nat) : V4Input s x p ↔ HostPort s x.text p := by
  cases p with
  | none =>
    constructor
    · intro h; have h : s = x.text := h; exact ⟨h, by rw [h]; exact Ip.text_no_colon x⟩
    · exact And.left
  | some n => exact Iff.rfl

theorem v4Input_not_looks (s : List UInt8) (x : V4) (p : Option Nat) (h : V4Input s x p) : ¬ Looks6 s := by
  rintro (h' | ⟨y, h'⟩)
  · exact Ip.v4Input_not_bracket s x p h h'
  · exact Ip.v4_not_v6 s x p _ h h'

theorem not_looks6 (s : List UInt8) : ¬ Looks6 s ↔ s.head? ≠ some (asc '[') ∧ ∀ x : V6, ¬ V6Text s x.segs := by
  unfold Looks6
  rw [not_or, not_exists]

theorem parse_ok (o : Opts) (idna : Idna) (s : List UInt8) (hs : Str s) (r : Parsed) :
    parse o idna s = .ok r ↔ PortOk o.port r.2.1 ∧
      ((∃ x, r.1 = .ipv6 x ∧ V6Input s x r.2.1 ∧ o.atl ≠ .disallow ∧ LocalOk o.loc (isLocalV6 x = true) ∧ r.2.2 = localOf o (isLocalV6 x)) ∨
      (∃ x, r.1 = .ipv4 x ∧ V4Input s x r.2.1 ∧ o.atl ≠ .disallow ∧ LocalOk o.loc (isLocalV4 x = true) ∧ r.2.2 = localOf o (isLocalV4 x)) ∨
      (∃ d a, r.1 = .domain a ∧ HostPort s d r.2.1 ∧ NameText s d ∧ idna d = some a ∧
        LabelsOk o.atl (isLocalDomain a = true) (ManyLabels a) ∧ LocalOk o.loc (isLocalDomain a = true) ∧ r.2.2 = localOf o (isLocalDomain a))) := by
  obtain ⟨h, p, l⟩ := r
  simp only
  by_cases h6 : Looks6 s
  · have e4 : ∀ x, ¬ V4Input s x p := fun x hx => v4Input_not_looks s x p hx h6
    have en : ∀ d, ¬ NameText s d := fun d hd => (not_looks6 s).2 ⟨hd.2.1, hd.2.2.1⟩ h6
    simp only [e4, en, false_and, and_false, exists_false, or_false]
    by_cases ho : o.atl = .disallow
    · rw [parse_v6_disallow o idna s h6 ho]
      simp [ho]
    · rw [parse_v6 o idna s h6 ho, lift_ok]
      simp only [Ip.parseIpv6_ok o.loc o.port s hs]
      constructor
      · rintro ⟨x, p', l', ⟨h1, h2, h3, _⟩, he⟩
        cases he
        exact ⟨h2, x, rfl, h1, ho, h3, rfl⟩
      · rintro ⟨h2, x, rfl, h1, _, h3, rfl⟩
        exact ⟨x, p, _, ⟨h1, h2, h3, rfl⟩, rfl⟩
  · have e6 : ∀ x, ¬ V6Input s x p := fun x hx => h6 (v6Input_looks s x p hx)
    simp only [e6, false_and, and_false, exists_false, false_or]
    by_cases hne : s = []
    · subst hne
      have : ∀ x, ¬ V4Input [] x p := fun x hx => Ip.v4Input_ne_nil _ _ _ hx rfl
      simp [parse, this, NameText]
    · rw [parse_name o idna s h6 hne]
      obtain ⟨d, u, hsp⟩ := split_exists s
      have hnt : ∀ d, NameText s d ↔ (¬ ∃ c, d = c ++ ascii ".") ∧ ∀ x : V4, d ≠ x.text := by
        intro d
        have := (not_looks6 s).1 h6
        unfold NameText
        simp only [ne_eq, hne, not_false_eq_true, this.1, this.2, true_and, implies_true]
      simp only [hnt, v4_iff]
      by_cases hu : TextOk o.port u
      · rw [namePart_eq o idna s d u hs hsp hu, afterSplit_ok o idna d u hu]
        constructor
        · rintro (⟨x, p', rfl, hd, ha, hl, he⟩ | ⟨h1, h2, a, p', hi, hd, hc, hl, he⟩)
          · cases he
            exact ⟨(textOk_iff _ _ _ hd).1 hu, .inl ⟨x, rfl, (hostPort_iff _ _ _).2 ⟨u, hsp, hd⟩, ha, hl, rfl⟩⟩
          · cases he
            exact ⟨(textOk_iff _ _ _ hd).1 hu, .inr ⟨d, a, rfl, (hostPort_iff _ _ _).2 ⟨u, hsp, hd⟩, ⟨h1, h2⟩, hi, hc, hl, rfl⟩⟩
        · rintro ⟨_, ⟨x, rfl, hp, ha, hl, rfl⟩ | ⟨d', a, rfl, hp, ⟨h1, h2⟩, hi, hc, hl, rfl⟩⟩
          · obtain ⟨u', hsp', hd⟩ := (hostPort_iff _ _ _).1 hp
            obtain ⟨rfl, rfl⟩ := split_unique _ _ _ _ _ hsp hsp'
            exact .inl ⟨x, p, rfl, hd, ha, hl, rfl⟩
          · obtain ⟨u', hsp', hd⟩ := (hostPort_iff _ _ _).1 hp
            obtain ⟨rfl, rfl⟩ := split_unique _ _ _ _ _ hsp hsp'
            exact .inr ⟨h1, h2, a, p, hi, hd, hc, hl, rfl⟩
      · have hno : ∀ d' p', HostPort s d' p' → ¬ PortOk o.port p' := by
          intro d' p' hp
          obtain ⟨u', hsp', hd⟩ := (hostPort_iff _ _ _).1 hp
          obtain ⟨rfl, rfl⟩ := split_unique _ _ _ _ _ hsp hsp'
          rw [← textOk_iff _ _ _ hd]; exact hu
        constructor
        · intro h
          rcases namePart_not_ok o idna s d u hs hsp hu with ⟨_, _, h'⟩ | ⟨_, _, h'⟩ <;> rw [h] at h' <;> cases h'
        · rintro ⟨hpo, ⟨x, _, hp, _⟩ | ⟨d', a, _, hp, _⟩⟩
          · exact absurd hpo (hno _ _ hp)
          · exact absurd hpo (hno _ _ hp)

theorem create_ok (o : Opts) (r : Parsed) (hp : PortOk o.port r.2.1) (v : Value) :
    create o r = .ok v ↔ v.host = r.1 ∧ v.port = r.2.1 ∧ v.isLocal = (if o.loc = .allow ∧ o.atl ≠ .allow then some r.2.2 else none) := by
  obtain ⟨a, p, l⟩ := r
  obtain ⟨d, vl, vp⟩ := v
  simp only at hp
  unfold create
  cases ho : o.port with
  | allow => simp only [Out.ok.injEq, Value.mk.injEq]; constructor <;> (rintro ⟨h1, h2, h3⟩; simp only [h1, h2, h3, and_self])
  | must =>
    rw [ho] at hp
    cases p with
    | none => exact absurd rfl hp
    | some p => simp only [Out.ok.injEq, Value.mk.injEq]; constructor <;> (rintro ⟨h1, h2, h3⟩; simp only [h1, h2, h3, and_self])
  | disallow =>
    rw [ho] at hp
    cases hp
    simp only [Out.ok.injEq, Value.mk.injEq]; constructor <;> (rintro ⟨h1, h2, h3⟩; simp only [h1, h2, h3, and_self])

theorem create_exists (o : Opts) (r : Parsed) (hp : PortOk o.port r.2.1) : ∃ v, create o r = .ok v :=
  ⟨⟨r.1, _, r.2.1⟩, (create_ok o r hp _).2 ⟨rfl, rfl, rfl⟩⟩

theorem shown_iff (o : Opts) (f : Option Bool) (l : Bool) (P : Prop) (hP : l = true ↔ P) :
    Tells (ShowsLocal o) f P ↔ f = if o.loc = .allow ∧ o.atl ≠ .allow then some (localOf o l) else none := by
  rw [← tells_congr _ _ _ _ hP, ShowsLocal, tells_iff]
  have : (if o.loc = .allow ∧ o.atl ≠ .allow then some l else none) =
      (if o.loc = .allow ∧ o.atl ≠ .allow then some (localOf o l) else none) := by
    split
    · rename_i h
      rw [localOf, if_neg (fun h' => h.2 h'.1)]
    · rfl
  rw [this]

theorem parseStr_ok (o : Opts) (idna : Idna) (s : List UInt8) (hs : Str s) (v : Value) :
    parseStr o idna s = .ok v ↔ PortOk o.port v.port ∧ (AsIpv6 o s v ∨ Spec.Host.AsIpv4 o s v ∨ Spec.Host.AsName o idna s v) := by
  unfold parseStr
  rw [bind_ok_iff]
  simp only [parse_ok o idna s hs]
  obtain ⟨h, vl, p⟩ := v
  constructor
  · rintro ⟨⟨h', p', l⟩, ⟨hpo, hr⟩, hc⟩
    rw [create_ok o _ hpo] at hc
    obtain ⟨c1, c2, c3⟩ := hc
    simp only at c1 c2 c3 hr hpo
    subst c1 c2
    refine ⟨hpo, ?_⟩
    rcases hr with ⟨x, rfl, h1, h2, h3, rfl⟩ | ⟨x, rfl, h1, h2, h3, rfl⟩ | ⟨d, a, rfl, h1, h2, h3, h4, h5, rfl⟩
    · refine .inl ⟨x, rfl, h1, h2, by rwa [← isLocalV6_iff], (shown_iff o _ _ _ (isLocalV6_iff x)).2 c3⟩
    · refine .inr (.inl ⟨x, rfl, h1, h2, by rwa [← isLocalV4_iff], (shown_iff o _ _ _ (isLocalV4_iff x)).2 c3⟩)
    · refine .inr (.inr ⟨d, a, rfl, h1, h2, h3, by rwa [← localName_iff], by rwa [← localName_iff], (shown_iff o _ _ _ (localName_iff a)).2 c3⟩)
  · rintro ⟨hpo, hr⟩
    rcases hr with ⟨x, rfl, h1, h2, h3, h4⟩ | ⟨x, rfl, h1, h2, h3, h4⟩ | ⟨d, a, rfl, h1, h2, h3, h4, h5, h6⟩
    · refine ⟨(.ipv6 x, p, localOf o (isLocalV6 x)), ⟨hpo, .inl ⟨x, rfl, h1, h2, by rwa [isLocalV6_iff], rfl⟩⟩, ?_⟩
      rw [create_ok o _ hpo]
      exact ⟨rfl, rfl, (shown_iff o _ _ _ (isLocalV6_iff x)).1 h4⟩
    · refine ⟨(.ipv4 x, p, localOf o (isLocalV4 x)), ⟨hpo, .inr (.inl ⟨x, rfl, h1, h2, by rwa [isLocalV4_iff], rfl⟩)⟩, ?_⟩
      rw [create_ok o _ hpo]
      exact ⟨rfl, rfl, (shown_iff o _ _ _ (isLocalV4_iff x)).1 h4⟩
    · refine ⟨(.domain a, p, localOf o (isLocalDomain a)),
        ⟨hpo, .inr (.inr ⟨d, a, rfl, h1, h2, h3, by rwa [localName_iff], by rwa [localName_iff], rfl⟩)⟩, ?_⟩
      rw [create_ok o _ hpo]
      exact ⟨rfl, rfl, (shown_iff o _ _ _ (localName_iff a)).1 h6⟩

theorem parse_panic (o : Opts) (idna : Idna) (s : List UInt8) (hs : Str s) : parse o idna s ≠ .panic := by
  by_cases h6 : Looks6 s
  · by_cases ho : o.atl = .disallow
    · rw [parse_v6_disallow o idna s h6 ho]; simp
    · rw [parse_v6 o idna s h6 ho]
      have := Ip.parseIpv6_panic o.loc o.port s hs
      cases h : Ip.parseIpv6 o.loc o.port s with
      | ok v => simp [lift]
      | err e => simp [lift]
      | panic => exact absurd h this
  · by_cases hne : s = []
    · subst hne; simp [parse]
    · rw [parse_name o idna s h6 hne]
      obtain ⟨d, u, hsp⟩ := split_exists s
      by_cases hu : TextOk o.port u
      · rw [namePart_eq o idna s d u hs hsp hu]; exact afterSplit_panic o idna d u
      · rcases namePart_not_ok o idna s d u hs hsp hu with ⟨_, _, h⟩ | ⟨_, _, h⟩ <;> rw [h] <;> simp

theorem parseStr_panic (o : Opts) (idna : Idna) (s : List UInt8) (hs : Str s) : parseStr o idna s ≠ .panic := by
  unfold parseStr
  rw [Ne, bind_panic_iff]
  rintro (h | ⟨r, h1, h2⟩)
  · exact parse_panic o idna s hs h
  · obtain ⟨v, hv⟩ := create_exists o r ((parse_ok o idna s hs r).1 h1).1
    rw [hv] at h2; cases h2

theorem validate_void (o : Opts) (idna : Idna) (s : List UInt8) (hs : Str s) : validateStr o idna s = (parseStr o idna s).void := by
  unfold validateStr parseStr
  cases h : parse o idna s with
  | ok r =>
    obtain ⟨v, hv⟩ := create_exists o r ((parse_ok o idna s hs r).1 h).1
    simp [hv, Out.void]
  | err e => rfl
  | panic => rfl

theorem parseStr_err (o : Opts) (idna : Idna) (s : List UInt8) (hs : Str s) (e : HostError) (h : parseStr o idna s = .err e) : parse o idna s = .err e := by
  unfold parseStr at h
  cases hr : parse o idna s with
  | ok r =>
    obtain ⟨v, hv⟩ := create_exists o r ((parse_ok o idna s hs r).1 hr).1
    rw [hr, Out.bind_ok, hv] at h; cases h
  | err e' => rw [hr, Out.bind_err] at h; cases h; rfl
  | panic => rw [hr] at h; cases h

theorem lift_err (o : Opts) (q : Out IpError (Ip.Parsed V6)) (e : HostError) : lift o q = .err e ↔ ∃ e', q = .err e' ∧ e = errorOf e' := by
  cases q with
  | ok v => simp [lift]
  | err e => simp [lift, eq_comm]
  | panic => simp [lift]

/-- `s` carries a port: a bracketed IPv6 address with a port, or no IPv6 address and a colon. -/
theorem parse_err (o : Opts) (idna : Idna) (s : List UInt8) (hs : Str s) (e : HostError) (h : parse o idna s = .err e) :
    (e = .portMust → o.port = .must ∧ (∀ x n, ¬ V6Input s x (some n)) ∧ (Looks6 s ∨ asc ':' ∉ s)) ∧
    (e = .portDisallow → o.port = .disallow ∧ asc ':' ∈ s ∨ o.port = .disallow ∧ s.head? = some (asc '[') ∧ s.getLast? ≠ some (asc ']')) ∧
    (e = .localMust → o.loc = .must ∧ ((∃ x p, V6Input s x p ∧ isLocalV6 x = false) ∨ ∃ d u, Split s d u ∧
      ((∃ x, d = V4.text x ∧ isLocalV4 x = false) ∨ ∃ a, idna d = some a ∧ isLocalDomain a = false))) ∧
    (e = .localDisallow → o.loc = .disallow ∧ ((∃ x p, V6Input s x p ∧ isLocalV6 x = true) ∨ ∃ d u, Split s d u ∧
      ((∃ x, d = V4.text x ∧ isLocalV4 x = true) ∨ ∃ a, idna d = some a ∧ isLocalDomain a = true))) ∧
    (e = .atLeastTwoLabelsMust → o.atl = .must ∧ ∃ d u, Split s d u ∧ ∃ a, idna d = some a ∧ isLocalDomain a = false ∧ ¬ ManyLabels a) ∧
    (e = .atLeastTwoLabelsDisallow → o.atl = .disallow ∧ (Looks6 s ∨ ∃ d u, Split s d u ∧
      ((∃ x, d = V4.text x) ∨ ∃ a, idna d = some a ∧ isLocalDomain a = false ∧ ManyLabels a))) := by
  by_cases h6 : Looks6 s
  · by_cases ho : o.atl = .disallow
    · rw [parse_v6_disallow o idna s h6 ho] at h
      cases h
      simp [ho, h6]
    · rw [parse_v6 o idna s h6 ho, lift_err] at h
      obtain ⟨e', h, rfl⟩ := h
      obtain ⟨h1, h2, h3, h4⟩ := Ip.parseIpv6_err o.loc o.port s hs e' h
      cases e' with
      | invalid => simp [errorOf]
      | portMust => simp only [errorOf, reduceCtorEq, false_implies, and_true, true_implies]; exact ⟨(h1 rfl).1, (h1 rfl).2, .inl h6⟩
      | portDisallow => simp only [errorOf, reduceCtorEq, false_implies, and_true, true_and, true_implies]; exact .inr (h2 rfl)
      | localMust => simp only [errorOf, reduceCtorEq, false_implies, and_true, true_and, true_implies]; exact ⟨(h3 rfl).1, .inl (h3 rfl).2⟩
      | localDisallow => simp only [errorOf, reduceCtorEq, false_implies, and_true, true_and, true_implies]; exact ⟨(h4 rfl).1, .inl (h4 rfl).2⟩
  · by_cases hne : s = []
    · subst hne; simp only [parse] at h; cases h; simp
    · rw [parse_name o idna s h6 hne] at h
      obtain ⟨d, u, hsp⟩ := split_exists s
      by_cases hu : TextOk o.port u
      · rw [namePart_eq o idna s d u hs hsp hu] at h
        rcases afterSplit_err o idna d u e h with rfl | ⟨rfl, k⟩ | ⟨rfl, k⟩ | ⟨rfl, k⟩ | ⟨rfl, k⟩
        · simp
        · simp only [reduceCtorEq, false_implies, and_true, true_and, true_implies]; exact ⟨k.1, d, u, hsp, k.2⟩
        · simp only [reduceCtorEq, false_implies, true_and, true_implies]; exact ⟨k.1, .inr ⟨d, u, hsp, k.2⟩⟩
        · simp only [reduceCtorEq, false_implies, and_true, true_and, true_implies]; exact ⟨k.1, .inr ⟨d, u, hsp, k.2⟩⟩
        · simp only [reduceCtorEq, false_implies, and_true, true_and, true_implies]; exact ⟨k.1, .inr ⟨d, u, hsp, k.2⟩⟩
      · rcases namePart_not_ok o idna s d u hs hsp hu with ⟨h1, rfl, h2⟩ | ⟨h1, h3, h2⟩
        · rw [h2] at h; cases h
          simp only [reduceCtorEq, false_implies, and_true, true_implies]
          exact ⟨h1, fun x n hx => h6 (v6Input_looks _ _ _ hx), .inr hsp.2⟩
        · rw [h2] at h; cases h
          simp only [reduceCtorEq, false_implies, and_true, true_and, true_implies]
          cases u with
          | none => exact absurd rfl h3
          | some t => exact .inl ⟨h1, by rw [hsp.1]; simp⟩

/-! ### Authority strings -/

theorem toUri_v4 (x : V4) (l : Option Bool) (p : Option Nat) : toUri ⟨.ipv4 x, l, p⟩ = Ip.uriV4 (x, p) := by cases p <;> rfl
theorem toUri_v6 (x : V6) (l : Option Bool) (p : Option Nat) : toUri ⟨.ipv6 x, l, p⟩ = Ip.uriV6 (x, p) := by cases p <;> rfl
theorem toUri_domain (a : List UInt8) (l : Option Bool) (p : Option Nat) : toUri ⟨.domain a, l, p⟩ = join a p := by cases p <;> rfl

theorem groups_count (q : Bool) (t : List UInt8) (gs : List Nat) (h : Groups q t gs) : gs.length ≤ t.count (asc ':') + if q then 2 else 1 := by
  induction h with
  | group _ => simp
  | quad => simp
  | @cons t g q r gs hg hr ih =>
    rw [List.count_append, List.count_append, show List.count (asc ':') (ascii ":") = 1 by decide, List.length_cons]
    omega

theorem v6Text_count (s : List UInt8) (segs : List Nat) (h : V6Text s segs) : 2 ≤ s.count (asc ':') := by
  rcases h with ⟨q, hg, h8⟩ | ⟨q, h, t, hs, ts, rfl, _⟩
  · have := groups_count _ _ _ hg
    rw [h8] at this
    cases q <;> simp at this <;> omega
  · rw [List.count_append, List.count_append, show List.count (asc ':') (ascii "::") = 2 by decide]
    omega

theorem join_not_v6 (d : List UInt8) (hd : asc ':' ∉ d) (p : Option Nat) (hp : ∀ n, p = some n → n < 65536) (segs : List Nat) : ¬ V6Text (join d p) segs := by
  intro h
  have h2 := v6Text_count _ _ h
  have h0 := List.count_eq_zero_of_not_mem hd
  cases p with
  | none => simp only [join] at h2; omega
  | some n =>
    have hn := List.count_eq_zero_of_not_mem (fun hm => absurd (IntV.showNat_digits n _ hm) (by decide) : asc ':' ∉ IntV.showNat n)
    simp only [join] at h2
    rw [List.count_append, List.count_cons_self] at h2
    omega

end Verif.Host
