import Verif.Spec.Domain
import Verif.Model.Domain
import Verif.Proof.IpValid
import Verif.Proof.IpLocal

/-! Lemmas on the `domain` handler. -/

namespace Verif.Domain

open Verif.StdIp Verif.Spec Verif.Spec.Ip Verif.Spec.Domain
open Verif.Ip (Str rposition strSlice strSliceFrom parsePort parsePort_iff isLocalV4 isLocalV4_iff last_split last_unique
  rposition_none rposition_split boundary_byte boundary_cut strSlice_mid strSliceFrom_cut str_cut portText_colon)

/-! ### Names -/

theorem getLast_dot (s : List UInt8) : s.getLast? = some (asc '.') ↔ ∃ c, s = c ++ ascii "." := List.getLast?_eq_some_iff

theorem stem_iff (a b : List UInt8) : Stem a b ↔ stripDot a = b := by
  unfold Stem stripDot
  rw [← getLast_dot]
  constructor
  · rintro (rfl | ⟨rfl, h⟩)
    · have : (b ++ ascii ".").getLast? = some (asc '.') := (getLast_dot _).2 ⟨b, rfl⟩
      rw [if_pos this]
      show (b ++ [asc '.']).dropLast = b
      simp
    · rw [if_neg h]
  · split
    · rename_i h
      obtain ⟨c, rfl⟩ := (getLast_dot a).1 h
      rintro rfl
      left
      show c ++ [asc '.'] = (c ++ [asc '.']).dropLast ++ [asc '.']
      simp
    · rename_i h
      rintro rfl
      exact .inr ⟨rfl, h⟩

theorem toLower_eq : toLower = lowered := by
  funext b
  revert b
  apply BaseN.forall_uint8
  decide +kernel

theorem localName_iff (a : List UInt8) : isLocalDomain a = true ↔ LocalName a := by
  simp only [isLocalDomain, eqIgnoreAsciiCase, beq_iff_eq, LocalName, stem_iff, exists_eq_left', toLower_eq]
  rw [show (ascii "localhost").map lowered = ascii "localhost" by decide]

theorem manyLabels_iff (a : List UInt8) : isAtLeastTwoLabelsDomain a = true ↔ ManyLabels a := by
  simp only [isAtLeastTwoLabelsDomain, ManyLabels, stem_iff, List.contains_iff_mem]
  constructor
  · intro h
    obtain ⟨l, r, h⟩ := List.append_of_mem h
    exact ⟨l, r, by rw [h]; simp [ascii, asc]⟩
  · rintro ⟨l, r, h⟩
    rw [h]; simp [ascii, asc]

theorem text_no_final_dot (x : V4) : x.text.getLast? ≠ some (asc '.') := by
  have key : ∀ n : Fin 256, ∃ p b, dec n = p ++ [b] ∧ b ≠ asc '.' := by
    have : ∀ n : Fin 256, dec n ≠ [] ∧ (dec n).getLast? ≠ some (asc '.') := by decide +kernel
    intro n
    obtain ⟨h1, h2⟩ := this n
    refine ⟨(dec n).dropLast, (dec n).getLast h1, (List.dropLast_concat_getLast h1).symm, ?_⟩
    intro h
    apply h2
    rw [List.getLast?_eq_some_getLast h1, h]
  obtain ⟨p, b, h, hb⟩ := key ⟨x.d.toNat, x.d.toNat_lt⟩
  simp only [V4.text, dotted]
  simp only at h
  rw [h, ← List.append_assoc, List.getLast?_append]
  simpa using hb

theorem quadDot_iff (d : List UInt8) (x : V4) : parseV4Dot d = some x ↔ QuadDot d x := by
  unfold parseV4Dot QuadDot
  rw [parseV4_iff]
  have hx : ¬ ∃ c, x.text = c ++ ascii "." := by
    rw [← getLast_dot]
    exact text_no_final_dot x
  rw [← stem_iff]
  constructor
  · rintro (h | ⟨h, _⟩)
    · exact .inr h
    · exact .inl h
  · rintro (rfl | h)
    · exact .inr ⟨rfl, hx⟩
    · exact .inl h

theorem quadDot_none (d : List UInt8) : parseV4Dot d = none ↔ ∀ x, ¬ QuadDot d x := by
  simp only [← quadDot_iff]
  cases parseV4Dot d <;> simp

/-! ### Splitting off the port -/

/-- `s` is `d`, or `d`, a colon and a text without colon. -/
def Split (s d : List UInt8) : Option (List UInt8) → Prop
  | none => s = d ∧ asc ':' ∉ s
  | some u => s = d ++ asc ':' :: u ∧ asc ':' ∉ u

/-- The port text is present or absent as the option asks. -/
def TextOk (port : TriAllow) (u : Option (List UInt8)) : Prop := (port = .must → u ≠ none) ∧ (port = .disallow → u = none)

theorem split_exists (s : List UInt8) : ∃ d u, Split s d u := by
  by_cases h : asc ':' ∈ s
  · obtain ⟨p, t, rfl, ht⟩ := last_split _ _ h
    exact ⟨p, some t, rfl, ht⟩
  · exact ⟨s, none, rfl, h⟩

theorem split_unique (s d d' : List UInt8) (u u' : Option (List UInt8)) (h : Split s d u) (h' : Split s d' u') : d = d' ∧ u = u' := by
  cases u with
  | none =>
    obtain ⟨rfl, hn⟩ := h
    cases u' with
    | none => exact ⟨h'.1, rfl⟩
    | some u' => exact absurd (by rw [h'.1]; simp) hn
  | some u =>
    obtain ⟨rfl, hn⟩ := h
    cases u' with
    | none => exact absurd (by simp) h'.2
    | some u' =>
      obtain ⟨h1, h2⟩ := last_unique _ _ _ _ _ h'.1 hn h'.2
      exact ⟨h1, by rw [h2]⟩

theorem split_str (s d : List UInt8) (u : Option (List UInt8)) (hs : Str s) (h : Split s d u) : Str d ∧ ∀ t, u = some t → Str t := by
  cases u with
  | none => obtain ⟨rfl, _⟩ := h; exact ⟨hs, by simp⟩
  | some u =>
    obtain ⟨rfl, _⟩ := h
    obtain ⟨h1, h2⟩ := str_cut _ _ _ (by decide) hs
    exact ⟨h1, by rintro t ⟨⟩; exact h2⟩

theorem splitPort_eq (port : TriAllow) (s d : List UInt8) (u : Option (List UInt8)) (hs : Str s) (h : Split s d u) :
    splitPort port s =
      if u = none then (if port = .must then .err .portMust else .ok (d, u))
      else (if port = .disallow then .err .portDisallow else .ok (d, u)) := by
  cases u with
  | none =>
    obtain ⟨rfl, hn⟩ := h
    simp only [splitPort, (rposition_none _ _).2 hn, if_true]
  | some u =>
    obtain ⟨rfl, hn⟩ := h
    obtain ⟨h1, h2⟩ := str_cut _ _ _ (by decide) hs
    simp only [splitPort, rposition_split _ _ _ hn, reduceCtorEq, if_false]
    by_cases hp : port = .disallow
    · simp only [if_pos hp]
    · rw [if_neg hp]
      have e1 : (strSlice (d ++ asc ':' :: u) 0 d.length : Out DomainError _) = .ok d := by
        have := strSlice_mid (ε := DomainError) [] d (asc ':' :: u) (by simp [Ip.isCharBoundary])
          (boundary_byte d u (asc ':') (by decide))
        simpa using this
      have e2 : (strSliceFrom (d ++ asc ':' :: u) (d.length + 1) : Out DomainError _) = .ok u := by
        have := strSliceFrom_cut (ε := DomainError) (d ++ [asc ':']) u (boundary_cut _ _ h2)
        simpa using this
      rw [e1, Out.bind_ok, e2, Out.bind_ok, if_neg hp]

/-- The port denoted by a port text. -/
def Denotes : Option (List UInt8) → Option Nat → Prop
  | none, p => p = none
  | some t, p => ∃ n, p = some n ∧ PortText t n

theorem handlePort_ok (port : TriAllow) (u : Option (List UInt8)) (hu : TextOk port u) (p : Option Nat) :
    handlePort port u = .ok p ↔ Denotes u p := by
  unfold handlePort
  split
  · rename_i h
    rw [hu.2 h]
    simp [Denotes, eq_comm]
  · cases u with
    | none => simp [Denotes, eq_comm]
    | some t =>
      simp only [Denotes]
      cases hp : parsePort t with
      | none =>
        simp only [reduceCtorEq, false_iff]
        rintro ⟨n, _, hn⟩
        rw [(parsePort_iff t n).2 hn] at hp; cases hp
      | some n =>
        have hn := (parsePort_iff t n).1 hp
        simp only [Out.ok.injEq]
        constructor
        · rintro rfl; exact ⟨n, rfl, hn⟩
        · rintro ⟨m, rfl, hm⟩
          rw [(parsePort_iff t m).2 hm] at hp
          exact hp.symm

theorem handlePort_err (port : TriAllow) (u : Option (List UInt8)) (e : DomainError) (h : handlePort port u = .err e) : e = .invalid := by
  unfold handlePort at h
  split at h
  · cases h
  · cases u with
    | none => cases h
    | some t =>
      simp only at h
      split at h <;> cases h
      rfl

theorem handlePort_panic (port : TriAllow) (u : Option (List UInt8)) : handlePort port u ≠ .panic := by
  unfold handlePort
  split
  · simp
  · cases u with
    | none => simp
    | some t => simp only; split <;> simp

theorem hostPort_iff (s d : List UInt8) (p : Option Nat) : HostPort s d p ↔ ∃ u, Split s d u ∧ Denotes u p := by
  have e : ascii ":" = [asc ':'] := rfl
  cases p with
  | none =>
    constructor
    · rintro ⟨h1, h2⟩; exact ⟨none, ⟨h1, h2⟩, rfl⟩
    · rintro ⟨u, h, hd⟩
      cases u with
      | none => exact h
      | some t => obtain ⟨n, h, _⟩ := hd; cases h
  | some n =>
    constructor
    · rintro ⟨t, h, hp⟩
      refine ⟨some t, ⟨by rw [h, e]; simp, portText_colon t n hp⟩, n, rfl, hp⟩
    · rintro ⟨u, h, hd⟩
      cases u with
      | none => cases hd
      | some t =>
        obtain ⟨m, hm, hp⟩ := hd
        cases hm
        exact ⟨t, by rw [h.1, e]; simp, hp⟩

theorem textOk_iff (port : TriAllow) (u : Option (List UInt8)) (p : Option Nat) (h : Denotes u p) : TextOk port u ↔ PortOk port p := by
  cases u with
  | none => cases h; cases port <;> simp [TextOk, PortOk]
  | some t => obtain ⟨n, rfl, _⟩ := h; cases port <;> simp [TextOk, PortOk]

/-- `v_parse_str` after the split. -/
theorem parse_eq (o : Opts) (idna : Idna) (s d : List UInt8) (u : Option (List UInt8)) (hs : Str s) (hne : s ≠ []) (h : Split s d u)
    (hu : TextOk o.port u) : parse o idna s = domainPart o idna s d u := by
  rw [parse, if_neg hne, splitPort_eq o.port s d u hs h]
  cases u with
  | none => rw [if_pos rfl, if_neg (fun hm => hu.1 hm rfl)]; rfl
  | some t => rw [if_neg (by simp), if_neg (fun hm => by have := hu.2 hm; cases this)]; rfl

theorem parse_not_ok (o : Opts) (idna : Idna) (s d : List UInt8) (u : Option (List UInt8)) (hs : Str s) (hne : s ≠ []) (h : Split s d u)
    (hu : ¬ TextOk o.port u) :
    o.port = .must ∧ u = none ∧ parse o idna s = .err .portMust ∨ o.port = .disallow ∧ u ≠ none ∧ parse o idna s = .err .portDisallow := by
  rw [parse, if_neg hne, splitPort_eq o.port s d u hs h]
  cases u with
  | none =>
    by_cases hm : o.port = .must
    · left; rw [if_pos rfl, if_pos hm]; exact ⟨hm, rfl, rfl⟩
    · exact absurd ⟨fun h => absurd h hm, fun _ => rfl⟩ hu
  | some t =>
    by_cases hm : o.port = .disallow
    · right; rw [if_neg (by simp), if_pos hm]; exact ⟨hm, by simp, rfl⟩
    · exact absurd ⟨fun _ => by simp, fun h => absurd h hm⟩ hu

/-! ### The arms -/

theorem checkLocal_ok (o : Opts) (f : Bool) : checkLocal o.loc (localOf o f) = .ok () ↔ LocalOk o.loc (f = true) := by
  obtain ⟨i, l, p, a⟩ := o
  cases l <;> cases a <;> cases f <;> simp [checkLocal, localOf, LocalOk]

theorem checkLocal_err (o : Opts) (f : Bool) (e : DomainError) (h : checkLocal o.loc (localOf o f) = .err e) :
    e = .localMust ∧ o.loc = .must ∧ f = false ∨ e = .localDisallow ∧ o.loc = .disallow ∧ f = true := by
  obtain ⟨i, l, p, a⟩ := o
  cases l <;> cases a <;> cases f <;> simp [checkLocal, localOf] at h <;> simp [← h]

theorem checkLocal_panic (opt : TriAllow) (f : Bool) : checkLocal opt f ≠ .panic := by
  cases opt <;> cases f <;> simp [checkLocal]

theorem checkLabels_ok (o : Opts) (f : Bool) (a : List UInt8) :
    checkLabels o.atl (localOf o f) a = .ok () ↔ LabelsOk o.atl (f = true) (ManyLabels a) := by
  rw [← manyLabels_iff]
  obtain ⟨i, l, p, t⟩ := o
  cases l <;> cases t <;> cases f <;> cases hm : isAtLeastTwoLabelsDomain a <;> simp [checkLabels, localOf, LabelsOk, hm]

theorem checkLabels_err (o : Opts) (f : Bool) (a : List UInt8) (e : DomainError) (h : checkLabels o.atl (localOf o f) a = .err e) :
    e = .atLeastTwoLabelsMust ∧ o.atl = .must ∧ f = false ∧ ¬ ManyLabels a ∨
    e = .atLeastTwoLabelsDisallow ∧ o.atl = .disallow ∧ f = false ∧ ManyLabels a := by
  rw [← manyLabels_iff]
  obtain ⟨i, l, p, t⟩ := o
  cases l <;> cases t <;> cases f <;> cases hm : isAtLeastTwoLabelsDomain a <;> simp [checkLabels, localOf, hm] at h <;> simp [← h]

theorem checkLabels_panic (opt : TriAllow) (f : Bool) (a : List UInt8) : checkLabels opt f a ≠ .panic := by
  cases opt <;> cases f <;> cases hm : isAtLeastTwoLabelsDomain a <;> simp [checkLabels, hm]

theorem bind_ok_iff {ε α β : Type} (r : Out ε α) (f : α → Out ε β) (b : β) : r.bind f = .ok b ↔ ∃ a, r = .ok a ∧ f a = .ok b := by
  cases r <;> simp

theorem bind_err_iff {ε α β : Type} (r : Out ε α) (f : α → Out ε β) (e : ε) :
    r.bind f = .err e ↔ r = .err e ∨ ∃ a, r = .ok a ∧ f a = .err e := by
  cases r <;> simp

theorem bind_panic_iff {ε α β : Type} (r : Out ε α) (f : α → Out ε β) :
    r.bind f = .panic ↔ r = .panic ∨ ∃ a, r = .ok a ∧ f a = .panic := by
  cases r <;> simp

theorem ipv4Arm_ok (o : Opts) (s : List UInt8) (u : Option (List UInt8)) (hu : TextOk o.port u) (ip : V4) (r : Parsed) :
    ipv4Arm o s u ip = .ok r ↔ o.ipv4 ≠ .disallow ∧ o.atl ≠ .disallow ∧ LocalOk o.loc (isLocalV4 ip = true) ∧
      ∃ p, Denotes u p ∧ r = (s, p, true, localOf o (isLocalV4 ip)) := by
  unfold ipv4Arm
  by_cases h1 : o.ipv4 = .disallow
  · simp [h1]
  · by_cases h2 : o.atl = .disallow
    · simp [h1, h2]
    · simp only [h1, h2, if_false, bind_ok_iff, handlePort_ok o.port u hu, not_false_eq_true, true_and, ne_eq]
      constructor
      · rintro ⟨p, hp, ⟨⟩, hl, hr⟩
        exact ⟨(checkLocal_ok _ _).1 hl, p, hp, by simpa using hr.symm⟩
      · rintro ⟨hl, p, hp, rfl⟩
        exact ⟨p, hp, (), (checkLocal_ok _ _).2 hl, rfl⟩

theorem nameArm_ok (o : Opts) (idna : Idna) (d : List UInt8) (u : Option (List UInt8)) (hu : TextOk o.port u) (r : Parsed) :
    nameArm o idna d u = .ok r ↔ o.ipv4 ≠ .must ∧ ∃ a p, idna d = some a ∧ Denotes u p ∧
      LabelsOk o.atl (isLocalDomain a = true) (ManyLabels a) ∧ LocalOk o.loc (isLocalDomain a = true) ∧
      r = (a, p, false, localOf o (isLocalDomain a)) := by
  unfold nameArm
  by_cases h1 : o.ipv4 = .must
  · simp [h1]
  · simp only [h1, if_false, ne_eq, not_false_eq_true, true_and]
    cases hi : idna d with
    | none => simp
    | some a =>
      simp only [bind_ok_iff, handlePort_ok o.port u hu]
      constructor
      · rintro ⟨p, hp, ⟨⟩, hc, ⟨⟩, hl, hr⟩
        exact ⟨a, p, rfl, hp, (checkLabels_ok _ _ _).1 hc, (checkLocal_ok _ _).1 hl, by simpa using hr.symm⟩
      · rintro ⟨a', p, ha, hp, hc, hl, rfl⟩
        cases ha
        exact ⟨p, hp, (), (checkLabels_ok _ _ _).2 hc, (), (checkLocal_ok _ _).2 hl, rfl⟩

/-- The two ways to accept. -/
theorem domainPart_ok (o : Opts) (idna : Idna) (s d : List UInt8) (u : Option (List UInt8)) (hu : TextOk o.port u) (r : Parsed) :
    domainPart o idna s d u = .ok r ↔
      (¬ Plain o ∧ ∃ x p, QuadDot d x ∧ Denotes u p ∧ o.ipv4 ≠ .disallow ∧ o.atl ≠ .disallow ∧ LocalOk o.loc (isLocalV4 x = true) ∧
        r = (s, p, true, localOf o (isLocalV4 x))) ∨
      ((Plain o ∨ ∀ x, ¬ QuadDot d x) ∧ o.ipv4 ≠ .must ∧ ∃ a p, idna d = some a ∧ Denotes u p ∧
        LabelsOk o.atl (isLocalDomain a = true) (ManyLabels a) ∧ LocalOk o.loc (isLocalDomain a = true) ∧
        r = (a, p, false, localOf o (isLocalDomain a))) := by
  unfold domainPart
  by_cases hp : Plain o
  · obtain ⟨h1, h2, h3⟩ := hp
    rw [if_pos ⟨h1, h2, h3⟩]
    simp only [Plain, h1, h2, h3, and_self, not_true_eq_false, false_and, true_or, false_or, ne_eq, reduceCtorEq, not_false_eq_true,
      true_and, LabelsOk, LocalOk, localOf, if_true]
    cases hi : idna d with
    | none => simp
    | some a =>
      simp only [bind_ok_iff, handlePort_ok o.port u hu, Out.ok.injEq, Option.some.injEq]
      constructor
      · rintro ⟨p, hp, rfl⟩; exact ⟨a, p, rfl, hp, rfl⟩
      · rintro ⟨_, p, rfl, hp, rfl⟩; exact ⟨p, hp, rfl⟩
  · rw [if_neg (show ¬ (o.ipv4 = .allow ∧ o.loc = .allow ∧ o.atl = .allow) from hp)]
    simp only [hp, not_false_eq_true, true_and, false_or]
    cases hq : parseV4Dot d with
    | some ip =>
      have hx := (quadDot_iff d ip).1 hq
      simp only [ipv4Arm_ok o s u hu]
      have hno : ¬ ∀ x, ¬ QuadDot d x := fun h => h ip hx
      simp only [hno, false_and, or_false]
      constructor
      · rintro ⟨h1, h2, h3, p, h4, h5⟩; exact ⟨ip, p, hx, h4, h1, h2, h3, h5⟩
      · rintro ⟨x, p, hx', h4, h1, h2, h3, h5⟩
        have := (quadDot_iff d x).2 hx'
        rw [hq] at this; cases this
        exact ⟨h1, h2, h3, p, h4, h5⟩
    | none =>
      have hno := (quadDot_none d).1 hq
      simp only [nameArm_ok o idna d u hu]
      constructor
      · intro h; exact .inr ⟨hno, h⟩
      · rintro (⟨x, _, hx, _⟩ | ⟨_, h⟩)
        · exact absurd hx (hno x)
        · exact h

theorem domainPart_panic (o : Opts) (idna : Idna) (s d : List UInt8) (u : Option (List UInt8)) : domainPart o idna s d u ≠ .panic := by
  unfold domainPart ipv4Arm nameArm
  intro h
  repeat' split at h
  all_goals simp only [bind_panic_iff, handlePort_panic, checkLocal_panic, checkLabels_panic, reduceCtorEq, false_or, and_false, exists_false] at h

/-- The ways to fail once the port text is there or not as it should. -/
theorem domainPart_err (o : Opts) (idna : Idna) (s d : List UInt8) (u : Option (List UInt8)) (e : DomainError)
    (h : domainPart o idna s d u = .err e) :
    e = .invalid ∨
    e = .ipv4Disallow ∧ o.ipv4 = .disallow ∧ (∃ x, QuadDot d x) ∨
    e = .ipv4Must ∧ o.ipv4 = .must ∧ (∀ x, ¬ QuadDot d x) ∨
    e = .atLeastTwoLabelsMust ∧ o.atl = .must ∧ (∃ a, idna d = some a ∧ isLocalDomain a = false ∧ ¬ ManyLabels a) ∨
    e = .atLeastTwoLabelsDisallow ∧ o.atl = .disallow ∧
      ((∃ x, QuadDot d x) ∨ ∃ a, idna d = some a ∧ isLocalDomain a = false ∧ ManyLabels a) ∨
    e = .localMust ∧ o.loc = .must ∧
      ((∃ x, QuadDot d x ∧ isLocalV4 x = false) ∨ (∀ x, ¬ QuadDot d x) ∧ ∃ a, idna d = some a ∧ isLocalDomain a = false) ∨
    e = .localDisallow ∧ o.loc = .disallow ∧
      ((∃ x, QuadDot d x ∧ isLocalV4 x = true) ∨ (∀ x, ¬ QuadDot d x) ∧ ∃ a, idna d = some a ∧ isLocalDomain a = true) := by
  unfold domainPart at h
  split at h
  · split at h
    · rw [bind_err_iff] at h
      rcases h with h | ⟨_, _, h⟩
      · exact .inl (handlePort_err _ _ _ h)
      · cases h
    · cases h; exact .inl rfl
  · split at h
    · rename_i ip hip
      have hx := (quadDot_iff d ip).1 hip
      unfold ipv4Arm at h
      split at h
      · rename_i ho
        cases h; exact .inr (.inl ⟨rfl, ho, ip, hx⟩)
      · split at h
        · rename_i ho
          cases h; exact .inr (.inr (.inr (.inr (.inl ⟨rfl, ho, .inl ⟨ip, hx⟩⟩))))
        · simp only [bind_err_iff] at h
          rcases h with h | ⟨_, _, h | ⟨_, _, h⟩⟩
          · exact .inl (handlePort_err _ _ _ h)
          · rcases checkLocal_err _ _ _ h with ⟨rfl, h1, h2⟩ | ⟨rfl, h1, h2⟩
            · exact .inr (.inr (.inr (.inr (.inr (.inl ⟨rfl, h1, .inl ⟨ip, hx, h2⟩⟩)))))
            · exact .inr (.inr (.inr (.inr (.inr (.inr ⟨rfl, h1, .inl ⟨ip, hx, h2⟩⟩)))))
          · cases h
    · rename_i hno
      have hno := (quadDot_none d).1 hno
      unfold nameArm at h
      split at h
      · rename_i ho
        cases h; exact .inr (.inr (.inl ⟨rfl, ho, hno⟩))
      · split at h
        · rename_i a ha
          simp only [bind_err_iff] at h
          rcases h with h | ⟨_, _, h | ⟨_, _, h | ⟨_, _, h⟩⟩⟩
          · exact .inl (handlePort_err _ _ _ h)
          · rcases checkLabels_err _ _ _ _ h with ⟨rfl, h1, h2, h3⟩ | ⟨rfl, h1, h2, h3⟩
            · exact .inr (.inr (.inr (.inl ⟨rfl, h1, a, ha, h2, h3⟩)))
            · exact .inr (.inr (.inr (.inr (.inl ⟨rfl, h1, .inr ⟨a, ha, h2, h3⟩⟩))))
          · rcases checkLocal_err _ _ _ h with ⟨rfl, h1, h2⟩ | ⟨rfl, h1, h2⟩
            · exact .inr (.inr (.inr (.inr (.inr (.inl ⟨rfl, h1, .inr ⟨hno, a, ha, h2⟩⟩)))))
            · exact .inr (.inr (.inr (.inr (.inr (.inr ⟨rfl, h1, .inr ⟨hno, a, ha, h2⟩⟩)))))
          · cases h
        · cases h; exact .inl rfl

end Verif.Domain
