import Verif.Spec.Order
import Verif.Proof.IpErrors
import Verif.Proof.HostValid
import Verif.Proof.DomainValid

/-! The order of the checks: lemmas. -/

namespace Verif.Order

open Verif.StdIp Verif.Spec Verif.Spec.Ip Verif.Spec.Domain Verif.Spec.Order
open Verif.Domain (Split TextOk Denotes split_exists split_unique)

theorem firstOf_nil {ε : Type} (e : ε) : ¬ FirstOf [] e := by
  rintro ⟨b, w, a, h, -⟩
  cases b <;> cases h

theorem firstOf_cons {ε : Type} (c : Prop) (e' e : ε) (l : List (Prop × ε)) : FirstOf ((c, e') :: l) e ↔ c ∧ e' = e ∨ ¬ c ∧ FirstOf l e := by
  constructor
  · rintro ⟨b, w, a, h, hw, hb⟩
    cases b with
    | nil => cases h; exact .inl ⟨hw, rfl⟩
    | cons x b =>
      rw [List.cons_append, List.cons.injEq] at h
      obtain ⟨rfl, rfl⟩ := h
      exact .inr ⟨hb _ List.mem_cons_self, b, w, a, rfl, hw, fun c hc => hb c (List.mem_cons_of_mem _ hc)⟩
  · rintro (⟨h, rfl⟩ | ⟨h, b, w, a, rfl, hw, hb⟩)
    · exact ⟨[], c, l, rfl, h, nofun⟩
    · refine ⟨(c, e') :: b, w, a, rfl, hw, fun x hx => ?_⟩
      rcases List.mem_cons.1 hx with rfl | hx
      · exact h
      · exact hb x hx

theorem firstOf_unique {ε : Type} (l : List (Prop × ε)) (e e' : ε) (h : FirstOf l e) (h' : FirstOf l e') : e = e' := by
  induction l with
  | nil => exact absurd h (firstOf_nil e)
  | cons x l ih =>
    obtain ⟨c, y⟩ := x
    rw [firstOf_cons] at h h'
    rcases h with ⟨h, rfl⟩ | ⟨h, hr⟩ <;> rcases h' with ⟨h1, rfl⟩ | ⟨h1, hr1⟩
    · rfl
    · exact absurd h h1
    · exact absurd h1 h
    · exact ih hr hr1

theorem decide_nil {ε α : Type} (r : Out ε α) : Decide [] r ↔ ∃ a, r = .ok a := by
  cases r <;> simp [Decide, firstOf_nil]

theorem decide_cons {ε α : Type} (c : Prop) (e : ε) (l : List (Prop × ε)) (r : Out ε α) :
    Decide ((c, e) :: l) r ↔ c ∧ r = .err e ∨ ¬ c ∧ Decide l r := by
  cases r with
  | ok a => simp [Decide]
  | err e' => simp only [Decide, firstOf_cons, Out.err.injEq, eq_comm]
  | panic => simp [Decide]

theorem decide_err {ε α : Type} (c : Prop) (e : ε) (l : List (Prop × ε)) (h : c) : Decide ((c, e) :: l) (.err e : Out ε α) :=
  (decide_cons ..).2 (.inl ⟨h, rfl⟩)

theorem decide_skip {ε α : Type} (c : Prop) (e : ε) (l : List (Prop × ε)) (r : Out ε α) (h : ¬ c) (hr : Decide l r) : Decide ((c, e) :: l) r :=
  (decide_cons ..).2 (.inr ⟨h, hr⟩)

/-- The errors do not depend on what is returned. -/
theorem decide_congr {ε α β : Type} (l : List (Prop × ε)) (r : Out ε α) (q : Out ε β) (h : r.void = q.void) : Decide l r ↔ Decide l q := by
  cases r <;> cases q <;> simp_all [Decide, Out.void]

/-- With other names for the errors the same checks decide. -/
theorem decide_lift {ε ε' α β : Type} (g : ε → ε') (l : List (Prop × ε)) (r : Out ε α) (q : Out ε' β) (h : Decide l r)
    (hok : ∀ v, r = .ok v → ∃ w, q = .ok w) (herr : ∀ e, r = .err e → q = .err (g e)) : Decide (l.map fun c => (c.1, g c.2)) q := by
  cases r with
  | ok v =>
    obtain ⟨w, rfl⟩ := hok v rfl
    simp only [Decide, List.mem_map] at h ⊢
    rintro c ⟨d, hd, rfl⟩
    exact h d hd
  | err e =>
    rw [herr e rfl]
    obtain ⟨b, w, a, rfl, hw, hb⟩ := h
    refine ⟨b.map fun c => (c.1, g c.2), w, a.map fun c => (c.1, g c.2), by simp, hw, ?_⟩
    simp only [List.mem_map]
    rintro c ⟨d, hd, rfl⟩
    exact hb d hd
  | panic => exact h.elim

theorem parts_iff (s d : List UInt8) (u : Option (List UInt8)) : Parts s d u ↔ Split s d u := by
  have e : ascii ":" = [asc ':'] := rfl
  cases u with
  | none => simp [Parts, Split]
  | some t => simp [Parts, Split, e]

theorem badPort_iff (u : Option (List UInt8)) : BadPort u ↔ ¬ ∃ p, Denotes u p := by
  cases u with
  | none => simp [BadPort, Denotes]
  | some t =>
    simp only [BadPort, Denotes, Option.some.injEq, exists_eq_left', not_exists, not_and]
    exact ⟨fun h p n _ => h n, fun h n => h _ n rfl⟩

theorem domain_checks (o : Verif.Domain.Opts) (idna : Verif.Domain.Idna) (s d : List UInt8) (u : Option (List UInt8)) (hs : Verif.Ip.Str s)
    (h : Split s d u) : Decide (domain o idna s d u) (Verif.Domain.parse o idna s) := by
  unfold domain
  by_cases he : s = []
  · have : Verif.Domain.parse o idna s = .err .invalid := by rw [Verif.Domain.parse, if_pos he]
    rw [this]
    exact decide_err _ _ _ he
  refine decide_skip _ _ _ _ he ?_
  by_cases c1 : o.port = .must ∧ u = none
  · have : Verif.Domain.parse o idna s = .err .portMust := by
      rw [Verif.Domain.parse, if_neg he, Verif.Domain.splitPort_eq o.port s d u hs h, if_pos c1.2, if_pos c1.1]; rfl
    rw [this]
    exact decide_err _ _ _ c1
  refine decide_skip _ _ _ _ c1 ?_
  by_cases c2 : o.port = .disallow ∧ u ≠ none
  · have : Verif.Domain.parse o idna s = .err .portDisallow := by
      rw [Verif.Domain.parse, if_neg he, Verif.Domain.splitPort_eq o.port s d u hs h, if_neg c2.2, if_pos c2.1]; rfl
    rw [this]
    exact decide_err _ _ _ c2
  refine decide_skip _ _ _ _ c2 ?_
  have hu : TextOk o.port u := ⟨fun hm hn => c1 ⟨hm, hn⟩, fun hd => Classical.byContradiction fun hn => c2 ⟨hd, hn⟩⟩
  rw [Verif.Domain.parse_eq o idna s d u hs he h hu]
  have port : BadPort u ∧ Verif.Domain.handlePort o.port u = .err .invalid ∨ ¬ BadPort u ∧ ∃ p, Verif.Domain.handlePort o.port u = .ok p := by
    simp only [badPort_iff, ← Verif.Domain.handlePort_ok o.port u hu]
    cases hp : Verif.Domain.handlePort o.port u with
    | ok p => right; simp
    | err e => left; rw [Verif.Domain.handlePort_err _ _ _ hp]; simp
    | panic => exact absurd hp (Verif.Domain.handlePort_panic _ _)
  unfold Verif.Domain.domainPart
  obtain ⟨i, l, po, t⟩ := o
  by_cases hpl : i = .allow ∧ l = .allow ∧ t = .allow
  · obtain ⟨rfl, rfl, rfl⟩ := hpl
    simp only [decide_cons, decide_nil, Plain, and_self, if_true, reduceCtorEq, false_and, not_false_eq_true, true_and, false_or, true_or]
    cases hi : idna d with
    | none => simp
    | some a => rcases port with ⟨h1, h2⟩ | ⟨h1, p, h2⟩ <;> simp [h1, h2]
  · have hpl' : ¬ Plain ⟨i, l, po, t⟩ := hpl
    simp only [if_neg hpl, hpl', false_or]
    cases hq : Verif.Domain.parseV4Dot d with
    | some x =>
      have hx : ∃ x, QuadDot d x := ⟨x, (Verif.Domain.quadDot_iff d x).1 hq⟩
      have hl : ∀ P : V4 → Prop, (∃ y, QuadDot d y ∧ P y) ↔ P x := by
        intro P
        constructor
        · rintro ⟨y, hy, hp⟩
          have := (Verif.Domain.quadDot_iff d y).2 hy
          rw [hq] at this
          cases this
          exact hp
        · intro hp
          exact ⟨x, (Verif.Domain.quadDot_iff d x).1 hq, hp⟩
      simp only [decide_cons, decide_nil, hx, hl, not_true_eq_false, false_and, and_false, or_false, false_or, not_false_eq_true, true_and, and_true,
        Verif.Domain.ipv4Arm, ← Verif.Ip.isLocalV4_iff]
      rcases port with ⟨h1, h2⟩ | ⟨h1, p, h2⟩ <;> cases i <;> cases t <;> cases l <;> cases hlo : Verif.Ip.isLocalV4 x <;>
        simp_all [Verif.Domain.checkLocal, Verif.Domain.localOf]
    | none =>
      have hx : ¬ ∃ x, QuadDot d x := fun ⟨x, hx⟩ => (Verif.Domain.quadDot_none d).1 hq x hx
      have hx' : ∀ P : V4 → Prop, ¬ ∃ x, QuadDot d x ∧ P x := fun P ⟨x, h, _⟩ => hx ⟨x, h⟩
      simp only [decide_cons, decide_nil, hx, hx', and_false, false_or, not_false_eq_true, true_and, and_true,
        Verif.Domain.nameArm, ← Verif.Domain.localName_iff, ← Verif.Domain.manyLabels_iff]
      cases hi : idna d with
      | none => cases i <;> simp
      | some a =>
        rcases port with ⟨h1, h2⟩ | ⟨h1, p, h2⟩ <;> cases i <;> cases t <;> cases l <;> cases hlo : Verif.Domain.isLocalDomain a <;>
          cases hm : Verif.Domain.isAtLeastTwoLabelsDomain a <;>
          simp_all [Verif.Domain.checkLocal, Verif.Domain.checkLabels, Verif.Domain.localOf]

theorem host_checks (o : Verif.Host.Opts) (idna : Verif.Domain.Idna) (s d : List UInt8) (u : Option (List UInt8)) (hs : Verif.Ip.Str s)
    (h6 : ¬ Looks6 s) (h : Split s d u) : Decide (host o idna s d u) (Verif.Host.parse o idna s) := by
  unfold host
  by_cases he : s = []
  · have : Verif.Host.parse o idna s = .err .invalid := by rw [he]; rfl
    rw [this]
    exact decide_err _ _ _ he
  refine decide_skip _ _ _ _ he ?_
  rw [Verif.Host.parse_name o idna s h6 he]
  by_cases c1 : o.port = .must ∧ u = none
  · have : Verif.Host.namePart o idna s = .err .portMust := by
      rw [Verif.Host.namePart, Verif.Host.splitPort_eq o.port s d u hs h, if_pos c1.2, if_pos c1.1]; rfl
    rw [this]
    exact decide_err _ _ _ c1
  refine decide_skip _ _ _ _ c1 ?_
  by_cases c2 : o.port = .disallow ∧ u ≠ none
  · have : Verif.Host.namePart o idna s = .err .portDisallow := by
      rw [Verif.Host.namePart, Verif.Host.splitPort_eq o.port s d u hs h, if_neg c2.2, if_pos c2.1]; rfl
    rw [this]
    exact decide_err _ _ _ c2
  refine decide_skip _ _ _ _ c2 ?_
  have hu : TextOk o.port u := ⟨fun hm hn => c1 ⟨hm, hn⟩, fun hd => Classical.byContradiction fun hn => c2 ⟨hd, hn⟩⟩
  rw [Verif.Host.namePart_eq o idna s d u hs h hu]
  have port : BadPort u ∧ Verif.Host.handlePort o.port u = .err .invalid ∨ ¬ BadPort u ∧ ∃ p, Verif.Host.handlePort o.port u = .ok p := by
    simp only [badPort_iff, ← Verif.Host.handlePort_ok o.port u hu]
    cases hp : Verif.Host.handlePort o.port u with
    | ok p => right; simp
    | err e => left; rw [Verif.Host.handlePort_err _ _ _ hp]; simp
    | panic => exact absurd hp (Verif.Host.handlePort_panic _ _)
  unfold Verif.Host.afterSplit
  by_cases hd : d.getLast? = some (asc '.')
  · rw [if_pos hd]
    exact decide_err _ _ _ ((Verif.Domain.getLast_dot d).1 hd)
  rw [if_neg hd]
  refine decide_skip _ _ _ _ (fun hc => hd ((Verif.Domain.getLast_dot d).2 hc)) ?_
  obtain ⟨l, po, t⟩ := o
  cases hq : parseV4 d with
  | some x =>
    have hx : ∃ x : V4, d = x.text := ⟨x, (parseV4_iff d x).1 hq⟩
    have hl : ∀ P : V4 → Prop, (∃ y : V4, d = y.text ∧ P y) ↔ P x := by
      intro P
      constructor
      · rintro ⟨y, hy, hp⟩
        have := (parseV4_iff d y).2 hy
        rw [hq] at this
        cases this
        exact hp
      · intro hp
        exact ⟨x, (parseV4_iff d x).1 hq, hp⟩
    simp only [decide_cons, decide_nil, hx, hl, not_true_eq_false, false_and, and_false, or_false, false_or, not_false_eq_true, true_and, and_true,
      Verif.Host.ipv4Arm, ← Verif.Ip.isLocalV4_iff]
    rcases port with ⟨h1, h2⟩ | ⟨h1, p, h2⟩ <;> cases t <;> cases l <;> cases hlo : Verif.Ip.isLocalV4 x <;>
      simp_all [Verif.Host.checkLocal, Verif.Host.localOf, Verif.Host.finish]
  | none =>
    have hx : ¬ ∃ x : V4, d = x.text := fun ⟨x, hx⟩ => by rw [(parseV4_iff d x).2 hx] at hq; cases hq
    have hx' : ∀ P : V4 → Prop, ¬ ∃ x : V4, d = x.text ∧ P x := fun P ⟨x, h, _⟩ => hx ⟨x, h⟩
    simp only [decide_cons, decide_nil, hx, hx', and_false, false_or, not_false_eq_true, true_and, and_true,
      Verif.Host.nameArm, ← Verif.Domain.localName_iff, ← Verif.Domain.manyLabels_iff]
    cases hi : idna d with
    | none => simp
    | some a =>
      rcases port with ⟨h1, h2⟩ | ⟨h1, p, h2⟩ <;> cases t <;> cases l <;> cases hlo : Verif.Domain.isLocalDomain a <;>
        cases hm : Verif.Domain.isAtLeastTwoLabelsDomain a <;>
        simp_all [Verif.Host.checkLocal, Verif.Host.checkLabels, Verif.Host.localOf, Verif.Host.finish]

end Verif.Order
