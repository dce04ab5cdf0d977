import Verif.Model.Host
import Verif.Proof.DomainValid

/-! Lemmas on the `host` handler. -/

namespace Verif.Host

open Verif.StdIp Verif.Spec Verif.Spec.Ip Verif.Spec.Domain
open Verif.Ip (Str rposition strSlice strSliceFrom parsePort parsePort_iff isLocalV4 isLocalV4_iff isLocalV6 isLocalV6_iff IpError
  rposition_none rposition_split boundary_byte boundary_cut strSlice_mid strSliceFrom_cut str_cut)
open Verif.Domain (Split TextOk Denotes split_exists split_unique hostPort_iff textOk_iff bind_ok_iff bind_err_iff bind_panic_iff Idna
  isLocalDomain isAtLeastTwoLabelsDomain manyLabels_iff localName_iff getLast_dot)

/-! ### The bracketed part is the one of the `ipv6` handler -/

/-- The corresponding error. -/
def errorOf : IpError → HostError
  | .invalid => .invalid
  | .localMust => .localMust
  | .localDisallow => .localDisallow
  | .portMust => .portMust
  | .portDisallow => .portDisallow

/-- The corresponding outcome. -/
def lift (o : Opts) : Out IpError (Ip.Parsed V6) → Out HostError Parsed
  | .ok r => .ok (.ipv6 r.1, r.2.1, localOf o (isLocalV6 r.1))
  | .err e => .err (errorOf e)
  | .panic => .panic

theorem lift_finish (o : Opts) (ip : V6) (p : Option Nat) :
    finish o (isLocalV6 ip) (.ipv6 ip) p = lift o (Ip.finish o.loc isLocalV6 ip p) := by
  obtain ⟨l, q, a⟩ := o
  cases l <;> cases a <;> cases h : isLocalV6 ip <;> simp [finish, Ip.finish, lift, checkLocal, Ip.checkLocal, localOf, Ip.localOf, h, errorOf]

theorem lift_idx (o : Opts) (s : List UInt8) (i : Nat) (f : UInt8 → Out HostError Parsed) (g : UInt8 → Out IpError (Ip.Parsed V6))
    (h : ∀ b, f b = lift o (g b)) : (idx s i).bind f = lift o ((idx s i).bind g) := by
  unfold idx
  cases s[i]? with
  | none => rfl
  | some b => exact h b

theorem lift_slice (o : Opts) (s : List UInt8) (i j : Nat) (f : List UInt8 → Out HostError Parsed) (g : List UInt8 → Out IpError (Ip.Parsed V6))
    (h : ∀ b, f b = lift o (g b)) : (strSlice s i j).bind f = lift o ((strSlice s i j).bind g) := by
  unfold strSlice
  split
  · exact h _
  · rfl

theorem lift_bracket (o : Opts) (ho : o.atl ≠ .disallow) (s : List UInt8) : bracketPart o s = lift o (Ip.bracketPart o.loc o.port s) := by
  unfold bracketPart Ip.bracketPart
  rw [if_neg ho]
  simp only
  refine lift_idx o s _ _ _ fun b => ?_
  split
  · split
    · rfl
    · refine lift_slice o s _ _ _ _ fun t => ?_
      cases parseV6 t with
      | none => rfl
      | some ip => exact lift_finish o ip none
  · split
    · rfl
    · cases rposition (asc ':') s with
      | none => rfl
      | some colon =>
        simp only
        split
        · refine lift_idx o s _ _ _ fun b => ?_
          split
          · refine lift_slice o s _ _ _ _ fun t => ?_
            cases parseV6 t with
            | none => rfl
            | some ip =>
              simp only
              unfold strSliceFrom
              refine lift_slice o s _ _ _ _ fun t => ?_
              cases parsePort t with
              | none => rfl
              | some p => exact lift_finish o ip (some p)
          · rfl
        · rfl

theorem bare_eq (o : Opts) (ho : o.atl ≠ .disallow) (ip : V6) : barePart o ip = lift o (Ip.barePart o.loc o.port ip) := by
  unfold barePart Ip.barePart
  rw [if_neg ho]
  split
  · rfl
  · exact lift_finish o ip none

/-! ### Names -/

theorem splitPort_eq (port : TriAllow) (s d : List UInt8) (u : Option (List UInt8)) (hs : Str s) (h : Split s d u) :
    splitPort port s =
      if u = none then (if port = .must then .err .portMust else .ok (d, u))
      else (if port = .disallow then .err .portDisallow else .ok (d, u)) := by
  cases u with
  | none =>
    obtain ⟨rfl, hn⟩ := h
    simp only [splitPort, (rposition_none _ _).2 hn, if_true]
  | some u =>
    obtain ⟨rfl, hn⟩ := h
    obtain ⟨h1, h2⟩ := str_cut _ _ _ (by decide) hs
    simp only [splitPort, rposition_split _ _ _ hn, reduceCtorEq, if_false]
    by_cases hp : port = .disallow
    · simp only [if_pos hp]
    · rw [if_neg hp]
      have e1 : (strSlice (d ++ asc ':' :: u) 0 d.length : Out HostError _) = .ok d := by
        have := strSlice_mid (ε := HostError) [] d (asc ':' :: u) (by simp [Ip.isCharBoundary])
          (boundary_byte d u (asc ':') (by decide))
        simpa using this
      have e2 : (strSliceFrom (d ++ asc ':' :: u) (d.length + 1) : Out HostError _) = .ok u := by
        have := strSliceFrom_cut (ε := HostError) (d ++ [asc ':']) u (boundary_cut _ _ h2)
        simpa using this
      rw [e1, Out.bind_ok, e2, Out.bind_ok, if_neg hp]

theorem handlePort_ok (port : TriAllow) (u : Option (List UInt8)) (hu : TextOk port u) (p : Option Nat) :
    handlePort port u = .ok p ↔ Denotes u p := by
  unfold handlePort
  split
  · rename_i h
    rw [hu.2 h]
    simp [Denotes, eq_comm]
  · cases u with
    | none => simp [Denotes, eq_comm]
    | some t =>
      simp only [Denotes]
      cases hp : parsePort t with
      | none =>
        simp only [reduceCtorEq, false_iff]
        rintro ⟨n, _, hn⟩
        rw [(parsePort_iff t n).2 hn] at hp; cases hp
      | some n =>
        have hn := (parsePort_iff t n).1 hp
        simp only [Out.ok.injEq]
        constructor
        · rintro rfl; exact ⟨n, rfl, hn⟩
        · rintro ⟨m, rfl, hm⟩
          rw [(parsePort_iff t m).2 hm] at hp
          exact hp.symm

theorem handlePort_err (port : TriAllow) (u : Option (List UInt8)) (e : HostError) (h : handlePort port u = .err e) : e = .invalid := by
  unfold handlePort at h
  split at h
  · cases h
  · cases u with
    | none => cases h
    | some t =>
      simp only at h
      split at h <;> cases h
      rfl

theorem handlePort_panic (port : TriAllow) (u : Option (List UInt8)) : handlePort port u ≠ .panic := by
  unfold handlePort
  split
  · simp
  · cases u with
    | none => simp
    | some t => simp only; split <;> simp

theorem finish_ok (o : Opts) (f : Bool) (h : Host) (p : Option Nat) (r : Parsed) :
    finish o f h p = .ok r ↔ LocalOk o.loc (f = true) ∧ r = (h, p, localOf o f) := by
  obtain ⟨l, q, a⟩ := o
  cases l <;> cases a <;> cases f <;> simp [finish, checkLocal, localOf, LocalOk] <;> exact eq_comm

theorem finish_err (o : Opts) (f : Bool) (h : Host) (p : Option Nat) (e : HostError) (he : finish o f h p = .err e) :
    e = .localMust ∧ o.loc = .must ∧ f = false ∨ e = .localDisallow ∧ o.loc = .disallow ∧ f = true := by
  obtain ⟨l, q, a⟩ := o
  cases l <;> cases a <;> cases f <;> simp [finish, checkLocal, localOf] at he <;> simp [← he]

theorem finish_panic (o : Opts) (f : Bool) (h : Host) (p : Option Nat) : finish o f h p ≠ .panic := by
  obtain ⟨l, q, a⟩ := o
  cases l <;> cases a <;> cases f <;> simp [finish, checkLocal, localOf]

theorem checkLabels_ok (o : Opts) (f : Bool) (a : List UInt8) :
    checkLabels o.atl (localOf o f) a = .ok () ↔ LabelsOk o.atl (f = true) (ManyLabels a) := by
  rw [← manyLabels_iff]
  obtain ⟨l, p, t⟩ := o
  cases l <;> cases t <;> cases f <;> cases hm : isAtLeastTwoLabelsDomain a <;> simp [checkLabels, localOf, LabelsOk, hm]

theorem checkLabels_err (o : Opts) (f : Bool) (a : List UInt8) (e : HostError) (h : checkLabels o.atl (localOf o f) a = .err e) :
    e = .atLeastTwoLabelsMust ∧ o.atl = .must ∧ f = false ∧ ¬ ManyLabels a ∨
    e = .atLeastTwoLabelsDisallow ∧ o.atl = .disallow ∧ f = false ∧ ManyLabels a := by
  rw [← manyLabels_iff]
  obtain ⟨l, p, t⟩ := o
  cases l <;> cases t <;> cases f <;> cases hm : isAtLeastTwoLabelsDomain a <;> simp [checkLabels, localOf, hm] at h <;> simp [← h]

theorem checkLabels_panic (opt : TriAllow) (f : Bool) (a : List UInt8) : checkLabels opt f a ≠ .panic := by
  cases opt <;> cases f <;> cases hm : isAtLeastTwoLabelsDomain a <;> simp [checkLabels, hm]

/-- After the split. -/
def afterSplit (o : Opts) (idna : Idna) (d : List UInt8) (u : Option (List UInt8)) : Out HostError Parsed :=
  if d.getLast? = some (asc '.') then .err .invalid
  else
    match parseV4 d with
    | some ip => ipv4Arm o u ip
    | none => nameArm o idna d u

theorem namePart_eq (o : Opts) (idna : Idna) (s d : List UInt8) (u : Option (List UInt8)) (hs : Str s) (h : Split s d u) (hu : TextOk o.port u) :
    namePart o idna s = afterSplit o idna d u := by
  rw [namePart, splitPort_eq o.port s d u hs h]
  cases u with
  | none => rw [if_pos rfl, if_neg (fun hm => hu.1 hm rfl)]; rfl
  | some t => rw [if_neg (by simp), if_neg (fun hm => by have := hu.2 hm; cases this)]; rfl

theorem namePart_not_ok (o : Opts) (idna : Idna) (s d : List UInt8) (u : Option (List UInt8)) (hs : Str s) (h : Split s d u) (hu : ¬ TextOk o.port u) :
    o.port = .must ∧ u = none ∧ namePart o idna s = .err .portMust ∨ o.port = .disallow ∧ u ≠ none ∧ namePart o idna s = .err .portDisallow := by
  rw [namePart, splitPort_eq o.port s d u hs h]
  cases u with
  | none =>
    by_cases hm : o.port = .must
    · left; rw [if_pos rfl, if_pos hm]; exact ⟨hm, rfl, rfl⟩
    · exact absurd ⟨fun h => absurd h hm, fun _ => rfl⟩ hu
  | some t =>
    by_cases hm : o.port = .disallow
    · right; rw [if_neg (by simp), if_pos hm]; exact ⟨hm, by simp, rfl⟩
    · exact absurd ⟨fun _ => by simp, fun h => absurd h hm⟩ hu

theorem text_no_dot (x : V4) : ¬ ∃ c, x.text = c ++ ascii "." := by
  rw [← getLast_dot]; exact Domain.text_no_final_dot x

theorem afterSplit_ok (o : Opts) (idna : Idna) (d : List UInt8) (u : Option (List UInt8)) (hu : TextOk o.port u) (r : Parsed) :
    afterSplit o idna d u = .ok r ↔
      (∃ x p, d = V4.text x ∧ Denotes u p ∧ o.atl ≠ .disallow ∧ LocalOk o.loc (isLocalV4 x = true) ∧ r = (.ipv4 x, p, localOf o (isLocalV4 x))) ∨
      ((¬ ∃ c, d = c ++ ascii ".") ∧ (∀ x, d ≠ V4.text x) ∧ ∃ a p, idna d = some a ∧ Denotes u p ∧
        LabelsOk o.atl (isLocalDomain a = true) (ManyLabels a) ∧ LocalOk o.loc (isLocalDomain a = true) ∧
        r = (.domain a, p, localOf o (isLocalDomain a))) := by
  unfold afterSplit
  by_cases hd : d.getLast? = some (asc '.')
  · rw [if_pos hd]
    have hd' := (getLast_dot d).1 hd
    simp only [hd', not_true_eq_false, false_and, or_false]
    constructor
    · intro h; cases h
    · rintro ⟨x, _, rfl, _⟩; exact absurd hd' (text_no_dot x)
  · rw [if_neg hd]
    have hd' : ¬ ∃ c, d = c ++ ascii "." := by rw [← getLast_dot]; exact hd
    simp only [hd', not_false_eq_true, true_and]
    cases hx : parseV4 d with
    | some x =>
      have hxt := (parseV4_iff d x).1 hx
      have hno : ¬ ∀ x, d ≠ V4.text x := fun h => h x hxt
      simp only [hno, false_and, or_false, ipv4Arm]
      by_cases ha : o.atl = .disallow
      · simp [ha]
      · simp only [ha, if_false, bind_ok_iff, handlePort_ok o.port u hu, finish_ok, ne_eq, not_false_eq_true, true_and]
        constructor
        · rintro ⟨p, hp, hl, hr⟩; exact ⟨x, p, hxt, hp, hl, hr⟩
        · rintro ⟨y, p, hy, hp, hl, hr⟩
          have := (parseV4_iff d y).2 hy
          rw [hx] at this; cases this
          exact ⟨p, hp, hl, hr⟩
    | none =>
      have hno : ∀ x, d ≠ V4.text x := by
        intro x h
        rw [(parseV4_iff d x).2 h] at hx; cases hx
      simp only [nameArm]
      constructor
      · intro h
        right
        refine ⟨hno, ?_⟩
        cases hi : idna d with
        | none => rw [hi] at h; cases h
        | some a =>
          rw [hi] at h
          simp only [bind_ok_iff, handlePort_ok o.port u hu, finish_ok] at h
          obtain ⟨p, hp, ⟨⟩, hc, hl, hr⟩ := h
          exact ⟨a, p, rfl, hp, (checkLabels_ok _ _ _).1 hc, hl, hr⟩
      · rintro (⟨x, _, h, _⟩ | ⟨_, a, p, ha, hp, hc, hl, hr⟩)
        · exact absurd h (hno x)
        · rw [ha]
          simp only [bind_ok_iff, handlePort_ok o.port u hu, finish_ok]
          exact ⟨p, hp, (), (checkLabels_ok _ _ _).2 hc, hl, hr⟩

theorem afterSplit_panic (o : Opts) (idna : Idna) (d : List UInt8) (u : Option (List UInt8)) : afterSplit o idna d u ≠ .panic := by
  unfold afterSplit ipv4Arm nameArm
  intro h
  repeat' split at h
  all_goals simp only [bind_panic_iff, handlePort_panic, finish_panic, checkLabels_panic, reduceCtorEq, false_or, and_false, exists_false] at h

theorem afterSplit_err (o : Opts) (idna : Idna) (d : List UInt8) (u : Option (List UInt8)) (e : HostError) (h : afterSplit o idna d u = .err e) :
    e = .invalid ∨
    e = .atLeastTwoLabelsMust ∧ o.atl = .must ∧ (∃ a, idna d = some a ∧ isLocalDomain a = false ∧ ¬ ManyLabels a) ∨
    e = .atLeastTwoLabelsDisallow ∧ o.atl = .disallow ∧
      ((∃ x, d = V4.text x) ∨ ∃ a, idna d = some a ∧ isLocalDomain a = false ∧ ManyLabels a) ∨
    e = .localMust ∧ o.loc = .must ∧ ((∃ x, d = V4.text x ∧ isLocalV4 x = false) ∨ ∃ a, idna d = some a ∧ isLocalDomain a = false) ∨
    e = .localDisallow ∧ o.loc = .disallow ∧ ((∃ x, d = V4.text x ∧ isLocalV4 x = true) ∨ ∃ a, idna d = some a ∧ isLocalDomain a = true) := by
  unfold afterSplit at h
  split at h
  · cases h; exact .inl rfl
  · split at h
    · rename_i x hx
      have hxt := (parseV4_iff d x).1 hx
      unfold ipv4Arm at h
      split at h
      · rename_i ha; cases h; exact .inr (.inr (.inl ⟨rfl, ha, .inl ⟨x, hxt⟩⟩))
      · rw [bind_err_iff] at h
        rcases h with h | ⟨_, _, h⟩
        · exact .inl (handlePort_err _ _ _ h)
        · rcases finish_err _ _ _ _ _ h with ⟨rfl, h1, h2⟩ | ⟨rfl, h1, h2⟩
          · exact .inr (.inr (.inr (.inl ⟨rfl, h1, .inl ⟨x, hxt, h2⟩⟩)))
          · exact .inr (.inr (.inr (.inr ⟨rfl, h1, .inl ⟨x, hxt, h2⟩⟩)))
    · unfold nameArm at h
      split at h
      · rename_i a ha
        simp only [bind_err_iff] at h
        rcases h with h | ⟨_, _, h | ⟨_, _, h⟩⟩
        · exact .inl (handlePort_err _ _ _ h)
        · rcases checkLabels_err _ _ _ _ h with ⟨rfl, h1, h2, h3⟩ | ⟨rfl, h1, h2, h3⟩
          · exact .inr (.inl ⟨rfl, h1, a, ha, h2, h3⟩)
          · exact .inr (.inr (.inl ⟨rfl, h1, .inr ⟨a, ha, h2, h3⟩⟩))
        · rcases finish_err _ _ _ _ _ h with ⟨rfl, h1, h2⟩ | ⟨rfl, h1, h2⟩
          · exact .inr (.inr (.inr (.inl ⟨rfl, h1, .inr ⟨a, ha, h2⟩⟩)))
          · exact .inr (.inr (.inr (.inr ⟨rfl, h1, .inr ⟨a, ha, h2⟩⟩)))
      · cases h; exact .inl rfl

end Verif.Host
