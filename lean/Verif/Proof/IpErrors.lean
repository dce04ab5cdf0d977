import Verif.Proof.IpValid

/-!
# Which error the IP parsers give

The local option is only looked at once an address and a port were found, so a parser with any local option is the parser
without one followed by one check.
-/

namespace Verif.Ip

open Verif.StdIp Verif.Spec.Ip Verif.Spec
open BaseN (strBytes)

theorem finish_allow {α : Type} (f : α → Bool) (ip : α) (p : Option Nat) : finish .allow f ip p = .ok (ip, p, false) := rfl

/-- The check behind the parser without a local option. -/
def recheck {α : Type} (loc : TriAllow) (f : α → Bool) (v : Parsed α) : Out IpError (Parsed α) := finish loc f v.1 v.2.1

theorem v4Part_fac (loc port : TriAllow) (s : List UInt8) :
    v4Part loc port s = (v4Part .allow port s).bind (recheck loc isLocalV4) := by
  unfold v4Part
  cases rposition (asc ':') s with
  | none =>
    simp only
    split
    · rfl
    · cases parseV4 s <;> rfl
  | some i =>
    simp only
    split
    · rfl
    · cases (strSlice s 0 i : Out IpError _) with
      | ok a =>
        simp only [Out.bind_ok]
        cases parseV4 a with
        | none => rfl
        | some ip =>
          simp only
          cases (strSliceFrom s (i + 1) : Out IpError _) with
          | ok b => simp only [Out.bind_ok]; cases parsePort b <;> rfl
          | err e => rfl
          | panic => rfl
      | err e => rfl
      | panic => rfl

theorem parseIpv4_fac (loc port : TriAllow) (s : List UInt8) :
    parseIpv4 loc port s = (parseIpv4 .allow port s).bind (recheck loc isLocalV4) := by
  unfold parseIpv4
  split
  · rfl
  · exact v4Part_fac loc port s

theorem bracketPart_fac (loc port : TriAllow) (s : List UInt8) :
    bracketPart loc port s = (bracketPart .allow port s).bind (recheck loc isLocalV6) := by
  unfold bracketPart
  simp only
  cases (idx s (s.length - 1) : Out IpError _) with
  | err e => rfl
  | panic => rfl
  | ok l =>
    simp only [Out.bind_ok]
    split
    · split
      · rfl
      · cases (strSlice s 1 (s.length - 1) : Out IpError _) with
        | err e => rfl
        | panic => rfl
        | ok t => simp only [Out.bind_ok]; cases parseV6 t <;> rfl
    · split
      · rfl
      · cases rposition (asc ':') s with
        | none => rfl
        | some i =>
          simp only
          split
          · cases (idx s (i - 1) : Out IpError _) with
            | err e => rfl
            | panic => rfl
            | ok b =>
              simp only [Out.bind_ok]
              split
              · cases (strSlice s 1 (i - 1) : Out IpError _) with
                | err e => rfl
                | panic => rfl
                | ok t =>
                  simp only [Out.bind_ok]
                  cases parseV6 t with
                  | none => rfl
                  | some ip =>
                    simp only
                    cases (strSliceFrom s (i + 1) : Out IpError _) with
                    | err e => rfl
                    | panic => rfl
                    | ok u => simp only [Out.bind_ok]; cases parsePort u <;> rfl
              · rfl
          · rfl

theorem barePart_fac (loc port : TriAllow) (ip : V6) :
    barePart loc port ip = (barePart .allow port ip).bind (recheck loc isLocalV6) := by
  unfold barePart
  split <;> rfl

theorem parseIpv6_fac (loc port : TriAllow) (s : List UInt8) :
    parseIpv6 loc port s = (parseIpv6 .allow port s).bind (recheck loc isLocalV6) := by
  unfold parseIpv6
  cases s with
  | nil => rfl
  | cons b s =>
    simp only
    split
    · exact bracketPart_fac loc port _
    · cases parseV6 (b :: s) with
      | none => rfl
      | some ip => exact barePart_fac loc port ip

theorem recheck_wrap {α : Type} (loc : TriAllow) (f : α → Bool) (w : α → IpAddr) (hw : ∀ a, isLocalIp (w a) = f a) (r : Out IpError (Parsed α)) :
    (r.bind (recheck loc f)).map (wrap w) = (r.map (wrap w)).bind (recheck loc isLocalIp) := by
  cases r with
  | ok v =>
    obtain ⟨x, p, l⟩ := v
    cases loc <;> cases h : f x <;> simp [recheck, finish, checkLocal, localOf, wrap, hw, h]
  | err e => rfl
  | panic => rfl

theorem parseIp_fac (loc port : TriAllow) (s : List UInt8) :
    parseIp loc port s = (parseIp .allow port s).bind (recheck loc isLocalIp) := by
  unfold parseIp
  cases s with
  | nil => rfl
  | cons b s =>
    simp only
    split
    · rw [bracketPart_fac loc port, recheck_wrap loc isLocalV6 .v6 (fun _ => rfl)]
    · cases parseV6 (b :: s) with
      | none => simp only; rw [v4Part_fac loc port, recheck_wrap loc isLocalV4 .v4 (fun _ => rfl)]
      | some ip => simp only; rw [barePart_fac loc port, recheck_wrap loc isLocalV6 .v6 (fun _ => rfl)]

/-- The errors of such a parser: the local errors come from the check alone, the others from the parser alone. -/
theorem fac_err {α : Type} (loc : TriAllow) (f : α → Bool) (r : Out IpError (Parsed α)) (hr : r ≠ .err .localMust ∧ r ≠ .err .localDisallow) :
    (r.bind (recheck loc f) = .err .localMust ↔ loc = .must ∧ ∃ x p l, r = .ok (x, p, l) ∧ f x = false) ∧
    (r.bind (recheck loc f) = .err .localDisallow ↔ loc = .disallow ∧ ∃ x p l, r = .ok (x, p, l) ∧ f x = true) ∧
    (∀ e, e ≠ .localMust → e ≠ .localDisallow → (r.bind (recheck loc f) = .err e ↔ r = .err e)) := by
  cases r with
  | ok v =>
    obtain ⟨x, p, l⟩ := v
    simp only [Out.bind_ok, recheck, finish_err, Out.ok.injEq, Prod.mk.injEq]
    refine ⟨?_, ?_, ?_⟩
    · constructor
      · rintro (⟨h, hf, -⟩ | ⟨-, -, h⟩)
        · exact ⟨h, x, p, l, ⟨rfl, rfl, rfl⟩, hf⟩
        · cases h
      · rintro ⟨h, x', p', l', ⟨rfl, -, -⟩, hf⟩
        exact .inl ⟨h, hf, trivial⟩
    · constructor
      · rintro (⟨-, -, h⟩ | ⟨h, hf, -⟩)
        · cases h
        · exact ⟨h, x, p, l, ⟨rfl, rfl, rfl⟩, hf⟩
      · rintro ⟨h, x', p', l', ⟨rfl, -, -⟩, hf⟩
        exact .inr ⟨h, hf, trivial⟩
    · intro e h1 h2
      simp [h1, h2]
  | err e => simp_all
  | panic => simp

/-- When no local option is set, the errors of the ipv4 part about the port. -/
theorem v4Part_port (port : TriAllow) (s : List UInt8) (hs : Str s) :
    (v4Part .allow port s = .err .portMust ↔ port = .must ∧ asc ':' ∉ s) ∧
    (v4Part .allow port s = .err .portDisallow ↔ port = .disallow ∧ asc ':' ∈ s) := by
  by_cases hc : asc ':' ∈ s
  · obtain ⟨p, t, rfl, ht⟩ := last_split _ _ hc
    rw [v4Part_colon .allow port p t hs ht]
    by_cases hp : port = .disallow
    · simp [hp]
    · simp only [if_neg hp, finish_allow]
      cases parseV4 p with
      | none => simp [hp]
      | some ip => cases parsePort t <;> simp [hp]
  · rw [v4Part_none .allow port s hc]
    by_cases hp : port = .must
    · simp [hp, hc]
    · simp only [if_neg hp, finish_allow]
      cases parseV4 s <;> simp [hp, hc]

/-- The same for the bracketed part. -/
theorem bracketPart_port (port : TriAllow) (s : List UInt8) (hs : Str s) (h0 : s.head? = some (asc '[')) :
    (bracketPart .allow port s = .err .portMust ↔ port = .must ∧ s.getLast? = some (asc ']')) ∧
    (bracketPart .allow port s = .err .portDisallow ↔ port = .disallow ∧ s.getLast? ≠ some (asc ']')) := by
  have hb := brackets s h0
  cases hb with
  | closed t =>
    rw [bracket_closed .allow port t hs]
    have hl : (asc '[' :: t ++ [asc ']']).getLast? = some (asc ']') := List.getLast?_eq_some_iff.2 ⟨_, rfl⟩
    rw [hl]
    by_cases hp : port = .must
    · simp [hp]
    · simp only [if_neg hp, finish_allow]
      cases parseV6 t <;> simp [hp]
  | port t u hu hl ht =>
    rw [bracket_port .allow port t u hs hu hl ht]
    have hl' : (asc '[' :: t ++ asc ']' :: asc ':' :: u).getLast? ≠ some (asc ']') := by
      intro h
      apply hl
      apply last_after_colon (asc '[' :: t ++ [asc ']'])
      simpa using h
    generalize asc '[' :: t ++ asc ']' :: asc ':' :: u = s at hl'
    by_cases hp : port = .disallow
    · simp [hp, hl']
    · simp only [if_neg hp, finish_allow]
      cases parseV6 t with
      | none => simp [hp, hl']
      | some ip => cases parsePort u <;> simp [hp, hl']
  | other _ _ hl hn =>
    rw [bracket_other .allow port s h0 hl hn]
    by_cases hp : port = .disallow
    · simp [hp, hl]
    · simp [hp, hl]

/-- What `[` at the front and `]` at the end say about an input, for the errors. -/
theorem parseIpv6_port (port : TriAllow) (s : List UInt8) (hs : Str s) :
    (parseIpv6 .allow port s = .err .portMust ↔
      port = .must ∧ (s.head? = some (asc '[') ∧ s.getLast? = some (asc ']') ∨ ∃ x : V6, V6Text s x.segs)) ∧
    (parseIpv6 .allow port s = .err .portDisallow ↔
      port = .disallow ∧ s.head? = some (asc '[') ∧ s.getLast? ≠ some (asc ']')) := by
  by_cases h0 : s.head? = some (asc '[')
  · rw [(parseIpv6_bracket .allow port s h0).1, (bracketPart_port port s hs h0).1, (bracketPart_port port s hs h0).2]
    have : ¬ ∃ x : V6, V6Text s x.segs := fun ⟨x, h⟩ => v6Text_not_bracket s _ h h0
    simp [h0, this]
  · rw [parseIpv6_bare .allow port s h0]
    cases hv : parseV6 s with
    | none =>
      have : ¬ ∃ x : V6, V6Text s x.segs := fun ⟨x, h⟩ => by rw [(parseV6_iff _ _).2 h] at hv; cases hv
      simp [h0, this]
    | some x =>
      have : ∃ x : V6, V6Text s x.segs := ⟨x, (parseV6_iff _ _).1 hv⟩
      by_cases hp : port = .must
      · simp [h0, this, barePart, hp]
      · simp [h0, barePart, hp, finish_allow]

theorem parseIp_port_err (port : TriAllow) (s : List UInt8) (hs : Str s) :
    (parseIp .allow port s = .err .portMust ↔
      port = .must ∧ (s.head? = some (asc '[') ∧ s.getLast? = some (asc ']') ∨ (∃ x : V6, V6Text s x.segs) ∨
        s ≠ [] ∧ s.head? ≠ some (asc '[') ∧ asc ':' ∉ s)) ∧
    (parseIp .allow port s = .err .portDisallow ↔
      port = .disallow ∧ (s.head? = some (asc '[') ∧ s.getLast? ≠ some (asc ']') ∨
        s.head? ≠ some (asc '[') ∧ (¬ ∃ x : V6, V6Text s x.segs) ∧ asc ':' ∈ s)) := by
  by_cases h0 : s.head? = some (asc '[')
  · rw [(parseIpv6_bracket .allow port s h0).2, map_err_iff, map_err_iff, (bracketPart_port port s hs h0).1, (bracketPart_port port s hs h0).2]
    have : ¬ ∃ x : V6, V6Text s x.segs := fun ⟨x, h⟩ => v6Text_not_bracket s _ h h0
    simp [h0, this]
  · by_cases hne : s = []
    · subst hne
      have hv : parseV6 [] = none := by decide
      have : ¬ ∃ x : V6, V6Text [] x.segs := fun ⟨x, h⟩ => by rw [(parseV6_iff _ _).2 h] at hv; cases hv
      simp [parseIp, this]
    · rw [parseIp_bare .allow port s h0 hne]
      cases hv : parseV6 s with
      | none =>
        have : ¬ ∃ x : V6, V6Text s x.segs := fun ⟨x, h⟩ => by rw [(parseV6_iff _ _).2 h] at hv; cases hv
        simp only [map_err_iff, (v4Part_port port s hs).1, (v4Part_port port s hs).2]
        simp [h0, this, hne]
      | some x =>
        have : ∃ x : V6, V6Text s x.segs := ⟨x, (parseV6_iff _ _).1 hv⟩
        by_cases hp : port = .must
        · simp [h0, this, barePart, hp]
        · simp only [barePart, if_neg hp, finish_allow]
          simp [h0, this, hp]

end Verif.Ip
