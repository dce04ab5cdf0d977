import Verif.Proof.Order
import Verif.Props.IpErrors
import Verif.Props.Domain
import Verif.Props.Host

/-!
# C84: the first check that fails names the error
-/

namespace Verif.Props.Order

open Verif.StdIp Verif.Spec Verif.Spec.Ip Verif.Spec.Domain Verif.Spec.Order Verif.Order
open BaseN (strBytes)
open Verif.Ip (Str)
open Verif.Domain (Idna)

/-- The checks decide: no two errors are asked for. -/
theorem C84_one_error {ε : Type} (checks : List (Prop × ε)) (e e' : ε) (h : FirstOf checks e) (h' : FirstOf checks e') : e = e' :=
  firstOf_unique checks e e' h h'

/-- Every string has one host text and one port text. -/
theorem C84_parts (s : List UInt8) : ∃ d u, Parts s d u ∧ ∀ d' u', Parts s d' u' → d' = d ∧ u' = u := by
  obtain ⟨d, u, h⟩ := Verif.Domain.split_exists s
  refine ⟨d, u, (parts_iff s d u).2 h, fun d' u' h' => ?_⟩
  exact Verif.Domain.split_unique s _ _ _ _ ((parts_iff s d' u').1 h') h

/-- Helper: the checks of the IP validators, from the conditions of their errors. -/
theorem ip_checks {α β : Type} (r : Out Verif.Ip.IpError β) (loc port : TriAllow) (I : α → Option Nat → Prop) (L : α → Prop) (A B : Prop)
    (np : r ≠ .panic)
    (h : (r = .err .portMust ↔ A) ∧ (r = .err .portDisallow ↔ B) ∧
      (r = .err .localMust ↔ loc = .must ∧ ∃ x p, I x p ∧ PortOk port p ∧ ¬ L x) ∧
      (r = .err .localDisallow ↔ loc = .disallow ∧ ∃ x p, I x p ∧ PortOk port p ∧ L x) ∧
      (r = .err .invalid ↔ ¬ A ∧ ¬ B ∧ ¬ ∃ x p, I x p ∧ PortOk port p))
    (fits : ∀ x p, I x p → ¬ A → ¬ B → PortOk port p) :
    Decide [(A, .portMust), (B, .portDisallow), (¬ ∃ x p, I x p, .invalid), (loc = .must ∧ ∃ x p, I x p ∧ ¬ L x, .localMust),
      (loc = .disallow ∧ ∃ x p, I x p ∧ L x, .localDisallow)] r := by
  obtain ⟨h1, h2, h3, h4, h5⟩ := h
  by_cases a : A
  · rw [h1.2 a]; exact decide_err _ _ _ a
  refine decide_skip _ _ _ _ a ?_
  by_cases b : B
  · rw [h2.2 b]; exact decide_err _ _ _ b
  refine decide_skip _ _ _ _ b ?_
  by_cases i : ¬ ∃ x p, I x p
  · rw [h5.2 ⟨a, b, fun ⟨x, p, hi, _⟩ => i ⟨x, p, hi⟩⟩]; exact decide_err _ _ _ i
  refine decide_skip _ _ _ _ i ?_
  by_cases c : loc = .must ∧ ∃ x p, I x p ∧ ¬ L x
  · obtain ⟨hl, x, p, hi, hx⟩ := c
    rw [h3.2 ⟨hl, x, p, hi, fits x p hi a b, hx⟩]; exact decide_err _ _ _ ⟨hl, x, p, hi, hx⟩
  refine decide_skip _ _ _ _ c ?_
  by_cases d : loc = .disallow ∧ ∃ x p, I x p ∧ L x
  · obtain ⟨hl, x, p, hi, hx⟩ := d
    rw [h4.2 ⟨hl, x, p, hi, fits x p hi a b, hx⟩]; exact decide_err _ _ _ ⟨hl, x, p, hi, hx⟩
  refine decide_skip _ _ _ _ d ((decide_nil r).2 ?_)
  cases hr : r with
  | ok v => exact ⟨v, rfl⟩
  | panic => exact absurd hr np
  | err e =>
    exfalso
    cases e with
    | portMust => exact a (h1.1 hr)
    | portDisallow => exact b (h2.1 hr)
    | localMust => obtain ⟨hl, x, p, hi, _, hx⟩ := h3.1 hr; exact c ⟨hl, x, p, hi, hx⟩
    | localDisallow => obtain ⟨hl, x, p, hi, _, hx⟩ := h4.1 hr; exact d ⟨hl, x, p, hi, hx⟩
    | invalid =>
      exact i fun ⟨x, p, hi⟩ => (h5.1 hr).2.2 ⟨x, p, hi, fits x p hi a b⟩

/-- C84, `ipv4` -/
theorem C84_ipv4 (loc port : TriAllow) (cs : List Char) :
    Decide (ipv4 loc port (strBytes cs)) (Verif.Ip.parseStr Verif.Ip.parseIpv4 loc port (strBytes cs)) := by
  have key := ip_checks _ loc port _ _ _ _ (Ip.C33_ip loc port cs).1 (IpErrors.C28_errors loc port cs) (by
    intro x p hi a b
    cases p with
    | none =>
      cases port <;> simp only [PortOk]
      exact absurd ⟨rfl, Verif.Ip.v4Input_ne_nil _ _ _ hi, by rw [show strBytes cs = x.text from hi]; exact Verif.Ip.text_no_colon x⟩ a
    | some n =>
      cases port <;> simp only [PortOk, ne_eq, reduceCtorEq, not_false_eq_true]
      exact absurd ⟨rfl, Verif.Ip.v4Input_some_colon _ _ _ hi⟩ b)
  unfold ipv4
  by_cases he : strBytes cs = []
  · rw [he]
    exact decide_err _ _ _ rfl
  · refine decide_skip _ _ _ _ he ?_
    simpa only [he, not_false_eq_true, ne_eq, true_and] using key

/-- When the port is neither missing nor too much, an IPv6 address comes with what the option allows. -/
theorem v6_fits (port : TriAllow) (s : List UInt8) (x : V6) (p : Option Nat) (hi : V6Input s x p) (a : ¬ (port = .must ∧ (Bracketed s ∨ Bare6 s)))
    (b : ¬ (port = .disallow ∧ OpenBracket s)) : PortOk port p := by
  cases p with
  | none =>
    cases port <;> simp only [PortOk]
    refine absurd ⟨rfl, ?_⟩ a
    rcases hi with hi | ⟨t, rfl, -⟩
    · exact .inr ⟨x, hi⟩
    · refine .inl ⟨rfl, ?_⟩
      rw [List.getLast?_append]
      rfl
  | some n =>
    cases port <;> simp only [PortOk, ne_eq, reduceCtorEq, not_false_eq_true]
    refine absurd ⟨rfl, ?_⟩ b
    obtain ⟨t, u, rfl, -, hu⟩ := hi
    refine ⟨rfl, fun h => ?_⟩
    have hm : u.getLast? = some (asc ']') := by
      refine Verif.Ip.last_after_colon (ascii "[" ++ t ++ ascii "]") u ?_
      rw [← h]
      congr 1
      show _ = ascii "[" ++ t ++ (ascii "]" ++ [asc ':']) ++ u
      simp
    exact Verif.Ip.portText_bracket u n hu (List.mem_of_getLast? hm)

/-- C84, `ipv6` -/
theorem C84_ipv6 (loc port : TriAllow) (cs : List Char) :
    Decide (ipv6 loc port (strBytes cs)) (Verif.Ip.parseStr Verif.Ip.parseIpv6 loc port (strBytes cs)) :=
  ip_checks _ loc port _ _ _ _ (Ip.C33_ip loc port cs).2.2.1 (IpErrors.C29_errors loc port cs) (v6_fits port _)

/-- Helper: a wrapped address is refused as the address is. -/
theorem wrap_void {α : Type} (f : α → Verif.Ip.IpAddr) (port : TriAllow) (q : Out Verif.Ip.IpError (Verif.Ip.Parsed α)) :
    (q.bind (Verif.Ip.create port)).void = ((q.map (Verif.Ip.wrap f)).bind (Verif.Ip.create port)).void := by
  cases q with
  | ok v =>
    obtain ⟨x, p, l⟩ := v
    cases port <;> cases p <;> rfl
  | err e => rfl
  | panic => rfl

/-- C84, `ip`: the checks of `ipv6` for what begins with `[` or is the text of an IPv6 address, those of `ipv4` for the rest. -/
theorem C84_ip (loc port : TriAllow) (cs : List Char) :
    (Looks6 (strBytes cs) → Decide (ipv6 loc port (strBytes cs)) (Verif.Ip.parseStr Verif.Ip.parseIp loc port (strBytes cs))) ∧
    (¬ Looks6 (strBytes cs) → Decide (ipv4 loc port (strBytes cs)) (Verif.Ip.parseStr Verif.Ip.parseIp loc port (strBytes cs))) := by
  constructor
  · intro h
    refine (decide_congr _ _ _ ?_).1 (C84_ipv6 loc port cs)
    unfold Verif.Ip.parseStr
    by_cases hb : (strBytes cs).head? = some (asc '[')
    · rw [(Verif.Ip.parseIpv6_bracket loc port _ hb).1, (Verif.Ip.parseIpv6_bracket loc port _ hb).2]
      exact wrap_void _ port _
    · obtain ⟨x, hx⟩ := h.resolve_left hb
      rw [Verif.Ip.parseIpv6_bare loc port _ hb, Verif.Ip.parseIp_bare loc port _ hb (Verif.Ip.v6Text_ne_nil _ _ hx)]
      simp only [(parseV6_iff _ _).2 hx]
      exact wrap_void _ port _
  · intro h
    refine (decide_congr _ _ _ ?_).1 (C84_ipv4 loc port cs)
    unfold Verif.Ip.parseStr
    have hb : (strBytes cs).head? ≠ some (asc '[') := fun hb => h (.inl hb)
    by_cases he : strBytes cs = []
    · rw [he]; rfl
    · have h6 : parseV6 (strBytes cs) = none := by
        cases hx : parseV6 (strBytes cs) with
        | none => rfl
        | some x => exact absurd (.inr ⟨x, (parseV6_iff _ x).1 hx⟩) h
      rw [Verif.Ip.parseIp_bare loc port _ hb he, h6, Verif.Ip.parseIpv4, if_neg he]
      exact wrap_void _ port _

/-- C84, `domain` -/
theorem C84_domain (o : Verif.Domain.Opts) (idna : Idna) (cs : List Char) (d : List UInt8) (u : Option (List UInt8)) (h : Parts (strBytes cs) d u) :
    Decide (domain o idna (strBytes cs) d u) (Verif.Domain.parseStr o idna (strBytes cs)) := by
  have hs : Str (strBytes cs) := ⟨cs, rfl⟩
  have hv : (Verif.Domain.parseStr o idna (strBytes cs)).void = (Verif.Domain.parse o idna (strBytes cs)).void := by
    rw [← Verif.Props.Domain.C58_validate]
    unfold Verif.Domain.validateStr
    cases Verif.Domain.parse o idna (strBytes cs) <;> rfl
  refine (decide_congr _ _ _ hv).2 (domain_checks o idna _ d u hs ((parts_iff _ _ _).1 h))

/-- C84, `host`, for what is looked at as an IPv6 address -/
theorem C84_host6 (o : Verif.Host.Opts) (idna : Idna) (cs : List Char) (h : Looks6 (strBytes cs)) :
    Decide (host6 o (strBytes cs)) (Verif.Host.parseStr o idna (strBytes cs)) := by
  have hv : (Verif.Host.parseStr o idna (strBytes cs)).void = (Verif.Host.parse o idna (strBytes cs)).void := by
    rw [← Verif.Props.Host.C37_validate]
    unfold Verif.Host.validateStr
    cases Verif.Host.parse o idna (strBytes cs) <;> rfl
  refine (decide_congr _ _ _ hv).2 ?_
  by_cases ho : o.atl = .disallow
  · rw [Verif.Host.parse_v6_disallow o idna _ h ho]
    exact decide_err _ _ _ ho
  · refine decide_skip _ _ _ _ ho ?_
    rw [Verif.Host.parse_v6 o idna _ h ho]
    have h1 := C84_ipv6 o.loc o.port cs
    have h2 : Decide (ipv6 o.loc o.port (strBytes cs)) (Verif.Ip.parseIpv6 o.loc o.port (strBytes cs)) := by
      refine (decide_congr _ _ _ ?_).1 h1
      rw [← Ip.C29_validate]
      unfold Verif.Ip.validateStr
      cases Verif.Ip.parseIpv6 o.loc o.port (strBytes cs) <;> rfl
    exact decide_lift Verif.Host.errorOf _ _ _ h2 (fun v hv => ⟨_, by rw [hv]; rfl⟩) (fun e he => by rw [he]; rfl)

/-- C84, `host`, for the rest -/
theorem C84_host (o : Verif.Host.Opts) (idna : Idna) (cs : List Char) (d : List UInt8) (u : Option (List UInt8)) (h6 : ¬ Looks6 (strBytes cs))
    (h : Parts (strBytes cs) d u) : Decide (host o idna (strBytes cs) d u) (Verif.Host.parseStr o idna (strBytes cs)) := by
  have hs : Str (strBytes cs) := ⟨cs, rfl⟩
  have hv : (Verif.Host.parseStr o idna (strBytes cs)).void = (Verif.Host.parse o idna (strBytes cs)).void := by
    rw [← Verif.Props.Host.C37_validate]
    unfold Verif.Host.validateStr
    cases Verif.Host.parse o idna (strBytes cs) <;> rfl
  refine (decide_congr _ _ _ hv).2 (host_checks o idna _ d u hs h6 ((parts_iff _ _ _).1 h))

/-- C84, `validate_str`: the same checks decide. -/
theorem C84_validate (loc port : TriAllow) (o : Verif.Domain.Opts) (p : Verif.Host.Opts) (idna : Idna) (cs : List Char) :
    (∀ l, Decide l (Verif.Ip.parseStr Verif.Ip.parseIpv4 loc port (strBytes cs)) ↔ Decide l (Verif.Ip.validateStr Verif.Ip.parseIpv4 loc port (strBytes cs))) ∧
    (∀ l, Decide l (Verif.Ip.parseStr Verif.Ip.parseIpv6 loc port (strBytes cs)) ↔ Decide l (Verif.Ip.validateStr Verif.Ip.parseIpv6 loc port (strBytes cs))) ∧
    (∀ l, Decide l (Verif.Ip.parseStr Verif.Ip.parseIp loc port (strBytes cs)) ↔ Decide l (Verif.Ip.validateStr Verif.Ip.parseIp loc port (strBytes cs))) ∧
    (∀ l, Decide l (Verif.Domain.parseStr o idna (strBytes cs)) ↔ Decide l (Verif.Domain.validateStr o idna (strBytes cs))) ∧
    ∀ l, Decide l (Verif.Host.parseStr p idna (strBytes cs)) ↔ Decide l (Verif.Host.validateStr p idna (strBytes cs)) := by
  have key : ∀ {ε α : Type} (r : Out ε α), r.void.void = r.void := by intro ε α r; cases r <;> rfl
  refine ⟨fun l => decide_congr _ _ _ ?_, fun l => decide_congr _ _ _ ?_, fun l => decide_congr _ _ _ ?_, fun l => decide_congr _ _ _ ?_,
    fun l => decide_congr _ _ _ ?_⟩
  · rw [show Verif.Ip.validateStr _ loc port (strBytes cs) = _ from Ip.C28_validate loc port cs, key]
  · rw [show Verif.Ip.validateStr _ loc port (strBytes cs) = _ from Ip.C29_validate loc port cs, key]
  · rw [show Verif.Ip.validateStr _ loc port (strBytes cs) = _ from Ip.C30_validate loc port cs, key]
  · rw [Verif.Props.Domain.C58_validate, key]
  · rw [Verif.Props.Host.C37_validate, key]

/-! ### The hypotheses are met -/

/-- A string with several faults: `127.0.0.1.:99999` is an IPv4 address with a bad port, and local. The label option comes
first, then the port number, then the locality. -/
example : Parts (ascii "127.0.0.1.:99999") (ascii "127.0.0.1.") (some (ascii "99999")) ∧ QuadDot (ascii "127.0.0.1.") ⟨127, 0, 0, 1⟩ ∧
    Verif.Domain.parseStr ⟨.allow, .disallow, .allow, .disallow⟩ Verif.Domain.ldh (ascii "127.0.0.1.:99999") = .err .atLeastTwoLabelsDisallow ∧
    Verif.Domain.parseStr ⟨.disallow, .disallow, .allow, .disallow⟩ Verif.Domain.ldh (ascii "127.0.0.1.:99999") = .err .ipv4Disallow ∧
    Verif.Domain.parseStr ⟨.allow, .disallow, .allow, .allow⟩ Verif.Domain.ldh (ascii "127.0.0.1.:99999") = .err .invalid ∧
    Verif.Domain.parseStr ⟨.allow, .disallow, .allow, .allow⟩ Verif.Domain.ldh (ascii "127.0.0.1.:9999") = .err .localDisallow := by
  refine ⟨.inr ⟨_, rfl, by decide, by decide⟩, .inr (by decide +kernel), ?_⟩
  decide +kernel

/-- The same for `host`, with and without brackets. -/
example : Looks6 (ascii "[::1]:99999") ∧ ¬ Looks6 (ascii "localhost:99999") ∧
    Verif.Host.parseStr ⟨.disallow, .disallow, .disallow⟩ Verif.Domain.ldh (ascii "[::1]:99999") = .err .atLeastTwoLabelsDisallow ∧
    Verif.Host.parseStr ⟨.disallow, .disallow, .allow⟩ Verif.Domain.ldh (ascii "[::1]:99999") = .err .portDisallow ∧
    Verif.Host.parseStr ⟨.disallow, .allow, .allow⟩ Verif.Domain.ldh (ascii "[::1]:99999") = .err .invalid ∧
    Verif.Host.parseStr ⟨.disallow, .allow, .allow⟩ Verif.Domain.ldh (ascii "[::1]:9999") = .err .localDisallow ∧
    Verif.Host.parseStr ⟨.disallow, .allow, .allow⟩ Verif.Domain.ldh (ascii "localhost:99999") = .err .invalid ∧
    Verif.Host.parseStr ⟨.disallow, .allow, .allow⟩ Verif.Domain.ldh (ascii "localhost:9999") = .err .localDisallow := by
  refine ⟨.inl rfl, ?_, by decide +kernel⟩
  rintro (h | ⟨x, h⟩)
  · exact absurd h (by decide)
  · rw [← parseV6_iff, show parseV6 (ascii "localhost:99999") = none by decide +kernel] at h
    cases h

end Verif.Props.Order
