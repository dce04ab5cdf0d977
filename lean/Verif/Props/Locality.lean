import Verif.Spec.Locality
import Verif.Props.Domain
import Verif.Props.Options
import Verif.Props.Url

/-!
# C97: one notion of local
-/

namespace Verif.Props.Locality

open _root_.Verif.BaseN (strBytes)
open Verif.Spec Verif.Spec.Ip Verif.Spec.Domain Verif.Spec.Host Verif.Spec.Email Verif.Spec.Url Verif.Spec.Locality Verif.StdIp
open Verif.Host (Host)
open Verif.Domain (Idna ldh ldh_laws)
open Verif.Spec.Options Verif.Props.Options

theorem url_local {U : Type} {lib : Verif.Url.Lib U} {u : U} {h : Host} {loc : TriAllow} (hu : lib.host u = some h) (e : LocalOk loc (LocalUrl lib u)) :
    LocalOk loc (LocalHost h) := by
  have : LocalUrl lib u ↔ LocalHost h := by
    constructor
    · rintro ⟨x, hx, k⟩
      rw [hu, Option.some.injEq] at hx
      exact hx ▸ k
    · exact fun k => ⟨h, hu, k⟩
  cases loc <;> simp_all [LocalOk]

/-- C97: what is returned is local as the option asks, in the sense of one and the same notion. -/
theorem C97_local {U : Type} (idna : Idna) (lib : Verif.Url.Lib U) (contract : HostsPresent lib) (loc : TriAllow) (h : Host)
    (hr : Returns idna lib loc h) : LocalOk loc (LocalHost h) := by
  cases hr with
  | ipv4 e => exact ((Ip.C28_parse _ _ _ _ _).1 e).2.2
  | ipv6 e => exact ((Ip.C29_parse _ _ _ _ _).1 e).2.2
  | ip4 e => exact ((Ip.C30_parse _ _ _ _ _).1 e).2.2
  | ip6 e => exact ((Ip.C30_parse _ _ _ _ _).1 e).2.2
  | domain e =>
    obtain ⟨_, d, _, _, ⟨_, x, _, _, h3, _⟩ | ⟨_, _, _, _, h4, _⟩⟩ := (Domain.C58_domain _ idna _ _).1 e
    · exact absurd rfl h3
    · exact h4
  | domain4 e hp hq =>
    obtain ⟨_, d, h0, _, ⟨_, y, _, h2, _, _, h3, _⟩ | ⟨_, h1, _⟩⟩ := (Domain.C58_domain _ idna _ _).1 e
    · have hd := (Verif.Domain.hostPort_unique _ _ _ _ _ h0 hp).1
      subst hd
      have := ((Verif.Domain.quadDot_iff _ _).2 h2).symm.trans ((Verif.Domain.quadDot_iff _ _).2 hq)
      rw [Option.some.injEq] at this
      exact this ▸ h3
    · exact absurd rfl h1
  | host e =>
    obtain ⟨_, ⟨x, hx, _, _, h, _⟩ | ⟨x, hx, _, _, h, _⟩ | ⟨d, a, hx, _, _, _, _, h, _⟩⟩ := (Host.C37_host _ idna _ _).1 e <;> rw [hx] <;> exact h
  | email ho e =>
    obtain ⟨q, t, w, tail, hd⟩ := (Email.C62_email _ idna _ _).1 e
    have := hd.domainText.ok
    subst ho
    revert this
    generalize (_ : Verif.Email.Value).host = x
    cases x <;> intro this <;> exact this.2.2
  | httpUrl e hu =>
    rw [(Url.C46_entry_points _ _ _).1, (Url.C46_http lib contract _ _).1] at e
    exact url_local hu e.2.2
  | httpFtpUrl e hu =>
    rw [(Url.C46_entry_points _ _ _).2.2.1, (Url.C46_http_ftp lib contract _ _).1] at e
    exact url_local hu e.2.2

theorem up {ε α β : Type} {f : TriAllow → Out ε α} {core : α → β} (hf : Covers f core) {loc : TriAllow} {v : α} (h : f loc = .ok v) :
    ∃ w, f .allow = .ok w ∧ core w = core v := by
  cases loc with
  | allow => exact ⟨v, h, rfl⟩
  | must => exact (hf (core v)).2 (.inl ⟨v, h, rfl⟩)
  | disallow => exact (hf (core v)).2 (.inr ⟨v, h, rfl⟩)

theorem down {ε α β : Type} {f : TriAllow → Out ε α} {core : α → β} (hf : Covers f core) {v : α} (h : f .allow = .ok v) :
    ∃ w, (f .must = .ok w ∨ f .disallow = .ok w) ∧ core w = core v := by
  rcases (hf (core v)).1 ⟨v, h, rfl⟩ with ⟨w, h, e⟩ | ⟨w, h, e⟩
  · exact ⟨w, .inl h, e⟩
  · exact ⟨w, .inr h, e⟩

theorem to_allow {U : Type} {idna : Idna} {lib : Verif.Url.Lib U} (contract : HostsPresent lib) {loc : TriAllow} {h : Host} (hr : Returns idna lib loc h) :
    Returns idna lib .allow h := by
  cases hr with
  | @ipv4 port cs x p e =>
    obtain ⟨w, k, (rfl : w = _)⟩ := up (C66_ip .allow port cs).1.1 e
    exact .ipv4 k
  | @ipv6 port cs x p e =>
    obtain ⟨w, k, (rfl : w = _)⟩ := up (C66_ip .allow port cs).2.2.1.1 e
    exact .ipv6 k
  | @ip4 port cs x p e =>
    obtain ⟨w, k, (rfl : w = _)⟩ := up (C66_ip .allow port cs).2.2.2.2.1.1 e
    exact .ip4 k
  | @ip6 port cs x p e =>
    obtain ⟨w, k, (rfl : w = _)⟩ := up (C66_ip .allow port cs).2.2.2.2.1.1 e
    exact .ip6 k
  | @domain port atl cs v e =>
    obtain ⟨w, k, hw⟩ := up ((C66_domain_partial ⟨.disallow, .allow, port, atl⟩ idna cs).2.1 (by simp)).1 e
    rw [← (Prod.mk.inj hw).1]
    exact .domain k
  | @domain4 port atl cs v d x e hp hq =>
    obtain ⟨w, k, hw⟩ := up ((C66_domain_partial ⟨.must, .allow, port, atl⟩ idna cs).2.1 (by simp)).1 e
    exact .domain4 k ((Prod.mk.inj hw).2 ▸ hp) hq
  | @host port atl cs v e =>
    obtain ⟨w, k, hw⟩ := up (C66_host ⟨.allow, port, atl⟩ idna cs).2.1.1 e
    rw [← (Prod.mk.inj hw).1]
    exact .host k
  | @email o cs v ho e =>
    obtain ⟨w, k, hw⟩ := up (C66_email_host o idna cs).2.1.1 (loc := loc) (v := v) (by subst ho; exact e)
    have hv : w.host = v.host := show (emailCore w).host = (emailCore v).host by rw [hw]
    rw [← hv]
    exact .email rfl k
  | @httpUrl s u b h e hu =>
    rw [(Url.C46_entry_points _ _ _).1] at e
    obtain ⟨w, k, (rfl : w = _)⟩ := up (C66_url lib contract s).1.1 e
    exact .httpUrl ((Url.C46_entry_points _ _ _).1.trans k) hu
  | @httpFtpUrl s u p h e hu =>
    rw [(Url.C46_entry_points _ _ _).2.2.1] at e
    obtain ⟨w, k, (rfl : w = _)⟩ := up (C66_url lib contract s).2.1 e
    exact .httpFtpUrl ((Url.C46_entry_points _ _ _).2.2.1.trans k) hu

theorem of_allow {U : Type} {idna : Idna} {lib : Verif.Url.Lib U} (contract : HostsPresent lib) {h : Host} (hr : Returns idna lib .allow h) :
    Returns idna lib .must h ∨ Returns idna lib .disallow h := by
  cases hr with
  | @ipv4 port cs x p e =>
    obtain ⟨w, k, (rfl : w = _)⟩ := down (C66_ip .allow port cs).1.1 e
    exact k.imp .ipv4 .ipv4
  | @ipv6 port cs x p e =>
    obtain ⟨w, k, (rfl : w = _)⟩ := down (C66_ip .allow port cs).2.2.1.1 e
    exact k.imp .ipv6 .ipv6
  | @ip4 port cs x p e =>
    obtain ⟨w, k, (rfl : w = _)⟩ := down (C66_ip .allow port cs).2.2.2.2.1.1 e
    exact k.imp .ip4 .ip4
  | @ip6 port cs x p e =>
    obtain ⟨w, k, (rfl : w = _)⟩ := down (C66_ip .allow port cs).2.2.2.2.1.1 e
    exact k.imp .ip6 .ip6
  | @domain port atl cs v e =>
    obtain ⟨w, k, hw⟩ := down ((C66_domain_partial ⟨.disallow, .allow, port, atl⟩ idna cs).2.1 (by simp)).1 e
    rw [← (Prod.mk.inj hw).1]
    exact k.imp .domain .domain
  | @domain4 port atl cs v d x e hp hq =>
    obtain ⟨w, k, hw⟩ := down ((C66_domain_partial ⟨.must, .allow, port, atl⟩ idna cs).2.1 (by simp)).1 e
    have hp := (Prod.mk.inj hw).2 ▸ hp
    exact k.imp (.domain4 · hp hq) (.domain4 · hp hq)
  | @host port atl cs v e =>
    obtain ⟨w, k, hw⟩ := down (C66_host ⟨.allow, port, atl⟩ idna cs).2.1.1 e
    rw [← (Prod.mk.inj hw).1]
    exact k.imp .host .host
  | @email o cs v ho e =>
    obtain ⟨w, k, hw⟩ := down (C66_email_host o idna cs).2.1.1 (v := v) (by rw [← ho]; exact e)
    have hv : w.host = v.host := show (emailCore w).host = (emailCore v).host by rw [hw]
    rw [← hv]
    exact k.imp (.email rfl ·) (.email rfl ·)
  | @httpUrl s u b h e hu =>
    rw [(Url.C46_entry_points _ _ _).1] at e
    obtain ⟨w, k, (rfl : w = _)⟩ := down (C66_url lib contract s).1.1 e
    exact k.imp (fun k => .httpUrl ((Url.C46_entry_points _ _ _).1.trans k) hu) (fun k => .httpUrl ((Url.C46_entry_points _ _ _).1.trans k) hu)
  | @httpFtpUrl s u p h e hu =>
    rw [(Url.C46_entry_points _ _ _).2.2.1] at e
    obtain ⟨w, k, (rfl : w = _)⟩ := down (C66_url lib contract s).2.1 e
    exact k.imp (fun k => .httpFtpUrl ((Url.C46_entry_points _ _ _).2.2.1.trans k) hu) (fun k => .httpFtpUrl ((Url.C46_entry_points _ _ _).2.2.1.trans k) hu)

/-- C97: with `local(Must)` the validators return exactly those of their hosts that are local, with `local(Disallow)` exactly the others. -/
theorem C97_hosts {U : Type} (idna : Idna) (lib : Verif.Url.Lib U) (contract : HostsPresent lib) (loc : TriAllow) (h : Host) :
    Returns idna lib loc h ↔ Returns idna lib .allow h ∧ LocalOk loc (LocalHost h) := by
  constructor
  · exact fun hr => ⟨to_allow contract hr, C97_local idna lib contract loc h hr⟩
  · rintro ⟨ha, hl⟩
    cases loc with
    | allow => exact ha
    | must => exact (of_allow contract ha).resolve_right fun hd => C97_local idna lib contract _ h hd hl
    | disallow => exact (of_allow contract ha).resolve_left fun hm => hl (C97_local idna lib contract _ h hm)

/-- C97: a host that one validator returns with `local(Must)` is not returned by any validator with `local(Disallow)`. -/
theorem C97_never_both {U V : Type} (idna idna' : Idna) (lib : Verif.Url.Lib U) (lib' : Verif.Url.Lib V) (contract : HostsPresent lib) (contract' : HostsPresent lib')
    (h : Host) (hm : Returns idna lib .must h) : ¬ Returns idna' lib' .disallow h :=
  fun hd => C97_local idna' lib' contract' _ h hd (C97_local idna lib contract _ h hm)

/-- A URL library that knows two URLs. -/
def two : Verif.Url.Lib Bool where
  parse s := if s = ascii "http://localhost/" then some true else if s = ascii "ftp://[::ffff:8.8.8.8]/" then some false else none
  host u := some (if u then .domain (ascii "localhost") else .ipv6 ⟨0, 0, 0, 0, 0, 0xffff, 0x808, 0x808⟩)

/-- `host` takes `LOCALHOST:80` for local, so no validator, such as one for URLs, returns it with `local(Disallow)`; and so does `email`, for a mapped
address that is not local. -/
example : HostsPresent two ∧ Returns ldh two .must (.domain (ascii "localhost")) ∧
    Returns ldh two .disallow (.ipv6 ⟨0, 0, 0, 0, 0, 0xffff, 0x808, 0x808⟩) ∧ ¬ Returns ldh two .must (.ipv6 ⟨0, 0, 0, 0, 0, 0xffff, 0x808, 0x808⟩) := by
  have hc : HostsPresent two := fun _ _ _ _ _ => ⟨_, rfl⟩
  refine ⟨hc, ?_, ?_, fun hm => ?_⟩
  · exact .host (port := .allow) (atl := .allow) (cs := "LOCALHOST:80".toList) (v := ⟨.domain (ascii "localhost"), none, some 80⟩) (by decide +kernel)
  · exact .httpFtpUrl (s := ascii "ftp://[::ffff:8.8.8.8]/") (u := false) (p := .ftp) (by decide +kernel) rfl
  · exact C97_never_both ldh ldh two two hc hc _ hm (.email (o := { Email.free with loc := .disallow }) (cs := "a@[IPv6:::ffff:8.8.8.8]".toList)
      (v := ⟨ascii "a", false, .ipv6 ⟨0, 0, 0, 0, 0, 0xffff, 0x808, 0x808⟩, none, none, none, none, none⟩) rfl (by decide +kernel))

end Verif.Props.Locality
