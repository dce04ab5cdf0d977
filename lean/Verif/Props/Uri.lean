import Verif.Proof.Uri
import Verif.Props.Ip
import Verif.Props.Domain
import Verif.Props.Host

/-!
# C88: an authority string stays one in a URL
-/

namespace Verif.Props.Uri

open Verif Verif.Spec Verif.Spec.Uri Verif.Spec.Ip Verif.Spec.Domain Verif.StdIp Verif.Uri
open _root_.Verif.BaseN (strBytes)
open Verif.Domain (Idna ldh ldh_laws)
open Verif.Ip (uriV4 uriV6 uriIp IpAddr)

theorem uriV4_eq (x : V4) (p : Option Nat) : uriV4 (x, p) = x.text ++ portTail p := by
  cases p <;> simp [uriV4, portTail, showV4_eq, showNat_dec]

theorem uriV6_eq (x : V6) (p : Option Nat) : uriV6 (x, p) = ascii "[" ++ showV6 x ++ ascii "]" ++ portTail p := by
  cases p <;> simp [uriV6, portTail, showNat_dec, ascii]

theorem stays_v4 (x : V4) (p : Option Nat) : Stays (x.text ++ portTail p) x.text p := by
  have key : ∀ b ∈ x.text, b ∉ ascii "/?#" ∧ b ≠ asc '@' ∧ b ≠ asc '[' := by
    intro b hb
    rcases Ip.text_bytes x b hb with h | rfl
    · exact (by decide : ∀ b ∈ IntV.decDigits, b ∉ ascii "/?#" ∧ b ≠ asc '@' ∧ b ≠ asc '[') b h
    · decide
  exact stays_name _ p (fun b hb => ⟨(key b hb).1, (key b hb).2.1⟩) (Ip.text_no_colon x)
    fun h => (key _ (List.mem_of_mem_head? h)).2.2 rfl

/-- C88 for `ipv4`, `ipv6` and `ip`: for every address and port. -/
theorem C88_ip (p : Option Nat) :
    (∀ x : V4, ∃ h, IsV4Host h x ∧ Stays (uriV4 (x, p)) h p ∧ Stays (uriIp (.v4 x, p)) h p) ∧
    (∀ x : V6, ∃ h, IsV6Host h x ∧ Stays (uriV6 (x, p)) h p ∧ Stays (uriIp (.v6 x, p)) h p) := by
  refine ⟨fun x => ⟨_, rfl, ?_, ?_⟩, fun x => ⟨_, ⟨showV6 x, rfl, showV6_text x⟩, ?_, ?_⟩⟩
  · rw [uriV4_eq]; exact stays_v4 x p
  · show Stays (uriV4 (x, p)) _ _
    rw [uriV4_eq]; exact stays_v4 x p
  · rw [uriV6_eq]; exact stays_v6 _ _ p (showV6_text x)
  · show Stays (uriV6 (x, p)) _ _
    rw [uriV6_eq]; exact stays_v6 _ _ p (showV6_text x)

/-- `http://[::1]:80/` is read as it is meant. -/
example : read (ascii "http" ++ ascii "://" ++ uriV6 (⟨0, 0, 0, 0, 0, 0, 0, 1⟩, some 80) ++ ascii "/") =
    some ⟨ascii "http", none, ascii "[::1]", some (ascii "80"), ascii "/"⟩ := by
  decide +kernel

/-- Names that IDNA writes. -/
theorem idna_name (idna : Idna) (laws : IdnaLaws idna) (s a : List UInt8) (h : idna s = some a) (p : Option Nat) :
    RegName a ∧ Stays (a ++ portTail p) a p := by
  have key := laws.symbols s a h
  refine ⟨⟨laws.nonempty s a h, fun b hb => ?_⟩, stays_name a p (fun b hb => ?_) (fun hm => ?_) (fun hm => ?_)⟩
  · exact (by decide : ∀ b ∈ ascii "abcdefghijklmnopqrstuvwxyz0123456789-.",
      b ∈ ascii "abcdefghijklmnopqrstuvwxyzABCDEFGHIJKLMNOPQRSTUVWXYZ0123456789-._~") b (key b hb)
  · exact (by decide : ∀ b ∈ ascii "abcdefghijklmnopqrstuvwxyz0123456789-.", b ∉ ascii "/?#" ∧ b ≠ asc '@') b (key b hb)
  · exact absurd (key _ hm) (by decide)
  · exact absurd (key _ (List.mem_of_mem_head? hm)) (by decide)

/-- C88 for `host`: the authority string of an accepted host is read as this host and this port. -/
theorem C88_host (o : Host.Opts) (idna : Idna) (laws : IdnaLaws idna) (cs : List Char) (v : Host.Value)
    (h : Host.parseStr o idna (strBytes cs) = .ok v) : ∃ t, HostText v.host t ∧ Stays (Host.toUri v) t v.port := by
  obtain ⟨hh, l, p⟩ := v
  cases hh with
  | ipv4 x => exact ⟨_, rfl, by rw [show Host.toUri ⟨.ipv4 x, l, p⟩ = uriV4 (x, p) by cases p <;> rfl, uriV4_eq]; exact stays_v4 x p⟩
  | ipv6 x =>
    refine ⟨_, ⟨showV6 x, rfl, showV6_text x⟩, ?_⟩
    rw [show Host.toUri ⟨.ipv6 x, l, p⟩ = uriV6 (x, p) by cases p <;> rfl, uriV6_eq]
    exact stays_v6 _ _ p (showV6_text x)
  | domain a =>
    obtain ⟨_, ⟨x, hx, _⟩ | ⟨x, hx, _⟩ | ⟨d, b, hx, _, _, hi, _⟩⟩ := (Host.C37_host o idna cs _).1 h
    · cases hx
    · cases hx
    · cases hx
      have := idna_name idna laws d a hi p
      refine ⟨a, ⟨rfl, this.1⟩, ?_⟩
      rw [show Host.toUri ⟨.domain a, l, p⟩ = a ++ portTail p by cases p <;> simp [Host.toUri, portTail, showNat_dec]]
      exact this.2

/-- `http://example.com:8080?q=1` is read as it is meant. -/
example : Host.parseStr ⟨.allow, .allow, .allow⟩ ldh (ascii "Example.com:8080") = .ok ⟨.domain (ascii "example.com"), none, some 8080⟩ ∧
    read (ascii "http" ++ ascii "://" ++ Host.toUri ⟨.domain (ascii "example.com"), none, some 8080⟩ ++ ascii "?q=1") =
      some ⟨ascii "http", none, ascii "example.com", some (ascii "8080"), ascii "?q=1"⟩ := by
  decide +kernel

/-- C88 for `domain`, exactly: the authority string of an accepted domain is read as this domain, without a final dot, and this port, unless an
IPv4 address with a port has been accepted. -/
theorem C88_domain_exact_partial (o : Domain.Opts) (idna : Idna) (laws : IdnaLaws idna) (cs : List Char) (v : Domain.Value)
    (h : Domain.parseStr o idna (strBytes cs) = .ok v) :
    (∃ a t, Domain.toUri v = .ok a ∧ Stem v.domain t ∧ RegName t ∧ Stays a t v.port) ↔
      v.port = none ∨ Plain o ∨ ∀ d x, HostPort (strBytes cs) d v.port → ¬ QuadDot d x := by
  obtain ⟨_, d, hd, _, hk⟩ := (Domain.C58_domain o idna cs v).1 h
  have huri : ∀ t, Stem v.domain t → Domain.toUri v = .ok (t ++ portTail v.port) := by
    intro t ht
    rw [Domain.toUri_eq, Domain.stem_unique _ _ _ (Domain.stripDot_stem v.domain) ht]
    cases v.port <;> simp [Domain.join, portTail, showNat_dec]
  constructor
  · rintro ⟨a, t, -, hs, hr, -⟩
    by_cases hn : v.port = none
    · exact .inl hn
    by_cases hp : Plain o
    · exact .inr (.inl hp)
    refine .inr (.inr fun d' x hd' hq => ?_)
    obtain ⟨rfl, -⟩ := Domain.hostPort_unique _ _ _ _ _ hd hd'
    rcases hk with ⟨hv, -⟩ | ⟨hnot, -⟩
    · cases hp' : v.port with
      | none => exact hn hp'
      | some n =>
        rw [hp'] at hd
        obtain ⟨u, hu, -⟩ := hd
        have hm : asc ':' ∈ v.domain := by rw [hv, hu]; simp [ascii]
        have hmt : asc ':' ∈ t := by
          rcases hs with hs | ⟨hs, -⟩
          · rw [hs] at hm
            rcases List.mem_append.1 hm with hm | hm
            · exact hm
            · exact absurd hm (by decide)
          · exact hs ▸ hm
        exact absurd (hr.2 _ hmt) (by decide)
    · rcases hnot with hnot | hnot
      · exact hp hnot
      · exact hnot x hq
  · intro hc
    rcases hk with ⟨hv, x, hp, hq, -⟩ | ⟨-, -, hi, -⟩
    · have hn : v.port = none := by
        rcases hc with hc | hc | hc
        · exact hc
        · exact absurd hc hp
        · exact absurd hq (hc d x hd)
      rw [hn] at hd
      have hs : Stem v.domain x.text := by
        rw [hv, hd.1]
        rcases hq with hq | hq
        · refine .inr ⟨hq, ?_⟩
          rw [hq]
          rintro ⟨c, hc⟩
          exact Domain.text_no_final_dot x ((Domain.getLast_dot _).2 ⟨c, hc⟩)
        · exact .inl hq
      refine ⟨_, x.text, huri _ hs, hs, ⟨?_, ?_⟩, stays_v4 x _⟩
      · intro e
        exact Ip.text_ne_nil x e
      · intro b hb
        rcases Ip.text_bytes x b hb with h | rfl
        · exact (by decide : ∀ b ∈ IntV.decDigits, b ∈ ascii "abcdefghijklmnopqrstuvwxyzABCDEFGHIJKLMNOPQRSTUVWXYZ0123456789-._~") b h
        · decide
    · have hs := Domain.stripDot_stem v.domain
      have hi' : ∃ s, idna s = some (Domain.stripDot v.domain) := by
        rcases hs with hs | ⟨hs, -⟩
        · rw [hs] at hi
          exact ⟨_, (laws.root _ _ hi).1⟩
        · exact ⟨d, by rw [← hs]; exact hi⟩
      obtain ⟨s, hi'⟩ := hi'
      obtain ⟨h1, h2⟩ := idna_name idna laws s _ hi' v.port
      exact ⟨_, _, huri _ hs, hs, h1, h2⟩

/-- Both sides occur: a name with a port, and the witness below. -/
example : ∃ o cs v, Domain.parseStr o ldh (strBytes cs) = .ok v ∧ v.port ≠ none ∧ ∀ d x, HostPort (strBytes cs) d v.port → ¬ QuadDot d x := by
  refine ⟨⟨.disallow, .allow, .allow, .allow⟩, "Example.com.:443".toList, ⟨ascii "example.com.", none, none, some 443⟩, by decide +kernel, by decide, ?_⟩
  intro d x hd hq
  have hk := (Domain.C58_domain ⟨.disallow, .allow, .allow, .allow⟩ ldh "Example.com.:443".toList ⟨ascii "example.com.", none, none, some 443⟩).1
    (by decide +kernel)
  obtain ⟨-, d', hd', -, ⟨-, y, -, -, h4, -⟩ | ⟨h1, -⟩⟩ := hk
  · exact h4 rfl
  · obtain ⟨rfl, -⟩ := Domain.hostPort_unique _ _ _ _ _ hd hd'
    rcases h1 with h1 | h1
    · exact absurd h1.1 (by decide)
    · exact h1 x hq

/-- C88 is false of `domain`: the authority string of `127.0.0.1:80` has the port twice, and what a URL with it says of the port is no number. -/
theorem C88_violated_domain : ∃ (o : Domain.Opts) (cs : List Char) (v : Domain.Value) (a : List UInt8),
    Domain.parseStr o ldh (strBytes cs) = .ok v ∧ v.port = some 80 ∧ Domain.toUri v = .ok a ∧
    read (ascii "http" ++ ascii "://" ++ a ++ ascii "/") = some ⟨ascii "http", none, ascii "127.0.0.1", some (ascii "80:80"), ascii "/"⟩ ∧
    ∀ t, Stem v.domain t → ¬ Stays a t v.port := by
  refine ⟨⟨.must, .allow, .allow, .allow⟩, "127.0.0.1:80".toList, ⟨ascii "127.0.0.1:80", none, none, some 80⟩, ascii "127.0.0.1:80:80",
    by decide +kernel, rfl, by decide +kernel, by decide +kernel, fun t _ hs => ?_⟩
  have h1 := hs (ascii "http") (ascii "/") (by decide) (by decide) (.inr ⟨_, _, rfl, by decide⟩)
  have h2 : (read (ascii "http" ++ ascii "://" ++ ascii "127.0.0.1:80:80" ++ ascii "/")).map (·.port) = some (some (ascii "80:80")) := by
    decide +kernel
  rw [h1] at h2
  simp only [Option.map_some] at h2
  exact absurd h2 (by decide +kernel)

end Verif.Props.Uri
