import Verif.Proof.Written
import Verif.Props.Hex
import Verif.Props.Domain
import Verif.Props.Host
import Verif.Props.Email

/-!
# C90: the text that a value is written as identifies the value
-/

namespace Verif.Props.Written

open Verif.Spec Verif.Spec.Ip Verif.Spec.Domain Verif.StdIp Verif.Hex Verif.Written
open _root_.Verif.BaseN (strBytes)
open Verif.Domain (Idna ldh ldh_laws wide wide_laws)

/-! ## uuid and mac_address -/

/-- C90 for `to_uuid_string`, under all options. -/
theorem C90_uuid (sep : SeparatorOption) (case : CaseOption) (v w : List UInt8) (m n : Nat) (hm : Uuid.parseStr sep case v = .ok m)
    (hn : Uuid.parseStr sep case w = .ok n) (h : Uuid.toUuidString sep case m = Uuid.toUuidString sep case n) : m = n := by
  have hm := Hex.C08_uuid_value_bound sep case v m hm
  have hn := Hex.C08_uuid_value_bound sep case w n hn
  unfold Uuid.toUuidString at h
  simp only at h
  cases hs : sepAllow sep with
  | none =>
    rw [hs] at h
    exact fmtHex_inj case (by decide) (by decide) (by simpa using hm) (by simpa using hn) h
  | some s =>
    simp only [hs, List.append_assoc] at h
    obtain ⟨b15, h⟩ := byte_inj case h
    obtain ⟨b14, h⟩ := byte_inj case h
    obtain ⟨b13, h⟩ := byte_inj case h
    obtain ⟨b12, h⟩ := byte_inj case h
    obtain ⟨b11, h⟩ := byte_inj case (List.append_cancel_left h)
    obtain ⟨b10, h⟩ := byte_inj case h
    obtain ⟨b9, h⟩ := byte_inj case (List.append_cancel_left h)
    obtain ⟨b8, h⟩ := byte_inj case h
    obtain ⟨b7, h⟩ := byte_inj case (List.append_cancel_left h)
    obtain ⟨b6, h⟩ := byte_inj case h
    obtain ⟨b5, h⟩ := byte_inj case (List.append_cancel_left h)
    obtain ⟨b4, h⟩ := byte_inj case h
    obtain ⟨b3, h⟩ := byte_inj case h
    obtain ⟨b2, h⟩ := byte_inj case h
    obtain ⟨b1, h⟩ := byte_inj case h
    obtain ⟨b0, -⟩ := byte_inj case (x := []) (y := []) (by simpa using h)
    refine leBytes_inj 16 (by simpa using hm) (by simpa using hn) fun i hi => ?_
    match i, hi with
    | 0, _ => exact b0
    | 1, _ => exact b1
    | 2, _ => exact b2
    | 3, _ => exact b3
    | 4, _ => exact b4
    | 5, _ => exact b5
    | 6, _ => exact b6
    | 7, _ => exact b7
    | 8, _ => exact b8
    | 9, _ => exact b9
    | 10, _ => exact b10
    | 11, _ => exact b11
    | 12, _ => exact b12
    | 13, _ => exact b13
    | 14, _ => exact b14
    | 15, _ => exact b15
    | k + 16, hi => exact absurd hi (by omega)

/-- C90 for `to_mac_address_string`, under all options. -/
theorem C90_mac (sep : SeparatorOption) (case : CaseOption) (v w : List UInt8) (m n : Nat) (hm : Mac.parseStr sep case v = .ok m)
    (hn : Mac.parseStr sep case w = .ok n) (h : Mac.toMacAddressString sep case m = Mac.toMacAddressString sep case n) : m = n := by
  have hm := Hex.C11_mac_value_bound sep case v m hm
  have hn := Hex.C11_mac_value_bound sep case w n hn
  unfold Mac.toMacAddressString at h
  simp only at h
  cases hs : sepAllow sep with
  | none =>
    rw [hs] at h
    exact fmtHex_inj case (by decide) (by decide) (by simpa using hm) (by simpa using hn) h
  | some s =>
    simp only [hs, List.append_assoc] at h
    obtain ⟨b5, h⟩ := byte_inj case h
    obtain ⟨b4, h⟩ := byte_inj case (List.append_cancel_left h)
    obtain ⟨b3, h⟩ := byte_inj case (List.append_cancel_left h)
    obtain ⟨b2, h⟩ := byte_inj case (List.append_cancel_left h)
    obtain ⟨b1, h⟩ := byte_inj case (List.append_cancel_left h)
    obtain ⟨b0, -⟩ := byte_inj case (x := []) (y := []) (by simpa using List.append_cancel_left h)
    refine leBytes_inj 6 (by simpa using hm) (by simpa using hn) fun i hi => ?_
    match i, hi with
    | 0, _ => exact b0
    | 1, _ => exact b1
    | 2, _ => exact b2
    | 3, _ => exact b3
    | 4, _ => exact b4
    | 5, _ => exact b5

/-- Two inputs, one value, one text; the text is not read back (C10, C13). -/
example : Uuid.parseStr (.allow (asc '-')) .any (ascii "936da01f-9abd-4d9d-80c7-02af85c822a8") = .ok 0x936DA01F9ABD4D9D80C702AF85C822A8 ∧
    Uuid.parseStr (.allow (asc '-')) .any (ascii "936DA01F9ABD4D9D80C702AF85C822A8") = .ok 0x936DA01F9ABD4D9D80C702AF85C822A8 ∧
    Uuid.toUuidString (.allow (asc '-')) .any 0x936DA01F9ABD4D9D80C702AF85C822A8 ≠ Uuid.toUuidString (.allow (asc '-')) .any 0x936DA01F9ABD4D9D80C702AF85C822A9 ∧
    Mac.parseStr (.must (asc ':')) .any (ascii "08:00:27:b2:46:c3") = .ok 0x080027B246C3 ∧
    Mac.parseStr (.must (asc ':')) .any (ascii "08:00:27:B2:46:C3") = .ok 0x080027B246C3 := by decide +kernel

/-! ## ip, ipv4 and ipv6 -/

/-- C90 for addresses and ports. -/
theorem C90_ip :
    (∀ p q : V4 × Option Nat, Verif.Ip.uriV4 p = Verif.Ip.uriV4 q → p = q) ∧
    (∀ p q : V6 × Option Nat, Verif.Ip.uriV6 p = Verif.Ip.uriV6 q → p = q) ∧
    ∀ p q : Verif.Ip.IpAddr × Option Nat, Verif.Ip.uriIp p = Verif.Ip.uriIp q → p = q := by
  have h4 : ∀ p q : V4 × Option Nat, Verif.Ip.uriV4 p = Verif.Ip.uriV4 q → p = q := by
    intro p q h
    rw [uriV4_eq, uriV4_eq] at h
    obtain ⟨h1, h2⟩ := withPort_inj (fun _ => showV4_no_colon _) (fun _ => showV4_no_colon _) h
    exact Prod.ext (showV4_inj h1) h2
  have h6 : ∀ p q : V6 × Option Nat, Verif.Ip.uriV6 p = Verif.Ip.uriV6 q → p = q := by
    intro p q h
    rw [uriV6_eq, uriV6_eq] at h
    obtain ⟨h1, h2⟩ := bracket_inj (showV6_no_bracket _) (showV6_no_bracket _) h
    exact Prod.ext (showV6_inj h1) h2
  refine ⟨h4, h6, ?_⟩
  rintro ⟨a, p⟩ ⟨b, q⟩ h
  cases a with
  | v4 a =>
    cases b with
    | v4 b => have := h4 (a, p) (b, q) h; simp_all
    | v6 b => exact absurd ((congrArg List.head? (show Verif.Ip.uriV4 (a, p) = Verif.Ip.uriV6 (b, q) from h)).trans (uriV6_head _)) (uriV4_head _)
  | v6 a =>
    cases b with
    | v4 b => exact absurd ((congrArg List.head? (show Verif.Ip.uriV6 (a, p) = Verif.Ip.uriV4 (b, q) from h)).symm.trans (uriV6_head _)) (uriV4_head _)
    | v6 b => have := h6 (a, p) (b, q) h; simp_all

example : Verif.Ip.uriIp (.v6 ⟨0, 0, 0, 0, 0, 0, 0, 1⟩, some 80) = ascii "[::1]:80" ∧ Verif.Ip.uriIp (.v4 ⟨1, 2, 3, 4⟩, none) = ascii "1.2.3.4" := by decide +kernel

/-! ## host -/

theorem tells_unique {shown P : Prop} {f g : Option Bool} (hf : Tells shown f P) (hg : Tells shown g P) : f = g := by
  by_cases h : shown
  · obtain ⟨b, rfl, hb⟩ := hf.1 h
    obtain ⟨c, rfl, hc⟩ := hg.1 h
    rw [Bool.eq_iff_iff.2 (hb.trans hc.symm)]
  · rw [hf.2 h, hg.2 h]

theorem name_chars (idna : Idna) (laws : IdnaLaws idna) (d a : List UInt8) (h : idna d = some a) :
    asc ':' ∉ a ∧ a.head? ≠ some (asc '[') ∧ a ≠ [] := by
  refine ⟨fun k => ?_, fun k => ?_, laws.nonempty _ _ h⟩
  · exact absurd (laws.symbols _ _ h _ k) (by decide)
  · exact absurd (laws.symbols _ _ h _ (List.mem_of_mem_head? k)) (by decide)

theorem host_tells (o : Verif.Host.Opts) (idna : Idna) (cs : List Char) (v : Verif.Host.Value) (hv : Verif.Host.parseStr o idna (strBytes cs) = .ok v) :
    Tells (Verif.Spec.Host.ShowsLocal o) v.isLocal (Verif.Spec.Host.LocalHost v.host) := by
  obtain ⟨-, ⟨x, e, -, -, -, h⟩ | ⟨x, e, -, -, -, h⟩ | ⟨d, a, e, -, -, -, -, -, h⟩⟩ := (Host.C37_host o idna cs v).1 hv <;> rw [e] <;> exact h

theorem host_domain (o : Verif.Host.Opts) (idna : Idna) (laws : IdnaLaws idna) (cs : List Char) (v : Verif.Host.Value)
    (hv : Verif.Host.parseStr o idna (strBytes cs) = .ok v) (a : List UInt8) (ha : v.host = .domain a) :
    asc ':' ∉ a ∧ a.head? ≠ some (asc '[') ∧ a ≠ [] := by
  obtain ⟨-, ⟨x, e, -⟩ | ⟨x, e, -⟩ | ⟨d, b, e, -, -, hi, -⟩⟩ := (Host.C37_host o idna cs v).1 hv
  · rw [e] at ha; cases ha
  · rw [e] at ha; cases ha
  · rw [e] at ha; cases ha
    exact name_chars idna laws d _ hi

theorem toUri_eq (v : Verif.Host.Value) : Verif.Host.toUri v = match v.host with
    | .ipv4 x => withPort (showV4 x) v.port
    | .ipv6 x => withPort (asc '[' :: showV6 x ++ [asc ']']) v.port
    | .domain a => withPort a v.port := by
  obtain ⟨x, l, p⟩ := v
  cases x <;> cases p <;> simp [Verif.Host.toUri, withPort]

/-- C90 for `host`: equal texts come from equal values, except that a name converted to a dotted quad is written as the address is. -/
theorem C90_host_partial (o : Verif.Host.Opts) (idna : Idna) (laws : IdnaLaws idna) (cs ds : List Char) (v w : Verif.Host.Value)
    (hv : Verif.Host.parseStr o idna (strBytes cs) = .ok v) (hw : Verif.Host.parseStr o idna (strBytes ds) = .ok w) (h : Verif.Host.toUri v = Verif.Host.toUri w) :
    v = w ∨ v.port = w.port ∧ ∃ x : V4, v.host = .ipv4 x ∧ w.host = .domain x.text ∨ v.host = .domain x.text ∧ w.host = .ipv4 x := by
  have hlocal : v.host = w.host → v.port = w.port → v = w := by
    intro h1 h2
    have t1 := host_tells o idna cs v hv
    have t2 := host_tells o idna ds w hw
    rw [h1] at t1
    have h3 := tells_unique t1 t2
    obtain ⟨a, b, c⟩ := v
    obtain ⟨a', b', c'⟩ := w
    cases h1; cases h2; cases h3; rfl
  have dv := host_domain o idna laws cs v hv
  have dw := host_domain o idna laws ds w hw
  rw [toUri_eq, toUri_eq] at h
  obtain ⟨x, l, p⟩ := v
  obtain ⟨y, k, q⟩ := w
  simp only at h dv dw hlocal
  have hd : ∀ a, (asc ':' ∉ a ∧ a.head? ≠ some (asc '[') ∧ a ≠ []) → (withPort a p).head? ≠ some (asc '[') ∧ (withPort a q).head? ≠ some (asc '[') := by
    rintro a ⟨-, h1, h2⟩
    cases a with
    | nil => exact absurd rfl h2
    | cons b t => cases p <;> cases q <;> simpa [withPort] using h1
  have h4 : ∀ x : V4, asc ':' ∉ showV4 x ∧ (showV4 x).head? ≠ some (asc '[') ∧ showV4 x ≠ [] := fun x =>
    ⟨showV4_no_colon x, uriV4_head (x, none), fun h => by
      have : asc '.' ∈ x.text := by simp [V4.text, dotted, ascii]
      rw [← showV4_eq, h] at this; cases this⟩
  have h6 : ∀ (x : V6) r, (withPort (asc '[' :: showV6 x ++ [asc ']']) r).head? = some (asc '[') := by
    intro x r; cases r <;> simp [withPort]
  cases x with
  | ipv4 x =>
    cases y with
    | ipv4 y =>
      obtain ⟨h1, h2⟩ := withPort_inj (fun _ => (h4 x).1) (fun _ => (h4 y).1) h
      exact .inl (hlocal (by rw [showV4_inj h1]) h2)
    | ipv6 y => exact absurd ((congrArg List.head? h).trans (h6 y q)) (hd _ (h4 x)).1
    | domain b =>
      obtain ⟨h1, h2⟩ := withPort_inj (fun _ => (h4 x).1) (fun _ => (dw b rfl).1) h
      exact .inr ⟨h2, x, .inl ⟨rfl, by rw [← h1, showV4_eq]⟩⟩
  | ipv6 x =>
    cases y with
    | ipv4 y => exact absurd ((congrArg List.head? h).symm.trans (h6 x p)) (hd _ (h4 y)).2
    | ipv6 y =>
      obtain ⟨h1, h2⟩ := bracket_inj (showV6_no_bracket x) (showV6_no_bracket y) h
      exact .inl (hlocal (by rw [showV6_inj h1]) h2)
    | domain b => exact absurd ((congrArg List.head? h).symm.trans (h6 x p)) (hd _ (dw b rfl)).2
  | domain a =>
    cases y with
    | ipv4 y =>
      obtain ⟨h1, h2⟩ := withPort_inj (fun _ => (dv a rfl).1) (fun _ => (h4 y).1) h
      exact .inr ⟨h2, y, .inr ⟨by rw [h1, showV4_eq], rfl⟩⟩
    | ipv6 y => exact absurd ((congrArg List.head? h).trans (h6 y q)) (hd _ (dv a rfl)).1
    | domain b =>
      obtain ⟨h1, h2⟩ := withPort_inj (fun _ => (dv a rfl).1) (fun _ => (dw b rfl).1) h
      exact .inl (hlocal (by rw [h1]) h2)

/-! ## domain -/

theorem domain_toUri (v : Verif.Domain.Value) : Verif.Domain.toUri v = .ok (withPort (Verif.Domain.stripDot v.domain) v.port) := by
  unfold Verif.Domain.toUri
  rw [Verif.Domain.nonFullyQualified_eq]
  cases v.port <;> rfl

theorem stripDot_mem (c : UInt8) (hc : c ≠ asc '.') (a : List UInt8) : c ∈ Verif.Domain.stripDot a ↔ c ∈ a := by
  generalize hb : Verif.Domain.stripDot a = b
  rcases (Verif.Domain.stem_iff a b).2 hb with h | h
  · rw [h, List.mem_append]
    have : c ∉ ascii "." := by
      rw [show ascii "." = [asc '.'] from rfl, List.mem_singleton]
      exact hc
    simp [this]
  · rw [h.1]

theorem quadDot_strip (a : List UInt8) (x : V4) : QuadDot a x ↔ Verif.Domain.stripDot a = x.text := by
  rw [← Verif.Domain.quadDot_iff]
  exact parseV4_iff _ _

/-- C90 for `domain`: equal texts come from the same port and the same domain up to a final dot, which is not written. The flags are the
same too, unless the domain is a dotted quad (a name may have been converted to it). -/
theorem C90_domain_partial (o : Verif.Domain.Opts) (idna : Idna) (laws : IdnaLaws idna) (cs ds : List Char) (v w : Verif.Domain.Value)
    (hv : Verif.Domain.parseStr o idna (strBytes cs) = .ok v) (hw : Verif.Domain.parseStr o idna (strBytes ds) = .ok w)
    (h : Verif.Domain.toUri v = Verif.Domain.toUri w) :
    v.port = w.port ∧ (∃ d, Stem v.domain d ∧ Stem w.domain d) ∧ ((∀ x, ¬ QuadDot v.domain x) → v.isIpv4 = w.isIpv4 ∧ v.isLocal = w.isLocal) := by
  have none_of : ∀ (cs : List Char) (v : Verif.Domain.Value), Verif.Domain.parseStr o idna (strBytes cs) = .ok v → v.port = none →
      asc ':' ∉ Verif.Domain.stripDot v.domain := by
    intro cs v hv hp
    rw [stripDot_mem _ (by decide)]
    obtain ⟨-, d, h1, -, ⟨e, -⟩ | hn⟩ := (Domain.C58_domain o idna cs v).1 hv
    · rw [hp] at h1; rw [e]; exact h1.2
    · exact (name_chars idna laws d _ hn.2.2.1).1
  rw [domain_toUri, domain_toUri] at h
  obtain ⟨h1, h2⟩ := withPort_inj (none_of cs v hv) (none_of ds w hw) (Out.ok.inj h)
  refine ⟨h2, ⟨_, (Verif.Domain.stem_iff _ _).2 h1, (Verif.Domain.stem_iff _ _).2 rfl⟩, fun hq => ?_⟩
  have hcolon : asc ':' ∈ v.domain ↔ asc ':' ∈ w.domain := by
    rw [← stripDot_mem _ (by decide) v.domain, h1, stripDot_mem _ (by decide)]
  have hquad : ∀ x, QuadDot w.domain x → False := fun x hx => hq x ((quadDot_strip _ _).2 (h1.trans ((quadDot_strip _ _).1 hx)))
  have hlocal : LocalName v.domain ↔ LocalName w.domain := by
    simp only [LocalName, Verif.Domain.stem_iff, h1]
  have port_end : ∀ (s d : List UInt8) (n : Nat), HostPort s d (some n) → Verif.Domain.stripDot s = s ∧ asc ':' ∈ s := by
    rintro s d n ⟨u, rfl, hu⟩
    refine ⟨(Verif.Domain.stem_iff _ _).1 (.inr ⟨rfl, ?_⟩), by simp [ascii]⟩
    rw [← Verif.Domain.getLast_dot]
    intro k
    obtain ⟨hne, hb⟩ := Verif.Ip.portText_bytes u n hu
    have : u.getLast? = some (asc '.') := by
      rw [List.getLast?_append] at k
      cases hu' : u.getLast? with
      | none => exact absurd (List.getLast?_eq_none_iff.1 hu') hne
      | some b => rw [hu'] at k; exact k
    rcases hb _ (List.mem_of_getLast? this) with k | k <;> revert k <;> decide
  obtain ⟨-, d, p1, -, hv'⟩ := (Domain.C58_domain o idna cs v).1 hv
  obtain ⟨-, e, q1, -, hw'⟩ := (Domain.C58_domain o idna ds w).1 hw
  rcases hv' with ⟨e1, x, -, hx, -⟩ | hn
  · cases hp : v.port with
    | none =>
      rw [hp] at p1
      exact absurd (show QuadDot v.domain x by rw [e1, p1.1]; exact hx) (hq x)
    | some n =>
      rw [hp] at p1
      rw [← h2, hp] at q1
      rcases hw' with ⟨e2, -⟩ | hn'
      · have : strBytes cs = strBytes ds := by
          rw [← (port_end _ _ _ p1).1, ← (port_end _ _ _ q1).1, ← e1, ← e2, h1]
        rw [this, hw] at hv
        cases hv
        exact ⟨rfl, rfl⟩
      · exact absurd (hcolon.1 (e1 ▸ (port_end _ _ _ p1).2)) (name_chars idna laws e _ hn'.2.2.1).1
  · rcases hw' with ⟨e2, y, -, hy, -⟩ | hn'
    · cases hp : w.port with
      | none =>
        rw [hp] at q1
        exact absurd (show QuadDot w.domain y by rw [e2, q1.1]; exact hy) (fun k => hquad y k)
      | some n =>
        rw [hp] at q1
        exact absurd (hcolon.2 (e2 ▸ (port_end _ _ _ q1).2)) (name_chars idna laws d _ hn.2.2.1).1
    · obtain ⟨-, -, -, -, -, f1, f2⟩ := hn
      obtain ⟨-, -, -, -, -, g1, g2⟩ := hn'
      rw [hlocal] at f2
      exact ⟨tells_unique f1 g1, tells_unique f2 g2⟩

/-- The exception is met: `８.8.8.8` and `8.8.8.8` are different values with the same text. -/
theorem C90_violated_host : IdnaLaws wide ∧ ∃ (cs ds : List Char) (v w : Verif.Host.Value),
    Verif.Host.parseStr ⟨.allow, .allow, .allow⟩ wide (strBytes cs) = .ok v ∧ Verif.Host.parseStr ⟨.allow, .allow, .allow⟩ wide (strBytes ds) = .ok w ∧
    Verif.Host.toUri v = Verif.Host.toUri w ∧ v ≠ w :=
  ⟨wide_laws, "８.8.8.8".toList, "8.8.8.8".toList, ⟨.domain (ascii "8.8.8.8"), none, none⟩, ⟨.ipv4 ⟨8, 8, 8, 8⟩, none, none⟩, by decide +kernel⟩

/-- The final dot of a domain is not written. -/
theorem C90_violated_domain : ∃ (cs ds : List Char) (v w : Verif.Domain.Value),
    Verif.Domain.parseStr ⟨.allow, .allow, .allow, .allow⟩ ldh (strBytes cs) = .ok v ∧ Verif.Domain.parseStr ⟨.allow, .allow, .allow, .allow⟩ ldh (strBytes ds) = .ok w ∧
    Verif.Domain.toUri v = Verif.Domain.toUri w ∧ v.domain = ascii "x.yy" ∧ w.domain = ascii "x.yy." :=
  ⟨"x.yy".toList, "x.yy.".toList, ⟨ascii "x.yy", none, none, none⟩, ⟨ascii "x.yy.", none, none, none⟩, by decide +kernel⟩

example : Verif.Host.toUri ⟨.domain (ascii "x.yy"), none, some 80⟩ = ascii "x.yy:80" ∧
    Verif.Host.parseStr ⟨.allow, .allow, .allow⟩ ldh (ascii "X.yy:+080") = .ok ⟨.domain (ascii "x.yy"), none, some 80⟩ ∧
    Verif.Host.parseStr ⟨.allow, .allow, .allow⟩ ldh (ascii "x.yy:80") = .ok ⟨.domain (ascii "x.yy"), none, some 80⟩ ∧
    Verif.Domain.parseStr ⟨.allow, .allow, .allow, .must⟩ ldh (ascii "1.2.3.4:80") = .ok ⟨ascii "1.2.3.4:80", some true, some false, some 80⟩ := by
  decide +kernel

/-! ## email -/

section email
open Verif.Email Verif.Spec.Email

theorem showHost_chars (idna : Idna) (laws : IdnaLaws idna) (h : List UInt8) (x : Verif.Host.Host) (hx : HostText idna h x) :
    showHost x ≠ [] ∧ asc '(' ∉ showHost x ∧ asc '@' ∉ showHost x := by
  cases hx with
  | ipv4 =>
    rename_i x
    have key : ∀ b ∈ showV4 x, b ≠ asc '(' ∧ b ≠ asc '@' := by
      intro b hb
      rw [showV4_eq] at hb
      rcases Verif.Ip.text_bytes x b hb with k | k
      · exact (by decide : ∀ b ∈ Verif.Spec.IntV.decDigits, b ≠ asc '(' ∧ b ≠ asc '@') b k
      · subst k; decide
    refine ⟨by simp [showHost], fun k => ?_, fun k => ?_⟩ <;>
      simp only [showHost, List.cons_append, List.mem_cons, List.mem_append, List.not_mem_nil, or_false] at k <;>
      rcases k with k | k | k
    · exact absurd k (by decide)
    · exact (key _ k).1 rfl
    · exact absurd k (by decide)
    · exact absurd k (by decide)
    · exact (key _ k).2 rfl
    · exact absurd k (by decide)
  | ipv6 hv =>
    rename_i t x
    have key : ∀ b ∈ showV6 x, b ≠ asc '(' ∧ b ≠ asc '@' := by
      intro b hb
      rcases Verif.Ip.v6Text_bytes _ _ (showV6_text x) b hb with k | k | k
      · exact (by decide : ∀ b ∈ Verif.Spec.Hex.symbols .any, b ≠ asc '(' ∧ b ≠ asc '@') b k
      · subst k; decide
      · subst k; decide
    refine ⟨by simp [showHost, ascii], fun k => ?_, fun k => ?_⟩ <;>
      simp only [showHost, List.mem_append, List.mem_cons, List.not_mem_nil, or_false] at k <;>
      rcases k with (k | k) | k
    · exact absurd k (by decide)
    · exact (key _ k).1 rfl
    · exact absurd k (by decide)
    · exact absurd k (by decide)
    · exact (key _ k).2 rfl
    · exact absurd k (by decide)
  | domain h1 h2 h3 h4 h5 =>
    exact ⟨laws.nonempty _ _ h5, fun k => absurd (laws.symbols _ _ h5 _ k) (by decide), fun k => absurd (laws.symbols _ _ h5 _ k) (by decide)⟩

theorem showHost_inj (idna : Idna) (laws : IdnaLaws idna) (g h : List UInt8) (x y : Verif.Host.Host) (hx : HostText idna g x) (hy : HostText idna h y)
    (e : showHost x = showHost y) : x = y := by
  have dom : ∀ (h a : List UInt8), idna h = some a → ∀ t, a ≠ asc '[' :: t := by
    intro h a e t k
    exact absurd (laws.symbols _ _ e (asc '[') (by rw [k]; simp)) (by decide)
  cases hx with
  | ipv4 =>
    rename_i x
    cases hy with
    | ipv4 =>
      rename_i y
      exact congrArg Verif.Host.Host.ipv4 (showV4_inj (List.append_cancel_right (List.cons.inj e).2))
    | ipv6 hv =>
      rename_i t y
      exact absurd (congrArg List.head? (List.cons.inj (show asc '[' :: (showV4 x ++ [asc ']']) = asc '[' :: (ascii "IPv6:" ++ showV6 y ++ [asc ']']) from e)).2) (by
        intro k
        have : (showV4 x).head? = some (asc 'I') := by
          cases hs : showV4 x with
          | nil => rw [hs] at k; revert k; simp [ascii]; decide
          | cons b u => rw [hs] at k; simpa [ascii] using k
        rw [showV4_eq] at this
        rcases Verif.Ip.text_bytes x _ (List.mem_of_mem_head? this) with k | k <;> revert k <;> decide)
    | domain h1 h2 h3 h4 h5 => exact absurd e.symm (dom _ _ h5 _)
  | ipv6 hv =>
    rename_i t x
    cases hy with
    | ipv4 =>
      rename_i y
      exact absurd (congrArg List.head? (List.cons.inj (show asc '[' :: (showV4 y ++ [asc ']']) = asc '[' :: (ascii "IPv6:" ++ showV6 x ++ [asc ']']) from e.symm)).2) (by
        intro k
        have : (showV4 y).head? = some (asc 'I') := by
          cases hs : showV4 y with
          | nil => rw [hs] at k; revert k; simp [ascii]; decide
          | cons b u => rw [hs] at k; simpa [ascii] using k
        rw [showV4_eq] at this
        rcases Verif.Ip.text_bytes y _ (List.mem_of_mem_head? this) with k | k <;> revert k <;> decide)
    | ipv6 hv' =>
      rename_i t' y
      have e : ascii "[IPv6:" ++ showV6 x ++ [asc ']'] = ascii "[IPv6:" ++ showV6 y ++ [asc ']'] := e
      exact congrArg Verif.Host.Host.ipv6 (showV6_inj (List.append_cancel_left (List.append_cancel_right e)))
    | domain h1 h2 h3 h4 h5 => exact absurd e.symm (dom _ _ h5 _)
  | domain h1 h2 h3 h4 h5 =>
    cases hy with
    | ipv4 => exact absurd e (dom _ _ h5 _)
    | ipv6 hv => exact absurd e (dom _ _ h5 _)
    | domain k1 k2 k3 k4 k5 => exact congrArg Verif.Host.Host.domain e

/-- C90 for `to_email_string`, under all options: also where the text is not read back (C44). -/
theorem C90_email (o : Opts) (idna : Idna) (laws : IdnaLaws idna) (cs ds : List Char) (v w : Value) (hv : parseStr o idna (strBytes cs) = .ok v)
    (hw : parseStr o idna (strBytes ds) = .ok w) (h : toEmail o v = toEmail o w) : v = w := by
  obtain ⟨q, t, g, tail, d⟩ := (Email.C62_email o idna cs v).1 hv
  obtain ⟨q', t', g', tail', d'⟩ := (Email.C62_email o idna ds w).1 hw
  have unq : ∀ (q : Bool) (v : Value), LocalText o v.comment1 q v.text → (v.needQuoted = true ↔ q = true ∧ ¬ Unquoted o.nonAscii v.text) →
      (v.needQuoted = true ↔ ¬ Unquoted o.nonAscii v.text) := by
    intro q v hl hn
    rw [hn]
    refine ⟨fun k => k.2, fun k => ⟨?_, k⟩⟩
    cases q with
    | true => rfl
    | false => exact absurd (hl.unquoted rfl).1 k
  have n1 := unq q v d.localText d.needQuoted
  have n2 := unq q' w d'.localText d'.needQuoted
  obtain ⟨s1, s2, s3⟩ := showHost_chars idna laws g _ d.domainText.host
  obtain ⟨r1, r2, r3⟩ := showHost_chars idna laws g' _ d'.domainText.host
  have fin : v.text = w.text → showHost v.host = showHost w.host → v.comment1 = w.comment1 → v.comment2 = w.comment2 → v.comment3 = w.comment3 →
      v.comment4 = w.comment4 → v = w := by
    intro e1 e2 e3 e4 e5 e6
    have e2 := showHost_inj idna laws g g' _ _ d.domainText.host d'.domainText.host e2
    have e7 : v.needQuoted = w.needQuoted := Bool.eq_iff_iff.2 (by rw [n1, n2, e1])
    have t1 := d.isLocal
    rw [e2] at t1
    have e8 := tells_unique t1 d'.isLocal
    obtain ⟨⟩ := v
    obtain ⟨⟩ := w
    simp only at e1 e2 e3 e4 e5 e6 e7 e8
    rw [e1, e2, e3, e4, e5, e6, e7, e8]
  cases ho : o.comment with
  | disallow =>
    obtain ⟨k1, k2, k3, k4⟩ := denotes_comments o idna _ v q t g tail d ho
    obtain ⟨l1, l2, l3, l4⟩ := denotes_comments o idna _ w q' t' g' tail' d' ho
    unfold toEmail at h
    rw [if_pos ho, if_pos ho] at h
    obtain ⟨e1, e2⟩ := cut_last s3 r3 h
    exact fin e1 e2 (by rw [k1, l1]) (by rw [k2, l2]) (by rw [k3, l3]) (by rw [k4, l4])
  | allow =>
    rw [toEmail_eq o v (.inl ho), toEmail_eq o w (.inl ho)] at h
    simp only [List.append_assoc] at h
    have hd1 := text_head o _ _ _ d.localText
    have hd2 := text_head o _ _ _ d'.localText
    have start : ∀ (v : Value) (q : Bool) (r : List UInt8), LocalText o v.comment1 q v.text → (v.needQuoted = true ↔ ¬ Unquoted o.nonAscii v.text) →
        (quote v.needQuoted v.text ++ r).head? ≠ some (asc '(') := by
      intro v q r hl hn k
      cases hq : v.needQuoted with
      | true => rw [hq] at k; exact absurd k (by simp [quote, ascii]; decide)
      | false =>
        have hU : Unquoted o.nonAscii v.text := Classical.byContradiction fun c => by rw [hn.2 c] at hq; cases hq
        cases ht : v.text with
        | nil => exact absurd ht hU.1
        | cons b u =>
          rw [hq, ht] at k
          have k : b = asc '(' := by simpa [quote] using k
          subst k
          rcases hU.2.2.1 _ (by rw [ht]; exact List.mem_cons_self ..) with k | k | k
          · exact absurd k (by decide)
          · exact absurd k (by decide)
          · exact absurd k.2 (by decide)
    obtain ⟨e1, h⟩ := comment_inj d.localText.closed d'.localText.closed (start v q _ d.localText n1) (start w q' _ d'.localText n2) h
    have at_not : ∀ (c : Option (List UInt8)) (r : List UInt8) (b : UInt8), (comment c ++ (ascii "@" ++ r)).head? = some b →
        ¬ (b ≠ asc '(' ∧ b ≠ asc '@') := by
      intro c r b hb
      cases c with
      | none => simp [comment, ascii] at hb; subst hb; decide
      | some c => simp [comment, ascii] at hb; subst hb; decide
    have unquoted : ∀ v : Value, (v.needQuoted = true ↔ ¬ Unquoted o.nonAscii v.text) → v.needQuoted = false → Unquoted o.nonAscii v.text := by
      intro v hn hq
      exact Classical.byContradiction fun c => by rw [hn.2 c] at hq; cases hq
    have plain : ∀ t, Unquoted o.nonAscii t → ∀ b ∈ t, b ≠ asc '(' ∧ b ≠ asc '@' := by
      intro t hU b hb
      rcases hU.2.2.1 b hb with k | k | k
      · exact (by decide : ∀ b ∈ atext, b ≠ asc '(' ∧ b ≠ asc '@') b k
      · subst k; decide
      · exact ⟨fun e => by subst e; exact absurd k.2 (by decide), fun e => by subst e; exact absurd k.2 (by decide)⟩
    have text : v.text = w.text ∧ comment v.comment2 ++ (ascii "@" ++ (comment v.comment3 ++ (showHost v.host ++ comment v.comment4))) =
        comment w.comment2 ++ (ascii "@" ++ (comment w.comment3 ++ (showHost w.host ++ comment w.comment4))) := by
      cases hq : v.needQuoted with
      | true =>
        cases hq' : w.needQuoted with
        | true =>
          rw [hq, hq'] at h
          obtain ⟨rfl, -⟩ := d.needQuoted.1 hq
          obtain ⟨rfl, -⟩ := d'.needQuoted.1 hq'
          simp only [quote, if_true, List.append_assoc] at h
          exact quoted_inj o.nonAscii (d.localText.quoted rfl).1 (d'.localText.quoted rfl).1 (List.append_cancel_left h)
        | false =>
          rw [hq, hq'] at h
          have hU := unquoted w n2 hq'
          cases ht : w.text with
          | nil => exact absurd ht hU.1
          | cons b u =>
            rw [ht] at h hd2
            exact absurd (List.cons.inj (show asc '"' :: _ = b :: _ from h)).1.symm (by simpa using hd2)
      | false =>
        have hU := unquoted v n1 hq
        cases hq' : w.needQuoted with
        | true =>
          rw [hq, hq'] at h
          cases ht : v.text with
          | nil => exact absurd ht hU.1
          | cons b u =>
            rw [ht] at h hd1
            exact absurd (List.cons.inj (show b :: _ = asc '"' :: _ from h)).1 (by simpa using hd1)
        | false =>
          rw [hq, hq'] at h
          exact stop_inj (P := fun b => b ≠ asc '(' ∧ b ≠ asc '@') (plain _ hU) (plain _ (unquoted w n2 hq')) (at_not _ _) (at_not _ _) h
    obtain ⟨e2, h⟩ := text
    obtain ⟨e3, h⟩ := comment_inj d.comment2.1 d'.comment2.1 (by simp [ascii]; decide) (by simp [ascii]; decide) h
    have h := List.append_cancel_left h
    have hh : ∀ (s r : List UInt8), s ≠ [] → asc '(' ∉ s → (s ++ r).head? ≠ some (asc '(') := by
      intro s r h1 h2 k
      cases s with
      | nil => exact h1 rfl
      | cons b s =>
        have k : b = asc '(' := by simpa using k
        exact h2 (by rw [k]; simp)
    obtain ⟨e4, h⟩ := comment_inj d.domainText.closed d'.domainText.closed (hh _ _ s1 s2) (hh _ _ r1 r2) h
    have stop : ∀ (c : Option (List UInt8)) (b : UInt8), (comment c).head? = some b → ¬ b ≠ asc '(' := by
      intro c b hb
      cases c with
      | none => cases hb
      | some c => simp [comment, ascii] at hb; subst hb; decide
    obtain ⟨e5, h⟩ := stop_inj (P := fun b => b ≠ asc '(') (fun b hb k => s2 (k ▸ hb)) (fun b hb k => r2 (k ▸ hb)) (stop _) (stop _) h
    obtain ⟨e6, -⟩ := comment_inj (x := []) (y := []) d.domainText.after.1 d'.domainText.after.1 (by simp) (by simp) (by simpa using h)
    exact fin e2 e5 e1 e3 e4 e6

/-- Two inputs with one text; the texts of others differ. The third is not read back. -/
example : ∃ v w, parseStr { Email.free with comment := .disallow } ldh (ascii "\"ab\"@X.yy") = .ok v ∧
    parseStr { Email.free with comment := .disallow } ldh (ascii "ab@x.yy") = .ok v ∧
    parseStr { Email.free with comment := .disallow } ldh (ascii "\"a b\"@x.yy") = .ok w ∧
    toEmail { Email.free with comment := .disallow } v = ascii "ab@x.yy" ∧ toEmail { Email.free with comment := .disallow } w = ascii "a b@x.yy" :=
  ⟨⟨ascii "ab", false, .domain (ascii "x.yy"), none, none, none, none, none⟩, ⟨ascii "a b", true, .domain (ascii "x.yy"), none, none, none, none, none⟩,
    by decide +kernel⟩

end email

end Verif.Props.Written
