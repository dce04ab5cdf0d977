import Verif.Proof.DomainValid
import Verif.Proof.Ldh

/-!
# Properties of the `domain` validator

`idna` is any conversion. Where a theorem needs something of it, `IdnaLaws idna` is a hypothesis; `ldh`, the conversion of
ASCII host names, satisfies it (`ldh_laws`) and is used in the examples.
-/

namespace Verif.Props.Domain

open Verif.Domain Verif.Spec Verif.Spec.Ip Verif.Spec.Domain Verif.StdIp
open BaseN (strBytes)
open Verif.Ip (Str)

/-- C58: the outcome of the `domain` validator, for every string. -/
theorem C58_domain (o : Opts) (idna : Idna) (cs : List Char) (v : Value) :
    parseStr o idna (strBytes cs) = .ok v ↔
      strBytes cs ≠ [] ∧ ∃ d, HostPort (strBytes cs) d v.port ∧ PortOk o.port v.port ∧
        (v.domain = strBytes cs ∧ (∃ x, AsIpv4 o d x v) ∨ AsName o idna d v) := parseStr_ok o idna _ ⟨cs, rfl⟩ v

/-- `validate_str` has the same outcome. -/
theorem C58_validate (o : Opts) (idna : Idna) (cs : List Char) :
    validateStr o idna (strBytes cs) = (parseStr o idna (strBytes cs)).void := validate_void o idna _ ⟨cs, rfl⟩

example : parseStr ⟨.disallow, .disallow, .allow, .must⟩ ldh (ascii "WWW.Example.com.:443") =
      .ok ⟨ascii "www.example.com.", none, none, some 443⟩ ∧
    parseStr ⟨.allow, .allow, .disallow, .must⟩ ldh (ascii "LocalHost") = .ok ⟨ascii "localhost", some false, some true, none⟩ ∧
    parseStr ⟨.allow, .allow, .disallow, .must⟩ ldh (ascii "10.0.0.1.") = .ok ⟨ascii "10.0.0.1.", some true, some true, none⟩ := by
  decide +kernel

/-- C32 for the `domain` validator. `d` is the host text. -/
theorem C32_domain (o : Opts) (idna : Idna) (cs : List Char) (v : Value) (h : parseStr o idna (strBytes cs) = .ok v) :
    PortOk o.port v.port ∧ ∃ d, HostPort (strBytes cs) d v.port ∧
      ((∃ x, QuadDot d x ∧ LocalOk o.loc (Local4 x.number)) ∨ idna d = some v.domain ∧ LocalOk o.loc (LocalName v.domain)) := by
  obtain ⟨_, d, h1, h2, ⟨_, x, hx⟩ | hn⟩ := (C58_domain o idna cs v).1 h
  · exact ⟨h2, d, h1, .inl ⟨x, hx.2.1, hx.2.2.2.2.1⟩⟩
  · exact ⟨h2, d, h1, .inr ⟨hn.2.2.1, hn.2.2.2.2.1⟩⟩

/-- C33 for the `domain` validator, and its printing. -/
theorem C33_domain (o : Opts) (idna : Idna) (cs : List Char) :
    parseStr o idna (strBytes cs) ≠ .panic ∧ validateStr o idna (strBytes cs) ≠ .panic := by
  have h := parseStr_panic o idna (strBytes cs) ⟨cs, rfl⟩
  refine ⟨h, ?_⟩
  rw [C58_validate]
  cases hr : parseStr o idna (strBytes cs) with
  | panic => exact absurd hr h
  | ok v => simp [Out.void]
  | err e => simp [Out.void]

/-- Unwrapping an absent port would panic, so the theorem is about something. -/
example : create ⟨.allow, .allow, .must, .allow⟩ ([], none, false, false) = .panic := by decide

/-- C34: the IPv4 and the label options are enforced. `d` is the host text. -/
theorem C34_options (o : Opts) (idna : Idna) (cs : List Char) (v : Value) (h : parseStr o idna (strBytes cs) = .ok v) :
    ∃ d, HostPort (strBytes cs) d v.port ∧
      (o.ipv4 = .must → ∃ x, QuadDot d x) ∧
      (o.ipv4 = .disallow → ∀ x, ¬ QuadDot d x) ∧
      (o.atl = .must → (∃ x, QuadDot d x) ∨ LocalName v.domain ∨ ManyLabels v.domain) ∧
      (o.atl = .disallow → (∀ x, ¬ QuadDot d x) ∧ (LocalName v.domain ∨ ¬ ManyLabels v.domain)) := by
  obtain ⟨_, d, h1, h2, ⟨_, x, hp, hq, h3, h4, _⟩ | ⟨hp, h3, _, h4, _⟩⟩ := (C58_domain o idna cs v).1 h
  · exact ⟨d, h1, fun _ => ⟨x, hq⟩, fun h => absurd h h3, fun _ => .inl ⟨x, hq⟩, fun h => absurd h h4⟩
  · refine ⟨d, h1, fun h => absurd h h3, fun h => ?_, fun h => ?_, fun h => ?_⟩
    · rcases hp with hp | hp
      · rw [hp.1] at h; cases h
      · exact hp
    · rw [h] at h4; exact .inr h4
    · rw [h] at h4
      refine ⟨?_, h4⟩
      rcases hp with hp | hp
      · rw [hp.2.2] at h; cases h
      · exact hp

example : parseStr ⟨.disallow, .allow, .disallow, .allow⟩ ldh (ascii "1.2.3.4.") = .err .ipv4Disallow ∧
    parseStr ⟨.must, .allow, .disallow, .allow⟩ ldh (ascii "1.2.3.4.") = .ok ⟨ascii "1.2.3.4.", none, none, none⟩ ∧
    parseStr ⟨.allow, .allow, .disallow, .disallow⟩ ldh (ascii "a.b") = .err .atLeastTwoLabelsDisallow ∧
    parseStr ⟨.allow, .disallow, .disallow, .must⟩ ldh (ascii "ab.") = .err .atLeastTwoLabelsMust := by decide +kernel

/-! ## The authority string -/

/-- What C35 asks of an accepted value: its authority string exists, is accepted by the same validator and gives the same
domain up to a final dot, the same port and the same fields. -/
def ParsesBack (o : Opts) (idna : Idna) (v : Value) : Prop :=
  ∃ u w, toUri v = .ok u ∧ parseStr o idna u = .ok w ∧ Stem v.domain w.domain ∧ w.port = v.port ∧ w.isIpv4 = v.isIpv4 ∧ w.isLocal = v.isLocal

theorem fields_stem (o : Opts) (v w : Value) (p q r : Prop) (hv : Fields o v p q) (hw : w.isIpv4 = v.isIpv4 ∧ w.isLocal = v.isLocal) (hq : r ↔ q) :
    Fields o w p r := by
  unfold Fields at *
  rw [hw.1, hw.2, tells_congr _ _ _ _ hq]
  exact hv

/-- Common part: the stored domain is a converted name. -/
theorem name_parses_back (o : Opts) (idna : Idna) (laws : IdnaLaws idna) (s d : List UInt8) (v : Value) (h1 : HostPort s d v.port)
    (h2 : PortOk o.port v.port) (hn : AsName o idna d v) (hq : Plain o ∨ ∀ x, ¬ QuadDot v.domain x) :
    asc ':' ∉ v.domain ∧ ParsesBack o idna v := by
  obtain ⟨hp, h3, hi, h4, h5, hf⟩ := hn
  have hst := stripDot_stem v.domain
  obtain ⟨k1, k2, k3⟩ := idna_stem idna laws _ _ _ hi hst
  have hlt := hostPort_lt _ _ _ h1
  obtain ⟨c1, _, c2⟩ := idna_chars idna laws _ _ k1
  refine ⟨(idna_chars idna laws _ _ hi).1, join (stripDot v.domain) v.port, { v with domain := stripDot v.domain }, toUri_eq v, ?_, hst, rfl, rfl, rfl⟩
  rw [parseStr_ok o idna _ (join_str _ (Ip.str_ascii _ c2) _ hlt)]
  refine ⟨?_, stripDot v.domain, hostPort_join _ c1 _ hlt, h2, .inr ⟨?_, h3, k1, ?_, ?_, ?_⟩⟩
  · intro he
    cases hv : v.port with
    | none => rw [hv] at he; exact k3 he
    | some n => rw [hv] at he; simp [join] at he
  · rcases hq with hq | hq
    · exact .inl hq
    · right
      intro x hx
      rcases hst with hst | hst
      · rcases hx with hx | hx
        · exact hq x (.inr (by rw [hst, hx]))
        · obtain ⟨_, hn⟩ := laws.root d (stripDot v.domain) (by rw [hi]; exact congrArg _ hst)
          exact hn ⟨_, hx⟩
      · rw [← hst.1] at hx; exact hq x hx
  · show LabelsOk o.atl (LocalName (stripDot v.domain)) (ManyLabels (stripDot v.domain))
    rw [propext (localName_stem _ _ hst k2), propext (manyLabels_stem _ _ hst k2)]; exact h4
  · show LocalOk o.loc (LocalName (stripDot v.domain))
    rw [propext (localName_stem _ _ hst k2)]; exact h5
  · exact fields_stem o v _ _ _ _ hf ⟨rfl, rfl⟩ (localName_stem _ _ hst k2)

/-- C35 when no option restricts the domain (the default): the property holds. -/
theorem C35_plain (o : Opts) (ho : Plain o) (idna : Idna) (laws : IdnaLaws idna) (cs : List Char) (v : Value)
    (h : parseStr o idna (strBytes cs) = .ok v) : asc ':' ∉ v.domain ∧ ParsesBack o idna v := by
  obtain ⟨_, d, h1, h2, ⟨_, x, hp, _⟩ | hn⟩ := (C58_domain o idna cs v).1 h
  · exact absurd ho hp
  · exact name_parses_back o idna laws _ d v h1 h2 hn (.inl ho)

/-- C35 for names. Missing: IPv4 addresses with a port, and names that IDNA converts to the text of an IPv4 address. -/
theorem C35_name_partial (o : Opts) (idna : Idna) (laws : IdnaLaws idna) (cs : List Char) (d : List UInt8) (v : Value)
    (h : parseStr o idna (strBytes cs) = .ok v) (hd : HostPort (strBytes cs) d v.port) (hq : ∀ x, ¬ QuadDot d x)
    (hq' : ∀ x, ¬ QuadDot v.domain x) : asc ':' ∉ v.domain ∧ ParsesBack o idna v := by
  obtain ⟨_, d', h1, h2, ⟨_, x, _, hx, _⟩ | hn⟩ := (C58_domain o idna cs v).1 h
  · obtain ⟨rfl, _⟩ := hostPort_unique _ _ _ _ _ hd h1
    exact absurd hx (hq x)
  · exact name_parses_back o idna laws _ d' v h1 h2 hn (.inr hq')

/-- C35 for IPv4 addresses without a port: the property holds for any conversion. -/
theorem C35_ipv4_without_port_partial (o : Opts) (ho : ¬ Plain o) (idna : Idna) (cs : List Char) (x : V4) (v : Value)
    (h : parseStr o idna (strBytes cs) = .ok v) (hd : QuadDot (strBytes cs) x) : asc ':' ∉ v.domain ∧ ParsesBack o idna v := by
  have hnc : asc ':' ∉ strBytes cs := by
    rcases hd with hd | hd <;> rw [hd]
    · exact Ip.text_no_colon x
    · intro hm
      rcases List.mem_append.1 hm with hm | hm
      · exact Ip.text_no_colon x hm
      · revert hm; decide
  obtain ⟨_, d, h1, h2, h3⟩ := (C58_domain o idna cs v).1 h
  have h0 : HostPort (strBytes cs) (strBytes cs) none := ⟨rfl, hnc⟩
  obtain ⟨rfl, hp⟩ := hostPort_unique _ _ _ _ _ h1 h0
  rcases h3 with ⟨hv, y, hy⟩ | hn
  · have hxy : y = x := by
      have a := (quadDot_iff _ _).2 hy.2.1
      rw [(quadDot_iff _ _).2 hd] at a; cases a; rfl
    subst hxy
    refine ⟨by rw [hv]; exact hnc, stripDot v.domain, { v with domain := stripDot v.domain }, ?_, ?_, stripDot_stem _, rfl, rfl, rfl⟩
    · rw [toUri_eq, hp]; rfl
    · have ht : stripDot v.domain = y.text := by
        rw [hv]
        have := (quadDot_iff _ _).2 hd
        exact (parseV4_iff _ _).1 this
      rw [ht]
      rw [parseStr_ok o idna _ (Ip.str_ascii _ (Ip.text_ascii y))]
      refine ⟨Ip.text_ne_nil y, y.text, ?_, h2, .inl ⟨rfl, y, hy.1, .inl rfl, hy.2.2.1, hy.2.2.2.1, hy.2.2.2.2.1, hy.2.2.2.2.2⟩⟩
      show HostPort y.text y.text v.port
      rw [hp]
      exact ⟨rfl, Ip.text_no_colon y⟩
  · rcases hn.1 with hn | hn
    · exact absurd hn ho
    · exact absurd hd (hn x)

/-- C35 is false of the code: with an IPv4 address and a port the stored domain contains the port, -/
theorem C35_violated : ∃ (o : Opts) (cs : List Char) (v : Value) (u : List UInt8),
    parseStr o ldh (strBytes cs) = .ok v ∧ v.domain = ascii "127.0.0.1:80" ∧ v.port = some 80 ∧
    toUri v = .ok u ∧ u = ascii "127.0.0.1:80:80" ∧ parseStr o ldh u = .err .ipv4Must :=
  ⟨⟨.must, .allow, .allow, .allow⟩, "127.0.0.1:80".toList, ⟨ascii "127.0.0.1:80", none, none, some 80⟩, ascii "127.0.0.1:80:80", by decide +kernel⟩

/-- and this is so for every such input: the stored domain is the whole input and the authority string is rejected. -/
theorem C35_ipv4_port_never_parses_back (o : Opts) (ho : ¬ Plain o) (idna : Idna) (laws : ∀ s, asc ':' ∈ s → idna s = none)
    (cs : List Char) (x : V4) (d : List UInt8) (n : Nat) (v : Value)
    (h : parseStr o idna (strBytes cs) = .ok v) (hd : HostPort (strBytes cs) d (some n)) (hq : QuadDot d x) :
    v.domain = strBytes cs ∧ asc ':' ∈ v.domain ∧ ¬ ParsesBack o idna v := by
  obtain ⟨_, d', h1, h2, h3⟩ := (C58_domain o idna cs v).1 h
  obtain ⟨rfl, hp⟩ := hostPort_unique _ _ _ _ _ h1 hd
  rcases h3 with ⟨hv, y, hy⟩ | hn
  · have hmem : asc ':' ∈ v.domain := by
      obtain ⟨u, hu, _⟩ := hd
      rw [hv, hu]
      exact List.mem_append_left _ (List.mem_append_right _ (by decide))
    refine ⟨hv, hmem, ?_⟩
    rintro ⟨u, w, hu, hw, _⟩
    rw [toUri_eq, hp] at hu
    cases hu
    have hst : asc ':' ∈ stripDot v.domain := by
      unfold stripDot
      split
      · rename_i hl
        obtain ⟨c, hc⟩ := (getLast_dot _).1 hl
        have hc' : v.domain = c ++ [asc '.'] := hc
        rw [hc'] at hmem ⊢
        rw [List.dropLast_concat]
        rcases List.mem_append.1 hmem with hm | hm
        · exact hm
        · exact absurd hm (by decide)
      · exact hmem
    have hstr : Str (join (stripDot v.domain) (some n)) := by
      refine join_str _ ?_ _ (hostPort_lt _ _ _ hd)
      unfold stripDot
      split
      · rename_i hl
        obtain ⟨c, hc⟩ := (getLast_dot _).1 hl
        have hc' : v.domain = c ++ asc '.' :: [] := hc
        have hs : Str v.domain := ⟨cs, hv⟩
        rw [hc'] at hs ⊢
        rw [List.dropLast_concat]
        exact (Ip.str_cut _ _ _ (by decide) hs).1
      · exact ⟨cs, hv⟩
    rw [parseStr_ok o idna _ hstr] at hw
    obtain ⟨_, d2, k1, _, k3⟩ := hw
    have k0 : HostPort (join (stripDot v.domain) (some n)) (stripDot v.domain) (some n) :=
      ⟨IntV.showNat n, by simp [join, ascii, asc], Ip.portText_show n (hostPort_lt _ _ _ hd n rfl)⟩
    obtain ⟨rfl, _⟩ := hostPort_unique _ _ _ _ _ k1 k0
    rcases k3 with ⟨_, z, hz⟩ | k3
    · rcases hz.2.1 with hz | hz
      · rw [hz] at hst; exact Ip.text_no_colon z hst
      · rw [hz] at hst
        rcases List.mem_append.1 hst with hm | hm
        · exact Ip.text_no_colon z hm
        · revert hm; decide
    · have := k3.2.2.1
      rw [laws _ hst] at this; cases this
  · rcases hn.1 with hn | hn
    · exact absurd hn ho
    · exact absurd hq (hn x)

example : parseStr ⟨.disallow, .allow, .allow, .must⟩ ldh (ascii "Example.com.:8080") = .ok ⟨ascii "example.com.", none, some false, some 8080⟩ ∧
    toUri ⟨ascii "example.com.", none, some false, some 8080⟩ = .ok (ascii "example.com:8080") := by decide +kernel
/-- The hypothesis of `C35_ipv4_port_never_parses_back` on the conversion. -/
example : ∀ s, asc ':' ∈ s → ldh s = none := by
  intro s hm
  cases h : ldh s with
  | none => rfl
  | some a =>
    unfold ldh at h
    simp only at h
    split at h
    · rename_i hc
      have := hc.2.2.2.1 (lowered (asc ':')) (List.mem_map_of_mem hm)
      exact absurd this (by decide)
    · cases h

/-- C35 exactly: an accepted value parses back unless it is an IPv4 address with a port, or a name that IDNA converts to the
text of an IPv4 address while some option restricts the domain. The latter also parses back when the address is accepted
without a field that tells it from a name. -/
theorem C35_exact_partial (o : Opts) (idna : Idna) (laws : IdnaLaws idna) (hc : ∀ s, asc ':' ∈ s → idna s = none)
    (cs : List Char) (d : List UInt8) (v : Value) (h : parseStr o idna (strBytes cs) = .ok v) (hd : HostPort (strBytes cs) d v.port) :
    asc ':' ∉ v.domain ∧ ParsesBack o idna v ↔
      Plain o ∨ (∀ x, ¬ QuadDot d x ∧ ¬ QuadDot v.domain x) ∨
      v.port = none ∧ ((∃ x, QuadDot d x) ∨ ∃ x, QuadDot v.domain x ∧ o.ipv4 = .allow ∧ o.loc = .disallow ∧ ¬ Local4 x.number) := by
  by_cases ho : Plain o
  · exact ⟨fun _ => .inl ho, fun _ => C35_plain o ho idna laws cs v h⟩
  by_cases hq : ∃ x, QuadDot d x
  · obtain ⟨x, hx⟩ := hq
    cases hp : v.port with
    | none =>
      rw [hp] at hd
      obtain ⟨rfl, _⟩ := hd
      exact ⟨fun _ => .inr (.inr ⟨rfl, .inl ⟨x, hx⟩⟩), fun _ => C35_ipv4_without_port_partial o ho idna cs x v h hx⟩
    | some n =>
      rw [hp] at hd
      obtain ⟨_, _, hno⟩ := C35_ipv4_port_never_parses_back o ho idna hc cs x d n v h hd hx
      constructor
      · rintro ⟨_, hb⟩; exact absurd hb hno
      · rintro (hb | hb | ⟨hb, _⟩)
        · exact absurd hb ho
        · exact absurd hx (hb x).1
        · cases hb
  · by_cases hq' : ∃ x, QuadDot v.domain x
    · obtain ⟨x, hx⟩ := hq'
      obtain ⟨_, d', h1, h2, ⟨_, y, _, hy, _⟩ | hn⟩ := (C58_domain o idna cs v).1 h
      · obtain ⟨rfl, _⟩ := hostPort_unique _ _ _ _ _ hd h1
        exact absurd ⟨y, hy⟩ hq
      obtain ⟨rfl, _⟩ := hostPort_unique _ _ _ _ _ hd h1
      obtain ⟨hp, h3, hi, h4, h5, hf⟩ := hn
      have ht : stripDot v.domain = x.text := (parseV4_iff _ _).1 ((quadDot_iff _ _).2 hx)
      have hlt := hostPort_lt _ _ _ h1
      have hst := stripDot_stem v.domain
      obtain ⟨l, r, hlr⟩ : ∃ l r, x.text = l ++ ascii "." ++ r := ⟨_, _, by rw [V4.text, dotted, List.append_assoc, List.append_assoc, List.append_assoc, List.append_assoc, List.append_assoc, ← List.append_assoc]⟩
      have hloc : ¬ LocalName v.domain := by
        rintro ⟨b, hb, hl⟩
        rw [← (stem_iff _ _).1 hb, ht, hlr] at hl
        have hm : asc '.' ∈ ascii "localhost" := by
          rw [← hl]
          simp only [List.map_append, List.mem_append]
          exact .inl (.inr (by decide))
        exact absurd hm (by decide)
      have hmany : ManyLabels v.domain := ⟨l, r, by rw [← hlr, ← ht]; exact hst⟩
      have hatl : o.atl ≠ .disallow := by
        intro ha
        rw [ha] at h4
        rcases h4 with h4 | h4
        · exact hloc h4
        · exact h4 hmany
      constructor
      · rintro ⟨_, u, w, hu, hw, hs, hwp, w4, wl⟩
        rw [toUri_eq, ht] at hu
        cases hu
        rw [parseStr_ok o idna _ (join_str _ (Ip.str_ascii _ (Ip.text_ascii x)) _ hlt)] at hw
        obtain ⟨_, d2, k1, _, k3⟩ := hw
        obtain ⟨rfl, _⟩ := hostPort_unique _ _ _ _ _ k1 (hostPort_join _ (Ip.text_no_colon x) _ hlt)
        rcases k3 with ⟨hwd, z, _, hz, z4, _, zl, zf⟩ | k3
        · have hxz : x = z := by
            rcases hz with hz | hz
            · exact Ip.text_inj x z hz
            · exact absurd ((getLast_dot _).2 ⟨_, hz⟩) (text_no_final_dot x)
          subst hxz
          have hpn : v.port = none := by
            rw [← (stem_iff _ _).1 hs, ht] at hwd
            cases hvp : v.port with
            | none => rfl
            | some n =>
              rw [hvp] at hwd
              have := congrArg List.length hwd
              simp [join] at this
          have ha : o.ipv4 = .allow := by
            cases hi4 : o.ipv4 with
            | allow => rfl
            | must => exact absurd hi4 h3
            | disallow => exact absurd hi4 z4
          have hol : o.loc = .disallow := by
            cases hol : o.loc with
            | allow =>
              have hat : o.atl ≠ .allow := fun hat => ho ⟨ha, hol, hat⟩
              obtain ⟨b1, e1, f1⟩ := hf.1.1 ⟨ha, hol, hat⟩
              obtain ⟨b2, e2, f2⟩ := zf.1.1 ⟨ha, hol, hat⟩
              rw [e1, e2] at w4
              cases w4
              exact absurd (f2.2 trivial) (fun hb => f1.1 hb)
            | must => rw [hol] at h5; exact absurd h5 hloc
            | disallow => rfl
          rw [hol] at zl
          exact .inr (.inr ⟨hpn, .inr ⟨x, hx, ha, hol, zl⟩⟩)
        · rcases k3.1 with k | k
          · exact absurd k ho
          · exact absurd (.inl rfl) (k x)
      · rintro (hb | hb | ⟨hpn, ⟨y, hy⟩ | ⟨y, hy, ha, hol, hl⟩⟩)
        · exact absurd hb ho
        · exact absurd hx (hb x).2
        · exact absurd ⟨y, hy⟩ hq
        · have hxy : x = y := by
            have e1 := (quadDot_iff _ _).2 hx
            rw [(quadDot_iff _ _).2 hy] at e1
            cases e1; rfl
          subst hxy
          refine ⟨(idna_chars idna laws _ _ hi).1, x.text, { v with domain := x.text }, by rw [toUri_eq, ht, hpn]; rfl, ?_, by rw [← ht]; exact hst, rfl, rfl, rfl⟩
          rw [parseStr_ok o idna _ (Ip.str_ascii _ (Ip.text_ascii x))]
          refine ⟨Ip.text_ne_nil x, x.text, ?_, h2, .inl ⟨rfl, x, ho, .inl rfl, by rw [ha]; nofun, hatl, by rw [hol]; exact hl, ?_⟩⟩
          · show HostPort _ _ v.port
            rw [hpn]
            exact ⟨rfl, Ip.text_no_colon x⟩
          · exact ⟨⟨fun hs => absurd hs.2.1 (by rw [hol]; nofun), hf.1.2⟩, ⟨fun hs => absurd hs.1 (by rw [hol]; nofun), hf.2.2⟩⟩
    · refine ⟨fun _ => .inr (.inl fun x => ⟨fun hx => hq ⟨x, hx⟩, fun hx => hq' ⟨x, hx⟩⟩), fun _ => ?_⟩
      exact C35_name_partial o idna laws cs d v h hd (fun x hx => hq ⟨x, hx⟩) (fun x hx => hq' ⟨x, hx⟩)

/-- A name that is converted to an address: with `local(Disallow)` it parses back, with a port or with `is_ipv4` it does not. -/
example : IdnaLaws wide ∧
    parseStr ⟨.allow, .disallow, .allow, .must⟩ wide (strBytes "８.8.8.8".toList) = .ok ⟨ascii "8.8.8.8", none, none, none⟩ ∧
    parseStr ⟨.allow, .disallow, .allow, .must⟩ wide (ascii "8.8.8.8") = .ok ⟨ascii "8.8.8.8", none, none, none⟩ ∧
    parseStr ⟨.allow, .disallow, .allow, .must⟩ wide (strBytes "８.8.8.8:1".toList) = .ok ⟨ascii "8.8.8.8", none, none, some 1⟩ ∧
    parseStr ⟨.allow, .disallow, .allow, .must⟩ wide (ascii "8.8.8.8:1") = .ok ⟨ascii "8.8.8.8:1", none, none, some 1⟩ ∧
    parseStr ⟨.allow, .allow, .allow, .must⟩ wide (strBytes "８.8.8.8".toList) = .ok ⟨ascii "8.8.8.8", some false, some false, none⟩ ∧
    parseStr ⟨.allow, .allow, .allow, .must⟩ wide (ascii "8.8.8.8") = .ok ⟨ascii "8.8.8.8", some true, some false, none⟩ :=
  ⟨wide_laws, by decide +kernel⟩

/-- C36: `is_fully_qualified` holds exactly when the stored domain ends with a dot, and `get_domain_non_fully_qualified`
returns the stored domain without one final dot. -/
theorem C36_qualify (v : Value) :
    (isFullyQualified v = true ↔ ∃ c, v.domain = c ++ ascii ".") ∧
    (∃ d, nonFullyQualified v = .ok d ∧ Stem v.domain d ∧ (isFullyQualified v = true → v.domain = d ++ ascii ".") ∧
      (isFullyQualified v = false → v.domain = d)) := by
  have h1 : isFullyQualified v = true ↔ ∃ c, v.domain = c ++ ascii "." := by
    unfold isFullyQualified; rw [beq_iff_eq]; exact getLast_dot _
  refine ⟨h1, stripDot v.domain, nonFullyQualified_eq v, stripDot_stem _, fun h => ?_, fun h => ?_⟩
  · obtain ⟨c, hc⟩ := h1.1 h
    have := (stem_iff v.domain c).1 (.inl hc)
    rw [this]; exact hc
  · have hn : ¬ ∃ c, v.domain = c ++ ascii "." := by rw [← h1, h]; simp
    exact ((stem_iff v.domain v.domain).1 (.inr ⟨rfl, hn⟩)).symm

example : nonFullyQualified ⟨strBytes "é..".toList, none, none, none⟩ = .ok (strBytes "é.".toList) := by decide +kernel

/-! ## Errors -/

/-- C39 for the `domain` validator: an error other than `Invalid` is only returned when the option asks for it and its
documented guarantee is true. `d` is the host text: what precedes the last colon, if there is one. -/
theorem C39_domain (o : Opts) (idna : Idna) (cs : List Char) (e : DomainError) (h : parseStr o idna (strBytes cs) = .err e) :
    ∃ d, (strBytes cs = d ∧ asc ':' ∉ strBytes cs ∨ ∃ u, strBytes cs = d ++ ascii ":" ++ u ∧ asc ':' ∉ u) ∧
      (e = .portMust → o.port = .must ∧ asc ':' ∉ strBytes cs) ∧
      (e = .portDisallow → o.port = .disallow ∧ asc ':' ∈ strBytes cs) ∧
      (e = .ipv4Must → o.ipv4 = .must ∧ ∀ x, ¬ QuadDot d x) ∧
      (e = .ipv4Disallow → o.ipv4 = .disallow ∧ ∃ x, QuadDot d x) ∧
      (e = .atLeastTwoLabelsMust → o.atl = .must ∧ ∃ a, idna d = some a ∧ ¬ LocalName a ∧ ¬ ManyLabels a) ∧
      (e = .atLeastTwoLabelsDisallow → o.atl = .disallow ∧ ((∃ x, QuadDot d x) ∨ ∃ a, idna d = some a ∧ ¬ LocalName a ∧ ManyLabels a)) ∧
      (e = .localMust → o.loc = .must ∧ ((∃ x, QuadDot d x ∧ ¬ Local4 x.number) ∨ ∃ a, idna d = some a ∧ ¬ LocalName a)) ∧
      (e = .localDisallow → o.loc = .disallow ∧ ((∃ x, QuadDot d x ∧ Local4 x.number) ∨ ∃ a, idna d = some a ∧ LocalName a)) := by
  have hs : Str (strBytes cs) := ⟨cs, rfl⟩
  have hr := parseStr_err o idna _ hs e h
  obtain ⟨d, u, hsp⟩ := split_exists (strBytes cs)
  have hsplit : strBytes cs = d ∧ asc ':' ∉ strBytes cs ∨ ∃ u, strBytes cs = d ++ ascii ":" ++ u ∧ asc ':' ∉ u := by
    cases u with
    | none => exact .inl hsp
    | some t => exact .inr ⟨t, by rw [hsp.1]; simp [ascii, asc], hsp.2⟩
  refine ⟨d, hsplit, ?_⟩
  by_cases hne : strBytes cs = []
  · rw [hne] at hr; simp only [parse, if_true, Out.err.injEq] at hr; subst hr; simp
  · by_cases hu : TextOk o.port u
    · rw [parse_eq o idna _ d u hs hne hsp hu] at hr
      have := domainPart_err o idna _ d u e hr
      simp only [← Bool.not_eq_true, localName_iff, Ip.isLocalV4_iff] at this
      rcases this with rfl | ⟨rfl, k⟩ | ⟨rfl, k⟩ | ⟨rfl, k⟩ | ⟨rfl, k⟩ | ⟨rfl, k⟩ | ⟨rfl, k⟩
      · simp
      · simpa using k
      · simpa using k
      · simpa using k
      · simpa using k
      · simp only [reduceCtorEq, false_implies, true_implies, true_and, and_true]
        exact ⟨k.1, k.2.imp_right And.right⟩
      · simp only [reduceCtorEq, false_implies, true_implies, true_and]
        exact ⟨k.1, k.2.imp_right And.right⟩
    · rcases parse_not_ok o idna _ d u hs hne hsp hu with ⟨h1, rfl, h2⟩ | ⟨h1, h3, h2⟩
      · rw [h2] at hr; cases hr
        simp [h1, hsp.2]
      · rw [h2] at hr; cases hr
        cases u with
        | none => exact absurd rfl h3
        | some t =>
          have : asc ':' ∈ strBytes cs := by rw [hsp.1]; simp
          simp [h1, this]

example : parseStr ⟨.must, .allow, .allow, .allow⟩ ldh (ascii "a.b:80") = .err .ipv4Must ∧
    parseStr ⟨.allow, .must, .allow, .allow⟩ ldh (ascii "8.8.8.8") = .err .localMust ∧
    parseStr ⟨.allow, .disallow, .allow, .allow⟩ ldh (ascii "LOCALHOST.:80") = .err .localDisallow ∧
    parseStr ⟨.allow, .disallow, .must, .allow⟩ ldh (ascii "a") = .err .portMust := by decide +kernel

/-! ## What IDNA can hide -/

/-- C59 is false for a conversion that maps digits of another script to ASCII digits, as UTS 46 does for full-width digits:
an `ipv4(Disallow)`, `local(Disallow)` validator then accepts and stores a loopback address. -/
theorem C59_domain_violated (idna : Idna) (h : idna (strBytes "１２７.0.0.1".toList) = some (ascii "127.0.0.1")) :
    ∃ v, parseStr ⟨.disallow, .disallow, .disallow, .allow⟩ idna (strBytes "１２７.0.0.1".toList) = .ok v ∧ v.domain = ascii "127.0.0.1" := by
  refine ⟨⟨ascii "127.0.0.1", none, none, none⟩, ?_, rfl⟩
  rw [C58_domain]
  refine ⟨by decide +kernel, strBytes "１２７.0.0.1".toList, ⟨rfl, by decide +kernel⟩, rfl, .inr ⟨.inr ?_, by decide, h, trivial, ?_, ?_⟩⟩
  · rw [← quadDot_none]; decide +kernel
  · show ¬ LocalName _
    rw [← localName_iff]; decide +kernel
  · exact (fields_iff _ _ false false _ _ (by simp) (by rw [← localName_iff]; decide +kernel)).2 ⟨rfl, rfl⟩

/-- C59 holds whenever the conversion does not turn another text into the text of an address. -/
theorem C59_domain_partial (o : Opts) (idna : Idna) (hi : ∀ s a x, idna s = some a → QuadDot a x → QuadDot s x)
    (cs : List Char) (v : Value) (h : parseStr o idna (strBytes cs) = .ok v) (ho : o.ipv4 = .disallow) : ∀ x, ¬ QuadDot v.domain x := by
  obtain ⟨_, d, h1, h2, ⟨_, x, hx⟩ | hn⟩ := (C58_domain o idna cs v).1 h
  · exact absurd ho hx.2.2.1
  · intro x hx
    rcases hn.1 with hp | hp
    · rw [hp.1] at ho; cases ho
    · exact hp x (hi _ _ _ hn.2.2.1 hx)

/-- A conversion that satisfies the hypothesis of the first theorem. -/
example : ∃ idna : Idna, idna (strBytes "１２７.0.0.1".toList) = some (ascii "127.0.0.1") := ⟨fun _ => some (ascii "127.0.0.1"), rfl⟩

end Verif.Props.Domain
