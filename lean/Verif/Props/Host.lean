import Verif.Proof.HostValid
import Verif.Proof.Ldh

/-!
# Properties of the `host` validator

`idna` is any conversion. Where a theorem needs something of it, `IdnaLaws idna` is a hypothesis; `ldh`, the conversion of
ASCII host names, satisfies it (`ldh_laws`) and is used in the examples.
-/

namespace Verif.Props.Host

open Verif.Host Verif.Spec Verif.Spec.Ip Verif.Spec.Domain Verif.Spec.Host Verif.StdIp
open BaseN (strBytes)
open Verif.Ip (Str)
open Verif.Domain (Idna ldh ldh_laws wide wide_laws join hostPort_join hostPort_lt hostPort_unique join_str idna_chars localName_iff)

/-- C37: the outcome of the `host` validator, for every string. -/
theorem C37_host (o : Opts) (idna : Idna) (cs : List Char) (v : Value) :
    parseStr o idna (strBytes cs) = .ok v ↔
      PortOk o.port v.port ∧ (AsIpv6 o (strBytes cs) v ∨ AsIpv4 o (strBytes cs) v ∨ AsName o idna (strBytes cs) v) :=
  parseStr_ok o idna _ ⟨cs, rfl⟩ v

/-- `validate_str` has the same outcome. -/
theorem C37_validate (o : Opts) (idna : Idna) (cs : List Char) :
    validateStr o idna (strBytes cs) = (parseStr o idna (strBytes cs)).void := validate_void o idna _ ⟨cs, rfl⟩

/-- The three kinds exclude each other: a string is an IPv6 address, or it is an IPv4 address, or it is a name. -/
theorem C37_exclusive (o : Opts) (idna : Idna) (s : List UInt8) (v w : Value) :
    ¬ (AsIpv6 o s v ∧ AsIpv4 o s w) ∧ ¬ (AsIpv6 o s v ∧ AsName o idna s w) ∧ ¬ (AsIpv4 o s v ∧ AsName o idna s w) := by
  refine ⟨?_, ?_, ?_⟩
  · rintro ⟨⟨x, _, hx, _⟩, y, _, hy, _⟩
    exact v4Input_not_looks s y _ hy (v6Input_looks s x _ hx)
  · rintro ⟨⟨x, _, hx, _⟩, d, a, _, _, hd, _⟩
    exact (not_looks6 s).2 ⟨hd.2.1, hd.2.2.1⟩ (v6Input_looks s x _ hx)
  · rintro ⟨⟨x, _, hx, _⟩, d, a, _, hp, hd, _⟩
    obtain ⟨rfl, _⟩ := hostPort_unique _ _ _ _ _ ((v4_iff s x _).1 hx) hp
    exact hd.2.2.2.2 x rfl

example : parseStr ⟨.allow, .allow, .must⟩ ldh (ascii "[::1]:8080") = .ok ⟨.ipv6 ⟨0, 0, 0, 0, 0, 0, 0, 1⟩, some true, some 8080⟩ ∧
    parseStr ⟨.allow, .allow, .allow⟩ ldh (ascii "1::2") = .ok ⟨.ipv6 ⟨1, 0, 0, 0, 0, 0, 0, 2⟩, none, none⟩ ∧
    parseStr ⟨.disallow, .must, .must⟩ ldh (ascii "8.8.8.8:80") = .ok ⟨.ipv4 ⟨8, 8, 8, 8⟩, none, some 80⟩ ∧
    parseStr ⟨.disallow, .must, .must⟩ ldh (ascii "Example.com:80") = .ok ⟨.domain (ascii "example.com"), none, some 80⟩ ∧
    parseStr ⟨.allow, .allow, .allow⟩ ldh (ascii "example.com.") = .err .invalid := by decide +kernel

/-- C32 for the `host` validator. -/
theorem C32_host (o : Opts) (idna : Idna) (cs : List Char) (v : Value) (h : parseStr o idna (strBytes cs) = .ok v) :
    PortOk o.port v.port ∧ LocalOk o.loc (LocalHost v.host) := by
  obtain ⟨hp, ⟨x, hx, _, _, hl, _⟩ | ⟨x, hx, _, _, hl, _⟩ | ⟨d, a, hx, _, _, _, _, hl, _⟩⟩ := (C37_host o idna cs v).1 h <;>
    exact ⟨hp, by rw [hx]; exact hl⟩

example : parseStr ⟨.disallow, .allow, .allow⟩ ldh (ascii "[fe80::1]:1") = .err .localDisallow ∧
    parseStr ⟨.must, .allow, .allow⟩ ldh (ascii "localhost:1") = .ok ⟨.domain (ascii "localhost"), none, some 1⟩ ∧
    parseStr ⟨.must, .disallow, .allow⟩ ldh (ascii "localhost:1") = .err .portDisallow := by decide +kernel

/-- C33 for the `host` validator. -/
theorem C33_host (o : Opts) (idna : Idna) (cs : List Char) :
    parseStr o idna (strBytes cs) ≠ .panic ∧ validateStr o idna (strBytes cs) ≠ .panic := by
  have h := parseStr_panic o idna (strBytes cs) ⟨cs, rfl⟩
  refine ⟨h, ?_⟩
  rw [C37_validate]
  cases hr : parseStr o idna (strBytes cs) with
  | panic => exact absurd hr h
  | ok v => simp [Out.void]
  | err e => simp [Out.void]

/-- Unwrapping an absent port would panic, so the theorem is about something. -/
example : create ⟨.allow, .must, .allow⟩ (.domain [], none, false) = .panic := by decide

/-! ## The authority string -/

/-- C38 for addresses: the authority string gives the same value back, for any conversion. -/
theorem C38_address (o : Opts) (idna : Idna) (cs : List Char) (v : Value) (h : parseStr o idna (strBytes cs) = .ok v)
    (hv : ∀ a, v.host ≠ .domain a) : parseStr o idna (toUri v) = .ok v := by
  obtain ⟨hp, ⟨x, hx, hi, h1, h2, h3⟩ | ⟨x, hx, hi, h1, h2, h3⟩ | ⟨d, a, hx, _⟩⟩ := (C37_host o idna cs v).1 h
  · obtain ⟨hh, l, p⟩ := v
    simp only at hx hi
    subst hx
    obtain ⟨h4, hs⟩ := Ip.uriV6_input x p (by rintro n rfl; exact Ip.input_port_lt _ (.v6 x) n hi)
    rw [toUri_v6, parseStr_ok o idna _ hs]
    exact ⟨hp, .inl ⟨x, rfl, h4, h1, h2, h3⟩⟩
  · obtain ⟨hh, l, p⟩ := v
    simp only at hx hi
    subst hx
    obtain ⟨h4, hs⟩ := Ip.uriV4_input x p (by rintro n rfl; exact Ip.input_port_lt _ (.v4 x) n hi)
    rw [toUri_v4, parseStr_ok o idna _ hs]
    exact ⟨hp, .inr (.inl ⟨x, rfl, h4, h1, h2, h3⟩)⟩
  · exact absurd hx (hv a)

/-- C38 for names. Missing: names whose conversion ends with a dot or is the text of an IPv4 address. -/
theorem C38_name_partial (o : Opts) (idna : Idna) (laws : IdnaLaws idna) (cs : List Char) (v : Value) (a : List UInt8)
    (h : parseStr o idna (strBytes cs) = .ok v) (hv : v.host = .domain a) (hd : ¬ ∃ c, a = c ++ ascii ".") (h4 : ∀ x : V4, a ≠ x.text) :
    parseStr o idna (toUri v) = .ok v := by
  obtain ⟨hp, ⟨x, hx, _⟩ | ⟨x, hx, _⟩ | ⟨d, b, hx, h1, _, hi, h2, h3, h5⟩⟩ := (C37_host o idna cs v).1 h
  · rw [hx] at hv; cases hv
  · rw [hx] at hv; cases hv
  · rw [hx] at hv; cases hv
    obtain ⟨c1, c3, c2⟩ := idna_chars idna laws _ _ hi
    have hlt := hostPort_lt _ _ _ h1
    obtain ⟨hh, l, p⟩ := v
    simp only at hx hlt
    subst hx
    have hne := laws.nonempty _ _ hi
    rw [toUri_domain, parseStr_ok o idna _ (join_str _ (Ip.str_ascii _ c2) _ hlt)]
    refine ⟨hp, .inr (.inr ⟨a, a, rfl, hostPort_join _ c1 _ hlt, ⟨?_, ?_, ?_, hd, h4⟩, laws.again _ _ hi, h2, h3, h5⟩)⟩
    · cases a with
      | nil => exact absurd rfl hne
      | cons b a => cases p <;> simp [join]
    · cases a with
      | nil => exact absurd rfl hne
      | cons b a =>
        have hb : b ≠ asc '[' := by
          rintro rfl
          exact absurd (laws.symbols _ _ hi _ (List.mem_cons_self ..)) (by decide)
        cases p <;> simpa [join] using hb
    · intro x hx
      exact join_not_v6 a c1 p hlt _ hx

/-- C38 exactly: the authority string of an accepted name gives the same value back unless the conversion ends with a dot
or is the text of an IPv4 address. -/
theorem C38_exact_partial (o : Opts) (idna : Idna) (laws : IdnaLaws idna) (cs : List Char) (v : Value)
    (h : parseStr o idna (strBytes cs) = .ok v) :
    parseStr o idna (toUri v) = .ok v ↔ ∀ a, v.host = .domain a → (¬ ∃ c, a = c ++ ascii ".") ∧ ∀ x : V4, a ≠ x.text := by
  constructor
  · intro hb a hv
    obtain ⟨_, ⟨x, hx, _⟩ | ⟨x, hx, _⟩ | ⟨d, b, hx, h1, _, hi, _⟩⟩ := (C37_host o idna cs v).1 h
    · rw [hx] at hv; cases hv
    · rw [hx] at hv; cases hv
    · rw [hx] at hv; cases hv
      obtain ⟨c1, c3, c2⟩ := idna_chars idna laws _ _ hi
      have hlt := hostPort_lt _ _ _ h1
      obtain ⟨hh, l, p⟩ := v
      simp only at hx hlt
      subst hx
      rw [toUri_domain, parseStr_ok o idna _ (join_str _ (Ip.str_ascii _ c2) _ hlt)] at hb
      obtain ⟨_, ⟨x, hx, _⟩ | ⟨x, hx, _⟩ | ⟨d', b, _, k1, k2, _⟩⟩ := hb
      · cases hx
      · cases hx
      · obtain ⟨rfl, _⟩ := hostPort_unique _ _ _ _ _ k1 (hostPort_join _ c1 _ hlt)
        exact k2.2.2.2
  · intro hn
    by_cases hv : ∃ a, v.host = .domain a
    · obtain ⟨a, hv⟩ := hv
      exact C38_name_partial o idna laws cs v a h hv (hn a hv).1 (hn a hv).2
    · exact C38_address o idna cs v h fun a ha => hv ⟨a, ha⟩

/-- A name that is converted to an address is not read back as a name. -/
example : IdnaLaws wide ∧ parseStr ⟨.allow, .allow, .allow⟩ wide (strBytes "８.8.8.8".toList) = .ok ⟨.domain (ascii "8.8.8.8"), none, none⟩ ∧
    parseStr ⟨.allow, .allow, .allow⟩ wide (ascii "8.8.8.8") = .ok ⟨.ipv4 ⟨8, 8, 8, 8⟩, none, none⟩ :=
  ⟨wide_laws, by decide +kernel⟩

/-- C38 is false for a conversion that maps the ideographic full stop to a dot, as UTS 46 does: -/
theorem C38_violated (idna : Idna) (h : idna (strBytes "example.com。".toList) = some (ascii "example.com.")) :
    ∃ o v, parseStr o idna (strBytes "example.com。".toList) = .ok v ∧ v.host = .domain (ascii "example.com.") ∧
      toUri v = ascii "example.com." ∧ parseStr o idna (toUri v) = .err .invalid := by
  refine ⟨⟨.allow, .disallow, .allow⟩, ⟨.domain (ascii "example.com."), none, none⟩, ?_, rfl, by decide +kernel, rfl⟩
  rw [C37_host]
  refine ⟨rfl, .inr (.inr ⟨strBytes "example.com。".toList, ascii "example.com.", rfl, ⟨rfl, by decide +kernel⟩, ⟨by decide +kernel, by decide +kernel, ?_, ?_, ?_⟩, h, trivial, trivial, ?_⟩)⟩
  · intro x hx
    rw [← parseV6_iff] at hx
    exact absurd (hx.symm.trans (show _ = none by decide +kernel)) (by simp)
  · rw [← Domain.getLast_dot]; decide +kernel
  · intro x hx
    have hx := (parseV4_iff _ x).2 hx
    exact absurd (hx.symm.trans (show _ = none by decide +kernel)) (by simp)
  · exact ⟨fun hs => absurd rfl hs.2, fun _ => rfl⟩

/-- and so is C59 for `host`: a `local(Disallow)` validator can return the text of a loopback address. -/
theorem C59_host_violated (idna : Idna) (h : idna (strBytes "１２７.0.0.1".toList) = some (ascii "127.0.0.1")) :
    ∃ o v, o.loc = .disallow ∧ parseStr o idna (strBytes "１２７.0.0.1".toList) = .ok v ∧ v.host = .domain (ascii "127.0.0.1") ∧
      parseStr o idna (toUri v) = .err .localDisallow := by
  refine ⟨⟨.disallow, .disallow, .allow⟩, ⟨.domain (ascii "127.0.0.1"), none, none⟩, rfl, ?_, rfl, rfl⟩
  rw [C37_host]
  refine ⟨rfl, .inr (.inr ⟨strBytes "１２７.0.0.1".toList, ascii "127.0.0.1", rfl, ⟨rfl, by decide +kernel⟩, ⟨by decide +kernel, by decide +kernel, ?_, ?_, ?_⟩, h, trivial, ?_, ?_⟩)⟩
  · intro x hx
    rw [← parseV6_iff] at hx
    exact absurd (hx.symm.trans (show _ = none by decide +kernel)) (by simp)
  · rw [← Domain.getLast_dot]; decide +kernel
  · intro x hx
    have hx := (parseV4_iff _ x).2 hx
    exact absurd (hx.symm.trans (show _ = none by decide +kernel)) (by simp)
  · show ¬ LocalName _
    rw [← localName_iff]; decide +kernel
  · exact ⟨fun hs => absurd rfl hs.2, fun _ => rfl⟩

/-- C59 for `host` holds whenever the conversion does not turn another text into the text of an address. -/
theorem C59_host_partial (o : Opts) (idna : Idna) (hi : ∀ s a x, idna s = some a → a = V4.text x → s = V4.text x)
    (cs : List Char) (v : Value) (a : List UInt8) (h : parseStr o idna (strBytes cs) = .ok v) (hv : v.host = .domain a) : ∀ x : V4, a ≠ x.text := by
  obtain ⟨hp, ⟨x, hx, _⟩ | ⟨x, hx, _⟩ | ⟨d, b, hx, _, hn, hd, _⟩⟩ := (C37_host o idna cs v).1 h
  · rw [hx] at hv; cases hv
  · rw [hx] at hv; cases hv
  · rw [hx] at hv; cases hv
    intro x hx
    exact hn.2.2.2.2 x (hi _ _ _ hd hx)

/-- Conversions that satisfy the hypotheses of the two theorems. -/
example : ∃ idna : Idna, idna (strBytes "example.com。".toList) = some (ascii "example.com.") := ⟨fun _ => some (ascii "example.com."), rfl⟩
example : ∃ idna : Idna, idna (strBytes "１２７.0.0.1".toList) = some (ascii "127.0.0.1") := ⟨fun _ => some (ascii "127.0.0.1"), rfl⟩

/-! ## Errors -/

/-- The host texts an input can have: all of it, or what precedes the last colon. -/
def HostText (s d : List UInt8) : Prop := s = d ∧ asc ':' ∉ s ∨ ∃ u, s = d ++ ascii ":" ++ u ∧ asc ':' ∉ u

/-- `s` denotes a host for which `p` holds. -/
def Denotes (idna : Idna) (s : List UInt8) (p : Host → Prop) : Prop :=
  (∃ x q, V6Input s x q ∧ p (.ipv6 x)) ∨ ∃ d, HostText s d ∧ ((∃ x : V4, d = x.text ∧ p (.ipv4 x)) ∨ ∃ a, idna d = some a ∧ p (.domain a))

/-- C39 for the `host` validator, all errors but `AtLeastTwoLabelsDisallow`: such an error is only returned when the option
asks for it and its documented guarantee is true. -/
theorem C39_host_partial (o : Opts) (idna : Idna) (cs : List Char) (e : HostError) (h : parseStr o idna (strBytes cs) = .err e) :
    (e = .portMust → o.port = .must ∧ (∀ x n, ¬ V6Input (strBytes cs) x (some n)) ∧
      (asc ':' ∈ strBytes cs → (strBytes cs).head? = some (asc '[') ∨ ∃ x : V6, V6Text (strBytes cs) x.segs)) ∧
    (e = .portDisallow → o.port = .disallow ∧ (asc ':' ∈ strBytes cs ∨ (strBytes cs).head? = some (asc '[') ∧ (strBytes cs).getLast? ≠ some (asc ']'))) ∧
    (e = .localMust → o.loc = .must ∧ Denotes idna (strBytes cs) fun x => ¬ LocalHost x) ∧
    (e = .localDisallow → o.loc = .disallow ∧ Denotes idna (strBytes cs) LocalHost) ∧
    (e = .atLeastTwoLabelsMust → o.atl = .must ∧ ∃ d a, HostText (strBytes cs) d ∧ idna d = some a ∧ ¬ LocalName a ∧ ¬ ManyLabels a) ∧
    (e = .atLeastTwoLabelsDisallow → o.atl = .disallow) := by
  have hs : Str (strBytes cs) := ⟨cs, rfl⟩
  have ht : ∀ d u, Domain.Split (strBytes cs) d u → HostText (strBytes cs) d := by
    intro d u hsp
    cases u with
    | none => exact .inl hsp
    | some t => exact .inr ⟨t, by rw [hsp.1]; simp [ascii, asc], hsp.2⟩
  obtain ⟨h1, h2, h3, h4, h5, h6⟩ := parse_err o idna _ hs e (parseStr_err o idna _ hs e h)
  simp only [← Bool.not_eq_true, localName_iff, Ip.isLocalV4_iff, Ip.isLocalV6_iff] at h3 h4 h5 h6
  refine ⟨fun h => ⟨(h1 h).1, (h1 h).2.1, fun hc => (h1 h).2.2.resolve_right (not_not_intro hc)⟩, fun h => ?_, fun h => ⟨(h3 h).1, ?_⟩, fun h => ⟨(h4 h).1, ?_⟩, fun h => ⟨(h5 h).1, ?_⟩, fun h => (h6 h).1⟩
  · rcases h2 h with k | k
    · exact ⟨k.1, .inl k.2⟩
    · exact ⟨k.1, .inr k.2⟩
  · rcases (h3 h).2 with k | ⟨d, u, k, k'⟩
    · exact .inl k
    · exact .inr ⟨d, ht d u k, k'⟩
  · rcases (h4 h).2 with k | ⟨d, u, k, k'⟩
    · exact .inl k
    · exact .inr ⟨d, ht d u k, k'⟩
  · obtain ⟨d, u, k, a, k'⟩ := (h5 h).2
    exact ⟨d, a, ht d u k, k'⟩

/-- Missing from `C39_host_partial`: the guarantee of `AtLeastTwoLabelsDisallow`, that the domain part has at least two
labels, is false for IPv6 addresses and for a lone bracket. -/
theorem C39_host_violated : ∃ (o : Opts) (cs ds : List Char),
    parseStr o ldh (strBytes cs) = .err .atLeastTwoLabelsDisallow ∧ strBytes cs = ascii "[" ∧
    parseStr o ldh (strBytes ds) = .err .atLeastTwoLabelsDisallow ∧ strBytes ds = ascii "::1" :=
  ⟨⟨.allow, .allow, .disallow⟩, "[".toList, "::1".toList, by decide +kernel⟩

/-- When `AtLeastTwoLabelsDisallow` is returned, exactly: the input starts with a bracket or is an IPv6 address, or its host
text is an IPv4 address or a name of several labels that is not local. -/
theorem C39_labels_disallow_partial (o : Opts) (idna : Idna) (cs : List Char) (h : parseStr o idna (strBytes cs) = .err .atLeastTwoLabelsDisallow) :
    o.atl = .disallow ∧ ((strBytes cs).head? = some (asc '[') ∨ (∃ x : V6, V6Text (strBytes cs) x.segs) ∨
      ∃ d, HostText (strBytes cs) d ∧ ((∃ x : V4, d = x.text) ∨ ∃ a, idna d = some a ∧ ¬ LocalName a ∧ ManyLabels a)) := by
  have hs : Str (strBytes cs) := ⟨cs, rfl⟩
  obtain ⟨_, _, _, _, _, h6⟩ := parse_err o idna _ hs _ (parseStr_err o idna _ hs _ h)
  have h6 := h6 rfl
  simp only [← Bool.not_eq_true, localName_iff] at h6
  obtain ⟨ho, (h6 | h6) | ⟨d, u, hsp, h6⟩⟩ := h6
  · exact ⟨ho, .inl h6⟩
  · exact ⟨ho, .inr (.inl h6)⟩
  · refine ⟨ho, .inr (.inr ⟨d, ?_, h6⟩)⟩
    cases u with
    | none => exact .inl hsp
    | some t => exact .inr ⟨t, by rw [hsp.1]; simp [ascii, asc], hsp.2⟩

example : parseStr ⟨.must, .allow, .allow⟩ ldh (ascii "[2000::1]:80") = .err .localMust ∧
    parseStr ⟨.allow, .must, .allow⟩ ldh (ascii "::1") = .err .portMust ∧
    parseStr ⟨.allow, .disallow, .allow⟩ ldh (ascii "a.b:1") = .err .portDisallow ∧
    parseStr ⟨.allow, .disallow, .must⟩ ldh (ascii "ab") = .err .atLeastTwoLabelsMust ∧
    parseStr ⟨.allow, .disallow, .disallow⟩ ldh (ascii "a.b") = .err .atLeastTwoLabelsDisallow := by decide +kernel

end Verif.Props.Host
