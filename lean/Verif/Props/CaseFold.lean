import Verif.Spec.CaseFold
import Verif.Props.Boolean
import Verif.Props.Hex
import Verif.Props.Ip
import Verif.Props.Domain
import Verif.Props.Host
import Verif.Props.Email
import Verif.Props.Url

/-!
# C69: letter case
-/

namespace Verif.Props.CaseFold

open Verif.Spec Verif.Spec.CaseFold Verif.Spec.Ip Verif.Spec.Domain
open Verif.BaseN (strBytes)

/-! ## Texts -/

theorem same_symm {v w : List UInt8} (h : SameCase v w) : SameCase w v := Eq.symm h

theorem same_length {v w : List UInt8} (h : SameCase v w) : w.length = v.length := by
  have := congrArg List.length h
  simpa using this.symm

theorem same_append {a b w : List UInt8} (h : SameCase (a ++ b) w) : ∃ a' b', w = a' ++ b' ∧ SameCase a a' ∧ SameCase b b' := by
  unfold SameCase at h
  rw [List.map_append] at h
  obtain ⟨a', b', e, h1, h2⟩ := List.map_eq_append_iff.1 h.symm
  exact ⟨a', b', e, h1.symm, h2.symm⟩

theorem same_cons {b : UInt8} {a w : List UInt8} (h : SameCase (b :: a) w) : ∃ b' a', w = b' :: a' ∧ lowered b = lowered b' ∧ SameCase a a' := by
  cases w with
  | nil => simp [SameCase] at h
  | cons b' a' =>
    simp only [SameCase, List.map_cons, List.cons.injEq] at h
    exact ⟨b', a', rfl, h.1, h.2⟩

theorem append_same {a a' b b' : List UInt8} (h : SameCase a a') (k : SameCase b b') : SameCase (a ++ b) (a' ++ b') := by
  unfold SameCase at *
  rw [List.map_append, List.map_append, h, k]

theorem same_fixed {a w : List UInt8} (h : SameCase a w) (hc : ∀ b ∈ a, Caseless b) : w = a := by
  induction a generalizing w with
  | nil => cases w with
    | nil => rfl
    | cons => simp [SameCase] at h
  | cons b a ih =>
    obtain ⟨b', a', rfl, h1, h2⟩ := same_cons h
    rw [hc b (by simp) b' h1.symm, ih h2 fun c hc' => hc c (List.mem_cons_of_mem _ hc')]

theorem same_mem {a w : List UInt8} (h : SameCase a w) {c : UInt8} (hc : Caseless c) : c ∈ w → c ∈ a := by
  intro hm
  have : lowered c ∈ a.map lowered := by rw [h]; exact List.mem_map_of_mem hm
  obtain ⟨b, hb, e⟩ := List.mem_map.1 this
  rwa [hc b e] at hb

theorem caseless_of (c : UInt8) (h : lowered c = c) (h2 : ¬ (97 ≤ c.toNat ∧ c.toNat ≤ 122)) : Caseless c := by
  intro b hb
  rw [h] at hb
  unfold lowered at hb
  split at hb
  · rename_i hr
    have := congrArg UInt8.toNat hb
    simp at this
    omega
  · exact hb

theorem caseless_marks : ∀ c ∈ ascii ":.[]+0123456789(-", Caseless c := by
  intro c hc
  apply caseless_of
  · revert c; decide
  · revert c; decide

theorem caseless_digits {b : UInt8} (h : b ∈ IntV.decDigits) : Caseless b := by
  apply caseless_marks
  revert b
  decide

theorem quad_caseless (x : StdIp.V4) : ∀ b ∈ x.text, Caseless b := by
  intro b hb
  rcases Verif.Ip.text_bytes x b hb with h | rfl
  · exact caseless_digits h
  · exact caseless_marks _ (by decide)

theorem port_caseless {u : List UInt8} {n : Nat} (h : PortText u n) : ∀ b ∈ u, Caseless b := by
  obtain ⟨⟨ds, _, hd, h⟩, _⟩ := h
  rcases h with ⟨rfl | rfl, _⟩ | ⟨h, _⟩
  · exact fun b hb => caseless_digits (hd b hb)
  · intro b hb
    rcases List.mem_cons.1 hb with rfl | hb
    · exact caseless_marks _ (by decide)
    · exact caseless_digits (hd b hb)
  · cases h

/-! ## IP addresses -/

theorem digit_same (b c : UInt8) (h : lowered b = lowered c) (hb : b ∈ Hex.symbols .any) :
    c ∈ Hex.symbols .any ∧ Hex.digitValue c = Hex.digitValue b := by
  have t : ∀ c : UInt8, (c ∈ Hex.symbols .any ↔ lowered c ∈ Hex.symbols .lower) ∧ (c ∈ Hex.symbols .any → Hex.digitValue c = Hex.digitValue (lowered c)) := by
    apply BaseN.forall_uint8; decide +kernel
  have hc : c ∈ Hex.symbols .any := by rw [(t c).1, ← h, ← (t b).1]; exact hb
  exact ⟨hc, by rw [(t c).2 hc, ← h, (t b).2 hb]⟩

theorem value_same {ds ds' : List UInt8} (h : SameCase ds ds') (hd : ∀ b ∈ ds, b ∈ Hex.symbols .any) :
    (∀ b ∈ ds', b ∈ Hex.symbols .any) ∧ Hex.value ds' = Hex.value ds := by
  induction ds generalizing ds' with
  | nil => rw [same_fixed h (by simp)]; simp
  | cons b ds ih =>
    obtain ⟨c, ds', rfl, h1, h2⟩ := same_cons h
    obtain ⟨g1, g2⟩ := digit_same b c h1 (hd b (by simp))
    obtain ⟨g3, g4⟩ := ih h2 fun x hx => hd x (List.mem_cons_of_mem _ hx)
    refine ⟨?_, by rw [Hex.value, Hex.value, g2, g4, same_length h2]⟩
    intro x hx
    rcases List.mem_cons.1 hx with rfl | hx
    · exact g1
    · exact g3 x hx

theorem group_same {t t' : List UInt8} {g : Nat} (h : SameCase t t') (hg : Group t g) : Group t' g := by
  obtain ⟨h1, h2, h3, h4⟩ := hg
  obtain ⟨k1, k2⟩ := value_same h h3
  have := same_length h
  refine ⟨?_, by omega, k1, by rw [k2, h4]⟩
  rintro rfl
  apply h1
  apply List.length_eq_zero_iff.1
  rw [← this]; rfl

theorem colon_same {w : List UInt8} (h : SameCase (ascii ":") w) : w = ascii ":" :=
  same_fixed h fun b hb => caseless_marks b (by revert b; decide)

theorem groups_same {q : Bool} {t t' : List UInt8} {gs : List Nat} (h : SameCase t t') (hg : Groups q t gs) : Groups q t' gs := by
  induction hg generalizing t' with
  | group hg => exact .group (group_same h hg)
  | @quad a b c d ha hb hc hd =>
    have e : dotted a b c d = (⟨a.toUInt8, b.toUInt8, c.toUInt8, d.toUInt8⟩ : StdIp.V4).text := by
      simp only [StdIp.V4.text]
      congr 1 <;> simp <;> omega
    rw [same_fixed h (by rw [e]; exact quad_caseless _)]
    exact .quad ha hb hc hd
  | cons hg _ ih =>
    obtain ⟨x, r', rfl, h1, h2⟩ := same_append h
    obtain ⟨a', b', rfl, h3, h4⟩ := same_append h1
    rw [colon_same h4]
    exact .cons (group_same h3 hg) (ih h2)

theorem groups0_same {q : Bool} {t t' : List UInt8} {gs : List Nat} (h : SameCase t t') (hg : Groups0 q t gs) : Groups0 q t' gs := by
  rcases hg with ⟨rfl, hg⟩ | hg
  · exact .inl ⟨same_fixed h (by simp), hg⟩
  · exact .inr (groups_same h hg)

theorem v6Text_same {s s' : List UInt8} {segs : List Nat} (h : SameCase s s') (hs : V6Text s segs) : V6Text s' segs := by
  rcases hs with ⟨q, hg, hl⟩ | ⟨q, a, b, as, bs, rfl, h1, h2, h3⟩
  · exact .inl ⟨q, groups_same h hg, hl⟩
  · obtain ⟨x, b', rfl, k1, k2⟩ := same_append h
    obtain ⟨a', y, rfl, k3, k4⟩ := same_append k1
    rw [same_fixed k4 fun b hb => caseless_marks b (by revert b; decide)]
    exact .inr ⟨q, a', b', as, bs, rfl, groups0_same k3 h1, groups0_same k2 h2, h3⟩

theorem v4Input_same {s s' : List UInt8} {x : StdIp.V4} {p : Option Nat} (h : SameCase s s') (hs : V4Input s x p) : s' = s := by
  cases p with
  | none => rw [V4Input] at hs; subst hs; exact same_fixed h (quad_caseless x)
  | some n =>
    obtain ⟨u, rfl, hu⟩ := hs
    apply same_fixed h
    intro b hb
    simp only [List.mem_append] at hb
    rcases hb with (hb | hb) | hb
    · exact quad_caseless x b hb
    · exact caseless_marks b (by revert b; decide)
    · exact port_caseless hu b hb

theorem v6Input_same {s s' : List UInt8} {x : StdIp.V6} {p : Option Nat} (h : SameCase s s') (hs : V6Input s x p) : V6Input s' x p := by
  cases p with
  | none =>
    rcases hs with hs | ⟨t, rfl, ht⟩
    · exact .inl (v6Text_same h hs)
    · obtain ⟨y, b', rfl, k1, k2⟩ := same_append h
      obtain ⟨a', t', rfl, k3, k4⟩ := same_append k1
      rw [same_fixed k3 fun b hb => caseless_marks b (by revert b; decide), same_fixed k2 fun b hb => caseless_marks b (by revert b; decide)]
      exact .inr ⟨t', rfl, v6Text_same k4 ht⟩
  | some n =>
    obtain ⟨t, u, rfl, ht, hu⟩ := hs
    obtain ⟨y, u', rfl, k1, k2⟩ := same_append h
    obtain ⟨z, b', rfl, k3, k4⟩ := same_append k1
    obtain ⟨a', t', rfl, k5, k6⟩ := same_append k3
    rw [same_fixed k5 fun b hb => caseless_marks b (by revert b; decide), same_fixed k4 fun b hb => caseless_marks b (by revert b; decide),
      same_fixed k2 (port_caseless hu)]
    exact ⟨t', u, rfl, v6Text_same k6 ht, hu⟩

/-- C69, `ip`, `ipv4` and `ipv6`: two texts that differ in letter case only give the same address and port. -/
theorem C69_ip (loc port : TriAllow) (cs cs' : List Char) (h : SameCase (strBytes cs) (strBytes cs')) (p : Option Nat) :
    (∀ x, Ip.parseStr Ip.parseIpv4 loc port (strBytes cs) = .ok (x, p) → Ip.parseStr Ip.parseIpv4 loc port (strBytes cs') = .ok (x, p)) ∧
    (∀ x, Ip.parseStr Ip.parseIpv6 loc port (strBytes cs) = .ok (x, p) → Ip.parseStr Ip.parseIpv6 loc port (strBytes cs') = .ok (x, p)) ∧
    (∀ x, Ip.parseStr Ip.parseIp loc port (strBytes cs) = .ok (x, p) → Ip.parseStr Ip.parseIp loc port (strBytes cs') = .ok (x, p)) := by
  refine ⟨?_, ?_, ?_⟩
  · intro x
    rw [Props.Ip.C28_parse, Props.Ip.C28_parse]
    rintro ⟨h1, h2⟩
    rw [v4Input_same h h1]
    exact ⟨h1, h2⟩
  · intro x
    rw [Props.Ip.C29_parse, Props.Ip.C29_parse]
    exact fun ⟨h1, h2⟩ => ⟨v6Input_same h h1, h2⟩
  · intro x
    rw [Props.Ip.C30_parse, Props.Ip.C30_parse]
    cases x with
    | v4 x =>
      rintro ⟨h1, h2⟩
      rw [v4Input_same h h1]
      exact ⟨h1, h2⟩
    | v6 x => exact fun ⟨h1, h2⟩ => ⟨v6Input_same h h1, h2⟩

example : SameCase (strBytes "[FE80::aB]:80".toList) (strBytes "[fe80::Ab]:80".toList) ∧
    (Ip.parseStr Ip.parseIpv6 .must .must (strBytes "[FE80::aB]:80".toList)).IsOk := by decide +kernel

/-! ## `boolean`, `uuid` and `mac_address` -/

/-- C69, `boolean`: the same outcome. -/
theorem C69_boolean (v w : List UInt8) (h : SameCase v w) : Boolean.parseStr v = Boolean.parseStr w := by
  have e : Spec.Boolean.lower = lowered := by
    funext b
    have : ∀ b, Spec.Boolean.lower b = lowered b := by apply BaseN.forall_uint8; decide +kernel
    exact this b
  obtain ⟨a1, a2, a3, a4⟩ := Props.Boolean.C22_words v
  obtain ⟨b1, b2, b3, b4⟩ := Props.Boolean.C22_words w
  rw [e] at a1 a2 a3 b1 b2 b3
  rw [← h] at b1 b2 b3
  cases hv : Boolean.parseStr v with
  | ok x =>
    rw [hv] at a1 a2
    cases x with
    | true => exact (b1.2 (a1.1 rfl)).symm
    | false => exact (b2.2 (a2.1 rfl)).symm
  | err x => rw [hv] at a3; exact (b3.2 (a3.1 rfl)).symm
  | panic => exact absurd hv a4

example : SameCase (ascii "TruE") (ascii "tRUe") ∧ Boolean.parseStr (ascii "TruE") = .ok true := by decide

/-- The separator, if there is one, is no letter. -/
def PlainSeparator : SeparatorOption → Prop
  | .allow s => Caseless s ∧ s ∉ Hex.symbols .any
  | .must s => Caseless s
  | .disallow => True

theorem grouped_same (sep : SeparatorOption) (hs : PlainSeparator sep) (ns : List Nat) (ds v w : List UInt8) (h : SameCase v w)
    (hg : Hex.Grouped sep ns ds v) : ∃ ds', SameCase ds ds' ∧ Hex.Grouped sep ns ds' w := by
  have between : ∀ s s', SameCase s s' → Hex.Between sep s → s' = s := by
    intro s s' h hb
    apply same_fixed h
    intro b hm
    cases sep with
    | must c => rw [Hex.Between] at hb; subst hb; simp at hm; subst hm; exact hs
    | disallow => rw [Hex.Between] at hb; subst hb; simp at hm
    | allow c =>
      rcases hb with rfl | rfl
      · simp at hm
      · simp at hm; subst hm; exact hs.1
  induction ns generalizing ds v w with
  | nil =>
    obtain ⟨rfl, rfl⟩ := hg
    exact ⟨[], rfl, rfl, same_fixed h (by simp)⟩
  | cons n ns ih =>
    cases ns with
    | nil =>
      obtain ⟨rfl, rfl⟩ := hg
      exact ⟨w, h, same_length h, rfl⟩
    | cons m ns =>
      obtain ⟨g, ds', s, v', h1, rfl, rfl, h2, h3⟩ := hg
      obtain ⟨x, v'', rfl, k1, k2⟩ := same_append h
      obtain ⟨g', s', rfl, k3, k4⟩ := same_append k1
      obtain ⟨ds'', k5, k6⟩ := ih ds' v' v'' k2 h3
      rw [between s s' k4 h2]
      exact ⟨g' ++ ds'', append_same k3 k5, g', ds'', s, v'', by rw [same_length k3, h1], rfl, rfl, h2, k6⟩

theorem denotes_same (sep : SeparatorOption) (hs : PlainSeparator sep) (sizes : List Nat) (v w : List UInt8) (n : Nat) (h : SameCase v w)
    (hd : Hex.Denotes sep .any sizes v n) : Hex.Denotes sep .any sizes w n := by
  obtain ⟨ds, hg, hm, hv⟩ := hd
  obtain ⟨ds', h1, h2⟩ := grouped_same sep hs sizes ds v w h hg
  obtain ⟨h3, h4⟩ := value_same h1 hm
  exact ⟨ds', h2, h3, by rw [h4, hv]⟩

/-- C69, `uuid` and `mac_address` with `case(Any)`: the same value. The separator is no letter. -/
theorem C69_hex (sep : SeparatorOption) (hs : PlainSeparator sep) (v w : List UInt8) (h : SameCase v w) (n : Nat) :
    (Uuid.parseStr sep .any v = .ok n → Uuid.parseStr sep .any w = .ok n) ∧
    (Mac.parseStr sep .any v = .ok n → Mac.parseStr sep .any w = .ok n) := by
  have hn : ∀ s, sep = .allow s → s ∉ Hex.symbols .any := by rintro s rfl; exact hs.2
  rw [Props.Hex.C08_uuid_language sep .any hn, Props.Hex.C08_uuid_language sep .any hn,
    Props.Hex.C11_mac_language sep .any hn, Props.Hex.C11_mac_language sep .any hn]
  exact ⟨denotes_same sep hs _ v w n h, denotes_same sep hs _ v w n h⟩

example : PlainSeparator (.allow (asc '-')) ∧ SameCase (ascii "aB-00-00-00-00-0f") (ascii "Ab-00-00-00-00-0F") ∧
    Mac.parseStr (.allow (asc '-')) .any (ascii "aB-00-00-00-00-0f") = .ok 0xab000000000f :=
  ⟨⟨caseless_marks _ (by decide), by decide⟩, by decide, by decide⟩

/-! ## `domain` and `host` -/

theorem no_final_dot {d d' : List UInt8} (h : SameCase d d') (hd : ¬ ∃ c, d = c ++ ascii ".") : ¬ ∃ c, d' = c ++ ascii "." := by
  rintro ⟨c, rfl⟩
  obtain ⟨a, b, rfl, _, k⟩ := same_append (same_symm h)
  exact hd ⟨a, by rw [same_fixed k fun b hb => caseless_marks b (by revert b; decide)]⟩

theorem no_bracket {d d' : List UInt8} (h : SameCase d d') (hd : d.head? ≠ some (asc '[')) : d'.head? ≠ some (asc '[') := by
  cases d with
  | nil => rw [same_fixed h (by simp)]; exact hd
  | cons b d =>
    obtain ⟨c, d', rfl, k, _⟩ := same_cons h
    intro e
    simp only [List.head?_cons, Option.some.injEq] at e
    subst e
    rw [caseless_marks _ (by decide) b k] at hd
    exact hd rfl

theorem nonempty_same {d d' : List UInt8} (h : SameCase d d') (hd : d ≠ []) : d' ≠ [] := by
  rintro rfl
  exact hd (same_fixed (same_symm h) (by simp))

theorem hostPort_same {s s' d : List UInt8} {p : Option Nat} (h : SameCase s s') (hp : HostPort s d p) :
    ∃ d', HostPort s' d' p ∧ SameCase d d' ∧ ((∀ b ∈ d, Caseless b) → s' = s) := by
  cases p with
  | none =>
    obtain ⟨rfl, hc⟩ := hp
    exact ⟨s', ⟨rfl, fun hm => hc (same_mem h (caseless_marks _ (by decide)) hm)⟩, h, same_fixed h⟩
  | some n =>
    obtain ⟨u, rfl, hu⟩ := hp
    obtain ⟨x, u', rfl, k1, k2⟩ := same_append h
    obtain ⟨d', c, rfl, k3, k4⟩ := same_append k1
    rw [colon_same k4, same_fixed k2 (port_caseless hu)]
    exact ⟨d', ⟨u, rfl, hu⟩, k3, fun hc => by rw [same_fixed k3 hc]⟩

theorem quadDot_caseless {d : List UInt8} {x : StdIp.V4} (h : QuadDot d x) : ∀ b ∈ d, Caseless b := by
  intro b hb
  rcases h with rfl | rfl
  · exact quad_caseless x b hb
  · rcases List.mem_append.1 hb with hb | hb
    · exact quad_caseless x b hb
    · exact caseless_marks b ((by decide : ∀ b ∈ ascii ".", b ∈ ascii ":.[]+0123456789(-") b hb)

/-- C69, `domain`: the same value, if IDNA does not depend on letter case. -/
theorem C69_domain (o : Domain.Opts) (idna : Domain.Idna) (hi : IdnaCase idna) (cs cs' : List Char)
    (h : SameCase (strBytes cs) (strBytes cs')) (v : Domain.Value) (hv : Domain.parseStr o idna (strBytes cs) = .ok v) :
    Domain.parseStr o idna (strBytes cs') = .ok v := by
  rw [Props.Domain.C58_domain] at hv ⊢
  obtain ⟨h0, d, h1, h2, h3⟩ := hv
  obtain ⟨d', k1, k2, k3⟩ := hostPort_same h h1
  rcases h3 with ⟨h3, x, h4⟩ | h3
  · have e := k3 (quadDot_caseless h4.2.1)
    rw [e]
    exact ⟨h0, d, h1, h2, .inl ⟨h3, x, h4⟩⟩
  · refine ⟨nonempty_same h h0, d', k1, h2, .inr ⟨?_, h3.2.1, ?_, h3.2.2.2⟩⟩
    · rcases h3.1 with hp | hq
      · exact .inl hp
      · refine .inr fun x hx => hq x ?_
        rw [same_fixed (same_symm k2) (quadDot_caseless hx)]
        exact hx
    · rw [← hi d d' k2]; exact h3.2.2.1

/-- C69, `host`: the same value, if IDNA does not depend on letter case. -/
theorem C69_host (o : Host.Opts) (idna : Domain.Idna) (hi : IdnaCase idna) (cs cs' : List Char)
    (h : SameCase (strBytes cs) (strBytes cs')) (v : Host.Value) (hv : Host.parseStr o idna (strBytes cs) = .ok v) :
    Host.parseStr o idna (strBytes cs') = .ok v := by
  rw [Props.Host.C37_host] at hv ⊢
  obtain ⟨h0, h1 | h1 | h1⟩ := hv
  · obtain ⟨x, g1, g2, g3⟩ := h1
    exact ⟨h0, .inl ⟨x, g1, v6Input_same h g2, g3⟩⟩
  · obtain ⟨x, g1, g2, g3⟩ := h1
    have e := v4Input_same h g2
    rw [e]
    exact ⟨h0, .inr (.inl ⟨x, g1, g2, g3⟩)⟩
  · obtain ⟨d, a, g1, g2, ⟨n1, n2, n3, n4, n5⟩, g3, g4⟩ := h1
    obtain ⟨d', k1, k2, k3⟩ := hostPort_same h g2
    refine ⟨h0, .inr (.inr ⟨d', a, g1, k1, ⟨nonempty_same h n1, no_bracket h n2, ?_, no_final_dot k2 n4, ?_⟩, ?_, g4⟩)⟩
    · exact fun x hx => n3 x (v6Text_same (same_symm h) hx)
    · rintro x rfl
      exact n5 x (same_fixed (same_symm k2) (quad_caseless x))
    · rw [← hi d d' k2]; exact g3

/-- The sample IDNA conversion does not depend on letter case. -/
theorem ldh_case : IdnaCase Domain.ldh := by
  intro d e h
  unfold SameCase at h
  unfold Domain.ldh
  rw [h]

example : SameCase (strBytes "WWW.Example.com:80".toList) (strBytes "www.eXample.COM:80".toList) ∧
    (Domain.parseStr ⟨.disallow, .disallow, .must, .must⟩ Domain.ldh (strBytes "WWW.Example.com:80".toList)).IsOk ∧
    (Host.parseStr ⟨.disallow, .must, .must⟩ Domain.ldh (strBytes "WWW.Example.com:80".toList)).IsOk := by decide +kernel

/-! ## `email` -/

/-- C69 for `email`, the full statement: the case of the host does not matter. -/
def C69_email (o : Email.Opts) (idna : Domain.Idna) (cs cs' : List Char) (v : Email.Value) (q : Bool) (t h tail h' : List UInt8) : Prop :=
  Email.Denotes o idna (strBytes cs) v q t h tail → SameCase h h' →
    strBytes cs' = Email.comment v.comment1 ++ Email.quote q v.text ++ Email.comment v.comment2 ++ ascii "@" ++
      (Email.comment v.comment3 ++ h' ++ tail) → Email.parseStr o idna (strBytes cs') = .ok v

/-- C69 for `email`, if the tag of an IPv6 address is written `IPv6`. Missing: other cases of the tag, which are refused, see
`C69_email_violated`. -/
theorem C69_email_partial (o : Email.Opts) (idna : Domain.Idna) (hi : IdnaCase idna) (cs cs' : List Char) (v : Email.Value) (q : Bool)
    (t h tail h' : List UInt8) (hx : ∀ x, v.host = .ipv6 x → ascii "[IPv6:" <+: h') : C69_email o idna cs cs' v q t h tail h' := by
  intro hd hh hs
  have hl := same_length hh
  have ht : (Email.comment v.comment3 ++ h' ++ tail).length = t.length := by
    rw [hd.domainText.text]; simp only [List.length_append]; omega
  rw [Props.Email.C62_email]
  refine ⟨q, _, h', tail, hs, ?_, hd.localText, hd.comment2, hd.needQuoted, ⟨rfl, hd.domainText.closed, hd.domainText.allowed, ?_,
    hd.domainText.ok, hd.domainText.after, ?_, ?_⟩, hd.isLocal⟩
  · have h1 := hd.short
    have h2 := congrArg List.length hd.text
    have h3 := congrArg List.length hs
    simp only [List.length_append] at h2 h3 ht
    omega
  · have hH := hd.domainText.host
    generalize v.host = x at hH hx
    cases hH with
    | @ipv4 x =>
      rw [same_fixed hh ?_]
      · exact .ipv4
      · intro b hb
        simp only [List.mem_append] at hb
        rcases hb with (hb | hb) | hb
        · exact caseless_marks b (by revert b; decide)
        · exact quad_caseless x b hb
        · exact caseless_marks b (by revert b; decide)
    | @ipv6 u x hu =>
      obtain ⟨y, b', rfl, k1, k2⟩ := same_append hh
      obtain ⟨a', u', rfl, k3, k4⟩ := same_append k1
      rw [same_fixed k2 fun b hb => caseless_marks b (by revert b; decide)] at hx ⊢
      have : a' = ascii "[IPv6:" := by
        obtain ⟨r, hr⟩ := hx x rfl
        rw [List.append_assoc] at hr
        exact (List.append_inj hr (by rw [same_length k3])).1.symm
      rw [this]
      exact .ipv6 (v6Text_same k4 hu)
    | domain g1 g2 g3 g4 g5 =>
      exact .domain (nonempty_same hh g1) (no_bracket hh g2) (fun hm => g3 (same_mem hh (caseless_marks _ (by decide)) hm))
        (no_final_dot hh g4) (by rw [← hi _ _ hh]; exact g5)
  · rw [ht]; exact hd.domainText.short
  · have := hd.domainText.printed
    rwa [hl]

/-- C69 for `email` exactly: the host of an accepted address may be written in any case, and nothing else changes, unless it is an
IPv6 address whose tag is not `IPv6`. -/
theorem C69_email_exact_partial (o : Email.Opts) (idna : Domain.Idna) (hi : IdnaCase idna) (cs cs' : List Char) (v : Email.Value) (q : Bool)
    (t h tail h' : List UInt8) (hd : Email.Denotes o idna (strBytes cs) v q t h tail) (hh : SameCase h h')
    (hs : strBytes cs' = Email.comment v.comment1 ++ Email.quote q v.text ++ Email.comment v.comment2 ++ ascii "@" ++
      (Email.comment v.comment3 ++ h' ++ tail)) :
    Email.parseStr o idna (strBytes cs') = .ok v ↔ ∀ x, v.host = .ipv6 x → ascii "[IPv6:" <+: h' := by
  refine ⟨?_, fun hx => C69_email_partial o idna hi cs cs' v q t h tail h' hx hd hh hs⟩
  intro hp x hx
  obtain ⟨q', t', k, tail', hd'⟩ := (Props.Email.C62_email o idna cs' v).1 hp
  have h6 : ∀ g, Email.HostText idna g v.host → ∃ u, g = ascii "[IPv6:" ++ u := by
    rw [hx]
    intro g hg
    cases hg with
    | ipv6 _ => exact ⟨_, List.append_assoc ..⟩
  obtain ⟨u, rfl⟩ := h6 _ hd.domainText.host
  obtain ⟨w, rfl⟩ := h6 _ hd'.domainText.host
  have e := hs.symm.trans hd'.text
  rw [hd'.domainText.text] at e
  have ne : v.text ≠ [] := by
    cases q
    · exact (hd.localText.unquoted rfl).1.1
    · exact (hd.localText.quoted rfl).1.1
  have hq : q = q' := by
    obtain ⟨b, r, hb⟩ := List.exists_cons_of_ne_nil ne
    have nq := Email.text_head o _ q _ hd.localText
    simp only [List.append_assoc] at e
    have e := congrArg List.head? (List.append_cancel_left e)
    cases q <;> cases q' <;> simp [Email.quote, hb, ascii] at e nq ⊢
    · exact nq e
    · exact nq e.symm
  subst hq
  simp only [List.append_assoc] at e
  have e := List.append_cancel_left (List.append_cancel_left (List.append_cancel_left (List.append_cancel_left (List.append_cancel_left e))))
  have hl := same_length hh
  refine List.prefix_of_prefix_length_le (l₃ := h' ++ tail) ⟨w ++ tail', ?_⟩ (List.prefix_append ..) ?_
  · exact e.symm
  · rw [hl]; simp

example : ∃ q t h tail, Email.Denotes Props.Email.free Domain.ldh (strBytes "a@Example.com".toList)
    ⟨ascii "a", false, .domain (ascii "example.com"), none, none, none, none, none⟩ q t h tail :=
  (Props.Email.C62_email _ _ _ _).1 (by decide +kernel)

/-- C69 fails for `email`: `a@[ipv6:::1]` is refused, and `a@[IPv6:::1]` is accepted. -/
theorem C69_email_violated : ∃ v q t h tail h',
    Email.Denotes Props.Email.free Domain.ldh (strBytes "a@[IPv6:::1]".toList) v q t h tail ∧
    ¬ C69_email Props.Email.free Domain.ldh "a@[IPv6:::1]".toList "a@[ipv6:::1]".toList v q t h tail h' := by
  have x6 : V6Text (ascii "::1") [0, 0, 0, 0, 0, 0, 0, 1] :=
    .inr ⟨false, [], ascii "1", [], [1], rfl, .inl ⟨rfl, rfl, rfl⟩, .inr (.group ⟨by decide, by decide, by decide, by decide⟩), by decide, by decide⟩
  have den : Email.Denotes Props.Email.free Domain.ldh (strBytes "a@[IPv6:::1]".toList)
      ⟨ascii "a", false, .ipv6 ⟨0, 0, 0, 0, 0, 0, 0, 1⟩, none, none, none, none, none⟩ false
      (ascii "[IPv6:" ++ ascii "::1" ++ ascii "]") (ascii "[IPv6:" ++ ascii "::1" ++ ascii "]") [] := by
    refine ⟨by decide, by decide, ⟨?_, ?_, ?_, ?_, ?_⟩, ⟨?_, ?_⟩, by simp, ⟨by decide, ?_, ?_, (.ipv6 x6 : Email.HostText Domain.ldh _ (.ipv6 ⟨0, 0, 0, 0, 0, 0, 0, 1⟩)), ⟨?_, ?_, ?_⟩, ⟨?_, ?_, [], rfl, fun _ => rfl⟩,
      by decide, .inl (by decide +kernel)⟩, ?_, ?_⟩
    · intro t h; cases h
    · intro h; exact absurd rfl h
    · intro c h; cases h
    · intro _
      refine ⟨⟨by decide, by decide, ?_, by decide⟩, ?_⟩
      · intro b hb
        exact .inl ((by decide : ∀ b ∈ ascii "a", b ∈ Email.atext) b hb)
      · intro i b hi he
        rw [show i = 64 by simpa [Email.comment] using he] at hi
        cases hi
    · intro h; cases h
    · intro t h; cases h
    · intro h; exact absurd rfl h
    · intro t h; cases h
    · intro h; exact absurd rfl h
    · decide
    · decide
    · trivial
    · intro t h; cases h
    · intro h; exact absurd rfl h
    · intro h; exact absurd rfl h.2
    · intro _; rfl
  refine ⟨_, _, _, _, _, ascii "[ipv6:::1]", den, ?_⟩
  intro h
  have k := h den (by decide) (by decide)
  have : Email.parseStr Props.Email.free Domain.ldh (strBytes "a@[ipv6:::1]".toList) = .err .invalid := by decide +kernel
  rw [this] at k
  cases k

/-! ## URLs -/

theorem scheme_same (v w scheme : List UInt8) (h : SameCase v w) : Url.HasScheme scheme v ↔ Url.HasScheme scheme w := by
  have one : ∀ v w, SameCase v w → Url.HasScheme scheme v → Url.HasScheme scheme w := by
    rintro v w h ⟨a, r, rfl, ha⟩
    obtain ⟨a', x, rfl, k1, k2⟩ := same_append h
    obtain ⟨c, r', rfl, k3, _⟩ := same_cons k2
    rw [caseless_marks (asc ':') (by decide) c k3.symm]
    exact ⟨a', r', rfl, by rw [← ha]; exact k1.symm⟩
  exact ⟨one v w h, one w v (same_symm h)⟩

/-- C69, `http_url` and `http_ftp_url`: the whole outcome, with the protocol, is the same if the URL library reads the two
texts alike. -/
theorem C69_url {U : Type} (lib : Url.Lib U) (loc : TriAllow) (v w : List UInt8) (h : SameCase v w) (hp : lib.parse v = lib.parse w) :
    Url.parseHttp lib loc v = Url.parseHttp lib loc w ∧ Url.parseHttpFtp lib loc v = Url.parseHttpFtp lib loc w := by
  have rest : ∀ {β : Type} (b : β), Url.rest lib loc v b = Url.rest lib loc w b := by
    intro β b
    unfold Url.rest
    rw [hp]
  constructor
  · rcases Url.parseHttp_eq lib loc v with ⟨e, k⟩ | ⟨e, k⟩ | ⟨e, k1, k2⟩ <;>
      rcases Url.parseHttp_eq lib loc w with ⟨e', k'⟩ | ⟨e', k'⟩ | ⟨e', k1', k2'⟩
    · rw [e, e', rest]
    · exact absurd (Url.scheme_unique .http .https w ((scheme_same v w _ h).1 k) k') (by decide)
    · exact absurd ((scheme_same v w _ h).1 k) k1'
    · exact absurd (Url.scheme_unique .https .http w ((scheme_same v w _ h).1 k) k') (by decide)
    · rw [e, e', rest]
    · exact absurd ((scheme_same v w _ h).1 k) k2'
    · exact absurd ((scheme_same v w _ h).2 k') k1
    · exact absurd ((scheme_same v w _ h).2 k') k2
    · rw [e, e']
  · rcases Url.parseHttpFtp_eq lib loc v with ⟨p, e, k⟩ | ⟨e, k⟩ <;> rcases Url.parseHttpFtp_eq lib loc w with ⟨p', e', k'⟩ | ⟨e', k'⟩
    · rw [e, e', rest, Url.scheme_unique p p' w ((scheme_same v w _ h).1 k) k']
    · exact absurd ((scheme_same v w _ h).1 k) (k' p)
    · exact absurd ((scheme_same v w _ h).2 k') (k p')
    · rw [e, e']

/-- C69: letter case does not decide whether the protocol is accepted. -/
theorem C69_protocol {U : Type} (lib : Url.Lib U) (contract : Url.HostsPresent lib) (loc : TriAllow) (v w : List UInt8) (h : SameCase v w) :
    (Url.parseHttp lib loc v = .err .protocolError ↔ Url.parseHttp lib loc w = .err .protocolError) ∧
    (Url.parseHttpFtp lib loc v = .err .protocolError ↔ Url.parseHttpFtp lib loc w = .err .protocolError) := by
  rw [(Props.Url.C46_http lib contract loc v).2.1, (Props.Url.C46_http lib contract loc w).2.1,
    (Props.Url.C46_http_ftp lib contract loc v).2.1, (Props.Url.C46_http_ftp lib contract loc w).2.1]
  exact ⟨forall_congr' fun b => not_congr (scheme_same v w _ h), forall_congr' fun b => not_congr (scheme_same v w _ h)⟩

example : ∃ lib : Url.Lib Unit, Url.HostsPresent lib ∧ lib.parse (ascii "HTTP://localhost") = lib.parse (ascii "http://LOCALhost") ∧
    SameCase (ascii "HTTP://localhost") (ascii "http://LOCALhost") ∧
    Url.parseHttp lib .must (ascii "http://LOCALhost") = .ok ((), false) :=
  ⟨⟨fun _ => some (), fun _ => some (.domain (ascii "localhost"))⟩, fun _ _ _ _ _ => ⟨_, rfl⟩, rfl, by decide, by decide⟩

end Verif.Props.CaseFold
