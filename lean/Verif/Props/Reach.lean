import Verif.Props.BaseN
import Verif.Props.Domain
import Verif.Props.Float
import Verif.Props.Hex
import Verif.Props.HostText
import Verif.Props.Ip
import Verif.Props.Range

/-!
# C94: every value has a text

Which values the validators can return: for every value that the type and the options admit there is a string that is read as it,
and there is none for the others.
-/

namespace Verif.Props.Reach

open _root_.Verif.BaseN (strBytes)
open Verif.StdIp

/-! ## UUIDs and MAC addresses -/

section

open Verif.Spec.Hex

/-- Digits can be written in groups, with any separator option. -/
theorem cut_exists (sep : SeparatorOption) : ∀ (sizes : List Nat) (ds : List UInt8), ds.length = sizes.sum → ∃ text, Cut sep sizes ds text
  | [], ds, h => ⟨[], by simpa using h, rfl⟩
  | [n], ds, h => ⟨ds, by simpa using h, rfl⟩
  | n :: m :: ns, ds, h => by
    simp only [List.sum_cons] at h
    obtain ⟨text, ht⟩ := cut_exists sep (m :: ns) (ds.drop n) (by simp; omega)
    obtain ⟨s, hs⟩ : ∃ s, Taken sep s text := by
      cases sep with
      | must c => exact ⟨[c], rfl⟩
      | disallow => exact ⟨[], rfl⟩
      | allow c => exact ⟨[c], .inl rfl⟩
    exact ⟨ds.take n ++ s ++ text, ds.take n, ds.drop n, s, text, by simp; omega, by simp, rfl, hs, ht⟩

/-- Every number of `w` digits has a text, in any case and with any separator. -/
theorem reads_exists (sep : SeparatorOption) (case : CaseOption) (sizes : List Nat) (w : Nat) (hw : sizes.sum = w) (h0 : 0 < w) (h1 : w ≤ 32) (n : Nat)
    (hn : n < 16 ^ w) : ∃ v, Reads sep case sizes v n := by
  obtain ⟨a, b, c⟩ := Verif.Hex.fmtHex_spec case w n h0 h1 hn
  obtain ⟨text, ht⟩ := cut_exists sep sizes _ (a.trans hw.symm)
  exact ⟨text, _, ht, b, c⟩

/-- C94 for `uuid`: the values are the numbers of 128 bits, whatever the case and the separator. -/
theorem C94_uuid (sep : SeparatorOption) (case : CaseOption) (n : Nat) : (∃ v, Uuid.parseStr sep case v = .ok n) ↔ n < 2 ^ 128 := by
  constructor
  · rintro ⟨v, h⟩
    exact Hex.C08_uuid_value_bound sep case v n h
  · intro h
    obtain ⟨v, hv⟩ := reads_exists sep case uuidSizes 32 (by decide) (by decide) (by decide) n (by simpa using h)
    exact ⟨v, (Hex.C08_uuid_exact sep case v n).2 hv⟩

/-- C94 for `mac_address`: the values are the numbers of 48 bits. -/
theorem C94_mac (sep : SeparatorOption) (case : CaseOption) (n : Nat) : (∃ v, Mac.parseStr sep case v = .ok n) ↔ n < 2 ^ 48 := by
  constructor
  · rintro ⟨v, h⟩
    exact Hex.C11_mac_value_bound sep case v n h
  · intro h
    obtain ⟨v, hv⟩ := reads_exists sep case macSizes 12 (by decide) (by decide) (by decide) n (by simpa using h)
    exact ⟨v, (Hex.C11_mac_exact sep case v n).2 hv⟩

/-- The last UUID, with a separator that is one of its digits. -/
example : ∃ v, Uuid.parseStr (.allow (asc 'f')) .lower v = .ok (2 ^ 128 - 1) := (C94_uuid _ _ _).2 (by decide)

end

/-! ## Bytes -/

section

open Verif.Spec.BaseN

/-- C94 for the decoding validators of Base32, Base64 and URL-safe Base64: every value but the empty one, with any padding option. -/
theorem C94_bytes (K : BaseN.Kind) (pad : TriAllow) (d : List UInt8) : (∃ v, Verif.BaseN.decodedParse K.encoding pad v = .ok d) ↔ d ≠ [] := by
  constructor
  · rintro ⟨v, h⟩ rfl
    have h1 := (BaseN.C06_language K pad v []).1 h
    have hp : ¬ PaddedParts K.spec v [] := by
      rintro ⟨ds, h2, h3, _, h4⟩
      cases ds with
      | nil => exact h2 rfl
      | cons x ds => exact h3 x List.mem_cons_self (List.append_eq_nil_iff.1 h4.symm).1
    cases pad with
    | must => exact hp h1
    | disallow => exact h1.1 rfl
    | allow =>
      change (if v.getLast? = some padByte then PaddedParts K.spec v [] else [] ≠ [] ∧ v = encodeNopad K.spec []) at h1
      split at h1
      · exact hp h1
      · exact h1.1 rfl
  · intro h
    obtain ⟨h1, _, h3, h4⟩ := BaseN.C05_decode_encode K d h
    cases pad with
    | must => exact ⟨_, h1⟩
    | allow => exact ⟨_, h4⟩
    | disallow => exact ⟨_, h3⟩

end

/-! ## Numbers -/

section

open Verif.Range Verif.Spec Verif.Spec.Range Verif.Spec.IntV Verif.IntV

/-- C94 for the integer validators: the integers of the type that satisfy the range. -/
theorem C94_integer (ptr : Ptr) (signed : Bool) (w : Width) (r : RangeOption Int) (chk : Int → Out RangeError Unit)
    (h : Verif.IntV.check ptr signed w r = some chk) (v : Int) :
    (∃ s, Verif.IntV.parseStr chk signed (bits ptr w) s = .ok v) ↔ Fits signed (bits ptr w) v ∧ Satisfies r v := by
  constructor
  · rintro ⟨s, hs⟩
    exact ((Range.C16_language ptr signed w r chk h s v).1 hs).2
  · rintro ⟨h1, h2⟩
    exact ⟨_, Range.C16_round_trip ptr signed w r chk h v h1 h2⟩

end

section

open Verif.Float Verif.Range Verif.Spec Verif.Spec.Range Verif.Spec.Float

variable {F : Fmt}

/-- Every finite float has a decimal text. -/
theorem decimal_exists (x : Float F) : ∃ s, Decimal s x.neg (value x) := by
  have h5 : (0 : ℚ) < 5 ^ F.scale := by positivity
  refine ⟨_, if x.neg then [asc '-'] else [], IntV.showNat (units F x.mag * 5 ^ F.scale), [], [], asc 'e' :: asc '-' :: IntV.showNat F.scale,
    -F.scale, rfl, by cases x.neg <;> simp [Sign], ?_, ?_, .inl ⟨rfl, rfl⟩, .inr ⟨_, _, rfl, .inl rfl, IntV.showNat F.scale, IntV.showNat_ne_nil _,
    IntV.showNat_digits _, .inr ⟨rfl, rfl, by rw [IntV.showNat_value]⟩⟩, ?_⟩
  · simpa using IntV.showNat_digits _
  · simpa using IntV.showNat_ne_nil _
  · rw [value_ratio, List.append_nil, IntV.showNat_value, mul_assoc]
    congr 1
    simp only [List.length_nil, Nat.cast_zero, sub_zero, zpow_neg, zpow_natCast, Nat.cast_mul, Nat.cast_pow, Nat.cast_ofNat]
    rw [show (10 : ℚ) = 2 * 5 by norm_num, mul_pow]
    field_simp

/-- Every float but NaN has a text. -/
theorem text_exists (x : Float F) (hx : ¬ IsNan x) : ∃ s, fromStr F s = some x := by
  rcases class_cases x with h | h | h
  · exact absurd h hx
  · obtain ⟨y, h1, h2, h3⟩ := (Float.C83_reads_words (F := F) ((if x.neg then [asc '-'] else []) ++ ascii "inf") x.neg).1
      ⟨_, _, rfl, by cases x.neg <;> simp [Sign], .inl (by decide)⟩
    exact ⟨_, h1.trans (congrArg some (eq_of_inf h3 h2 h))⟩
  · obtain ⟨s, hs⟩ := decimal_exists x
    obtain ⟨y, h1, h2⟩ := Float.C83_reads_decimal (F := F) s _ _ hs
    exact ⟨s, h1.trans (congrArg some (rounds_self h h2))⟩

/-- C94 for `number`: every float in the range, with its very bits. -/
theorem C94_number (r : RangeOption (Float F)) (hr : NoNan r) (nan : TriAllow) (chk : Float F → Out RangeError Unit) (h : check r = some chk)
    (x : Float F) (hx : ¬ IsNan x) : (∃ s, parseStr chk nan s = .ok x) ↔ nan ≠ .must ∧ Satisfies (placeRange r) (place x) := by
  constructor
  · rintro ⟨s, hs⟩
    cases e : fromStr F s with
    | none => rw [(Float.C83_text chk nan s).1 e] at hs; cases hs
    | some y =>
      rw [(Float.C83_text chk nan s).2 y e, Float.C83_accepts r hr nan chk h] at hs
      obtain ⟨rfl, ⟨k, _⟩ | ⟨_, k⟩⟩ := hs
      · exact absurd k hx
      · exact k
  · intro k
    obtain ⟨s, hs⟩ := text_exists x hx
    exact ⟨s, by rw [(Float.C83_text chk nan s).2 x hs, Float.C83_accepts r hr nan chk h]; exact ⟨rfl, .inr ⟨hx, k⟩⟩⟩

/-- C94 for `number`: NaN is a value exactly if it is not disallowed. -/
theorem C94_nan (r : RangeOption (Float F)) (hr : NoNan r) (nan : TriAllow) (chk : Float F → Out RangeError Unit) (h : check r = some chk) :
    (∃ s x, parseStr chk nan s = .ok x ∧ IsNan x) ↔ nan ≠ .disallow := by
  constructor
  · rintro ⟨s, x, hs, hx⟩
    cases e : fromStr F s with
    | none => rw [(Float.C83_text chk nan s).1 e] at hs; cases hs
    | some y =>
      rw [(Float.C83_text chk nan s).2 y e, Float.C83_accepts r hr nan chk h] at hs
      obtain ⟨rfl, ⟨_, k⟩ | ⟨k, _⟩⟩ := hs
      · exact k
      · exact absurd hx k
  · intro k
    obtain ⟨y, h1, h2⟩ := (Float.C83_reads_words (F := F) (ascii "NaN") false).2 ⟨[], _, rfl, .inl ⟨rfl, rfl⟩, by decide⟩
    exact ⟨_, y, by rw [(Float.C83_text chk nan _).2 y h1, Float.C83_accepts r hr nan chk h]; exact ⟨rfl, .inl ⟨h2, k⟩⟩, h2⟩

/-- The hypotheses are met by a range that forbids numbers above zero, and by minus zero. -/
example : ∃ r : RangeOption (Float .f64), NoNan r ∧ (check r).isSome ∧ r ≠ .unlimited ∧ ¬ IsNan (⟨true, 0, by decide⟩ : Float .f64) :=
  ⟨.outside ⟨some ⟨false, 0, by decide⟩, none, false⟩, ⟨by rintro m ⟨⟩; simp [isNan_iff], by simp⟩,
    Float.C83_compiles _ ⟨by rintro m ⟨⟩; simp [isNan_iff], by simp⟩, by simp, by simp [isNan_iff]⟩

end

/-! ## Addresses and hosts -/

section

open Verif.Ip Verif.Spec.Ip

/-- C94 for `ip`: every address and port that the options admit. -/
theorem C94_ip (loc port : TriAllow) (x : IpAddr) (p : Option Nat) :
    (∃ cs, parseStr parseIp loc port (strBytes cs) = .ok (x, p)) ↔ PortOk port p ∧ LocalOk loc (LocalIp x) ∧ ∀ n, p = some n → n < 65536 := by
  constructor
  · rintro ⟨cs, h⟩
    obtain ⟨h1, h2, h3⟩ := (Ip.C30_parse loc port cs x p).1 h
    exact ⟨h2, h3, Ip.port_lt _ x p h1⟩
  · rintro ⟨h2, h3, hp⟩
    cases x with
    | v4 x =>
      obtain ⟨h1, ds, h⟩ := uriV4_input x p hp
      exact ⟨ds, (Ip.C30_parse loc port ds _ p).2 ⟨h ▸ h1, h2, h3⟩⟩
    | v6 x =>
      obtain ⟨h1, ds, h⟩ := uriV6_input x p hp
      exact ⟨ds, (Ip.C30_parse loc port ds _ p).2 ⟨h ▸ h1, h2, h3⟩⟩

/-- C94 for `ipv4`. -/
theorem C94_ipv4 (loc port : TriAllow) (x : V4) (p : Option Nat) :
    (∃ cs, parseStr parseIpv4 loc port (strBytes cs) = .ok (x, p)) ↔ PortOk port p ∧ LocalOk loc (Local4 x.number) ∧ ∀ n, p = some n → n < 65536 := by
  constructor
  · rintro ⟨cs, h⟩
    obtain ⟨h1, h2, h3⟩ := (Ip.C28_parse loc port cs x p).1 h
    exact ⟨h2, h3, Ip.port_lt _ (.v4 x) p h1⟩
  · rintro ⟨h2, h3, hp⟩
    obtain ⟨h1, ds, h⟩ := uriV4_input x p hp
    exact ⟨ds, (Ip.C28_parse loc port ds _ p).2 ⟨h ▸ h1, h2, h3⟩⟩

/-- C94 for `ipv6`. -/
theorem C94_ipv6 (loc port : TriAllow) (x : V6) (p : Option Nat) :
    (∃ cs, parseStr parseIpv6 loc port (strBytes cs) = .ok (x, p)) ↔ PortOk port p ∧ LocalOk loc (Local6 x.number) ∧ ∀ n, p = some n → n < 65536 := by
  constructor
  · rintro ⟨cs, h⟩
    obtain ⟨h1, h2, h3⟩ := (Ip.C29_parse loc port cs x p).1 h
    exact ⟨h2, h3, Ip.port_lt _ (.v6 x) p h1⟩
  · rintro ⟨h2, h3, hp⟩
    obtain ⟨h1, ds, h⟩ := uriV6_input x p hp
    exact ⟨ds, (Ip.C29_parse loc port ds _ p).2 ⟨h ▸ h1, h2, h3⟩⟩

end

section

open Verif.Host Verif.Spec Verif.Spec.Ip Verif.Spec.Domain Verif.Spec.Host Verif.Spec.HostText
open Verif.Domain (Idna ldh ldh_laws hostPort_join idna_chars join join_str)

/-- C94 for `host`: every address, and every name of the IDNA conversion that can be told from an address and has no final dot, with
every port, as far as the options admit them. -/
theorem C94_host (o : Opts) (idna : Idna) (laws : IdnaLaws idna) (v : Value)
    (hn : ∀ a, v.host = .domain a → (¬ ∃ c, a = c ++ ascii ".") ∧ ∀ x : V4, a ≠ x.text) :
    (∃ cs, parseStr o idna (strBytes cs) = .ok v) ↔
      Known idna v.host ∧ Admits o v.host ∧ Tells (ShowsLocal o) v.isLocal (LocalHost v.host) ∧ PortOk o.port v.port ∧
        ∀ n, v.port = some n → n < 65536 := by
  obtain ⟨h, l, p⟩ := v
  constructor
  · rintro ⟨cs, e⟩
    obtain ⟨hp, ⟨x, hx, h0, h1, h2, h3⟩ | ⟨x, hx, h0, h1, h2, h3⟩ | ⟨d, a, hx, h0, _, hi, h1, h2, h3⟩⟩ := (Host.C37_host o idna cs _).1 e
    · cases hx
      exact ⟨trivial, ⟨h2, h1⟩, h3, hp, Ip.port_lt _ (.v6 x) p h0⟩
    · cases hx
      exact ⟨trivial, ⟨h2, h1⟩, h3, hp, Ip.port_lt _ (.v4 x) p h0⟩
    · cases hx
      refine ⟨⟨_, hi⟩, ⟨h2, h1⟩, h3, hp, ?_⟩
      rintro n rfl
      obtain ⟨u, _, hu⟩ := h0
      exact hu.2
  · rintro ⟨hk, ⟨h2, h1⟩, h3, hp, hlt⟩
    cases h with
    | ipv6 x =>
      obtain ⟨k, ds, e⟩ := Verif.Ip.uriV6_input x p hlt
      exact ⟨ds, (Host.C37_host o idna ds _).2 ⟨hp, .inl ⟨x, rfl, e ▸ k, h1, h2, h3⟩⟩⟩
    | ipv4 x =>
      obtain ⟨k, ds, e⟩ := Verif.Ip.uriV4_input x p hlt
      exact ⟨ds, (Host.C37_host o idna ds _).2 ⟨hp, .inr (.inl ⟨x, rfl, e ▸ k, h1, h2, h3⟩)⟩⟩
    | domain a =>
      obtain ⟨t, ht⟩ := hk
      obtain ⟨hd, h4⟩ := hn a rfl
      obtain ⟨c1, c3, c2⟩ := idna_chars idna laws _ _ ht
      have hne := laws.nonempty _ _ ht
      have hj : HostPort (join a p) a p := hostPort_join a c1 p hlt
      obtain ⟨ds, e⟩ := join_str a (Verif.Ip.str_ascii _ c2) p hlt
      have hx : ∀ x : V6, ¬ V6Text (join a p) x.segs := fun x hx => join_not_v6 a c1 p hlt _ hx
      have hb : (join a p).head? = a.head? := by
        cases a with
        | nil => exact absurd rfl hne
        | cons b a => cases p <;> rfl
      have hb' : a.head? ≠ some (asc '[') := by
        intro e
        cases a with
        | nil => exact hne rfl
        | cons b a =>
          simp only [List.head?_cons, Option.some.injEq] at e
          exact c3 (e ▸ List.mem_cons_self)
      have hne' : join a p ≠ [] := by
        intro e
        rw [e] at hb
        cases a with
        | nil => exact hne rfl
        | cons b a => cases hb
      refine ⟨ds, (Host.C37_host o idna ds _).2 ⟨hp, .inr (.inr ⟨a, a, rfl, e ▸ hj, ?_, laws.again _ _ ht, h1, h2, h3⟩)⟩⟩
      rw [← e]
      exact ⟨hne', hb ▸ hb', hx, hd, h4⟩

example : ∃ cs, parseStr ⟨.allow, .must, .allow⟩ ldh (strBytes cs) = .ok ⟨.domain (ascii "a.example"), none, some 65535⟩ := by
  refine (C94_host _ ldh ldh_laws _ ?_).2 ⟨⟨ascii "a.example", by decide +kernel⟩, ⟨trivial, trivial⟩, ⟨fun hs => absurd rfl hs.2, fun _ => rfl⟩,
    Option.some_ne_none _, by simp⟩
  rintro a ⟨⟩
  refine ⟨by rw [← Verif.Domain.getLast_dot]; decide +kernel, fun x hx => ?_⟩
  exact absurd (((parseV4_iff _ x).2 hx).symm.trans (show _ = none by decide +kernel)) (by simp)

/-- The other side: no string is read as this address, whatever the name conversion. -/
example (idna : Idna) (laws : IdnaLaws idna) :
    ¬ ∃ cs, parseStr ⟨.disallow, .allow, .allow⟩ idna (strBytes cs) = .ok ⟨.ipv4 ⟨127, 0, 0, 1⟩, none, none⟩ := by
  rw [C94_host _ idna laws _ (by rintro a ⟨⟩)]
  rintro ⟨_, ⟨h, _⟩, _⟩
  exact h ((Verif.Ip.isLocalV4_iff _).1 (by decide))

end

section

open Verif.Domain Verif.Spec Verif.Spec.Ip Verif.Spec.Domain

/-- C94 for `domain`, names: every name of the IDNA conversion that can be told from an address (or that the options do not tell from
one), with every port, as far as the options admit them. -/
theorem C94_domain (o : Opts) (idna : Idna) (laws : IdnaLaws idna) (v : Value) (hc : asc ':' ∉ v.domain)
    (hq : Plain o ∨ ∀ x, ¬ QuadDot v.domain x) :
    (∃ cs, parseStr o idna (strBytes cs) = .ok v) ↔
      (∃ t, idna t = some v.domain) ∧ o.ipv4 ≠ .must ∧ LabelsOk o.atl (LocalName v.domain) (ManyLabels v.domain) ∧
        LocalOk o.loc (LocalName v.domain) ∧ Fields o v False (LocalName v.domain) ∧ PortOk o.port v.port ∧ ∀ n, v.port = some n → n < 65536 := by
  constructor
  · rintro ⟨cs, e⟩
    obtain ⟨_, d, h0, hp, ⟨h1, x, h2, h3, _⟩ | ⟨_, h1, h2, h3, h4, h5⟩⟩ := (Domain.C58_domain o idna cs v).1 e
    · exfalso
      cases k : v.port with
      | none =>
        rw [k] at h0
        rcases hq with hq | hq
        · exact h2 hq
        · exact hq x (by rw [h1, h0.1]; exact h3)
      | some n =>
        rw [k] at h0
        obtain ⟨u, hu, _⟩ := h0
        rw [h1, hu] at hc
        exact hc (by simp [ascii])
    · refine ⟨⟨_, h2⟩, h1, h3, h4, h5, hp, ?_⟩
      intro n hn
      rw [hn] at h0
      obtain ⟨u, _, hu⟩ := h0
      exact hu.2
  · rintro ⟨⟨t, ht⟩, h1, h3, h4, h5, hp, hlt⟩
    obtain ⟨_, _, c2⟩ := idna_chars idna laws _ _ ht
    obtain ⟨ds, e⟩ := join_str v.domain (Verif.Ip.str_ascii _ c2) v.port hlt
    have hj := hostPort_join v.domain hc v.port hlt
    refine ⟨ds, (Domain.C58_domain o idna ds v).2 ⟨?_, v.domain, e ▸ hj, hp, .inr ⟨hq, h1, laws.again _ _ ht, h3, h4, h5⟩⟩⟩
    rw [← e]
    have := laws.nonempty _ _ ht
    cases k : v.port <;> simp [join, this]

/-- C94 for `domain`, IPv4 addresses: each can be had with and without final dot, and with every port, as far as the options admit it. (With a
port the stored domain is the address and the port: C35.) -/
theorem C94_domain_ipv4 (o : Opts) (ho : ¬ Plain o) (idna : Idna) (v : Value) (d : List UInt8) (x : V4) (hv : HostPort v.domain d v.port)
    (hd : QuadDot d x) (hi : ∀ t, idna t = some v.domain → ∃ y, QuadDot t y) :
    (∃ cs, parseStr o idna (strBytes cs) = .ok v) ↔
      o.ipv4 ≠ .disallow ∧ o.atl ≠ .disallow ∧ LocalOk o.loc (Local4 x.number) ∧ Fields o v True (Local4 x.number) ∧ PortOk o.port v.port := by
  constructor
  · rintro ⟨cs, e⟩
    obtain ⟨_, d', h0, hp, ⟨h1, y, h2, h3, h4, h5, h6, h7⟩ | ⟨h, h1, h2, h3, h4, h5⟩⟩ := (Domain.C58_domain o idna cs v).1 e
    · have hd' := (hostPort_unique _ _ _ _ _ (h1 ▸ h0) hv).1
      have hx : y = x := Option.some.inj (((quadDot_iff d' y).2 h3).symm.trans ((quadDot_iff d' x).2 (hd' ▸ hd)))
      subst hx
      exact ⟨h4, h5, h6, h7, hp⟩
    · rcases h with h | h
      · exact absurd h ho
      · obtain ⟨y, hy⟩ := hi _ h2
        exact absurd hy (h y)
  · rintro ⟨h1, h2, h3, h4, hp⟩
    have ha : ∀ b ∈ v.domain, b.toNat < 128 := by
      have h8 : ∀ b ∈ d, b.toNat < 128 := by
        rcases hd with rfl | rfl
        · exact Verif.Ip.text_ascii x
        · intro b hb
          rcases List.mem_append.1 hb with hb | hb
          · exact Verif.Ip.text_ascii x b hb
          · exact (by decide : ∀ b ∈ ascii ".", b.toNat < 128) b hb
      cases k : v.port with
      | none => rw [k] at hv; exact hv.1 ▸ h8
      | some n =>
        rw [k] at hv
        obtain ⟨u, hu, hn⟩ := hv
        intro b hb
        rw [hu] at hb
        rcases List.mem_append.1 hb with hb | hb
        · rcases List.mem_append.1 hb with hb | hb
          · exact h8 b hb
          · exact (by decide : ∀ b ∈ ascii ":", b.toNat < 128) b hb
        · exact Verif.Ip.portText_ascii u n hn b hb
    obtain ⟨ds, e⟩ := Verif.Ip.str_ascii _ ha
    refine ⟨ds, (Domain.C58_domain o idna ds v).2 ⟨?_, d, e ▸ hv, hp, .inl ⟨e, x, ho, hd, h1, h2, h3, h4⟩⟩⟩
    rw [← e]
    intro e0
    have hne : d ≠ [] := by
      rintro rfl
      have := (quadDot_iff [] x).2 hd
      exact absurd (this.symm.trans (show parseV4Dot [] = none by decide +kernel)) (by simp)
    cases k : v.port with
    | none => rw [k] at hv; exact hne (hv.1.symm.trans e0)
    | some n =>
      rw [k] at hv
      obtain ⟨u, hu, _⟩ := hv
      simp [e0, hne] at hu

example : ∃ cs, parseStr ⟨.disallow, .disallow, .must, .must⟩ ldh (strBytes cs) = .ok ⟨ascii "example.com.", none, none, some 8080⟩ := by
  refine (C94_domain _ ldh ldh_laws _ (by decide +kernel) (.inr ?_)).2 ⟨⟨ascii "example.com.", by decide +kernel⟩, by decide, ?_, ?_, ?_, ?_, by simp⟩
  · exact (quadDot_none _).1 (by decide +kernel)
  · exact .inr ((manyLabels_iff _).1 (by decide +kernel))
  · exact fun h => absurd ((localName_iff _).2 h) (by decide +kernel)
  · exact ⟨⟨fun h => absurd h.1 (by decide), fun _ => rfl⟩, ⟨fun h => absurd h.1 (by decide), fun _ => rfl⟩⟩
  · exact Option.some_ne_none _

/-- An address with a port: the value is odd (C35), but it can be had. -/
example : ∃ cs, parseStr ⟨.must, .allow, .allow, .allow⟩ ldh (strBytes cs) = .ok ⟨ascii "1.2.3.4:080", none, none, some 80⟩ := by
  refine (C94_domain_ipv4 _ (by simp [Plain]) ldh ⟨ascii "1.2.3.4:080", none, none, some 80⟩ (ascii "1.2.3.4") ⟨1, 2, 3, 4⟩ ⟨ascii "080", by decide +kernel, (Verif.Ip.parsePort_iff _ _).1 (by decide +kernel)⟩
    (.inl (by decide +kernel)) ?_).2 ⟨by decide, by decide, trivial, ⟨⟨fun h => absurd h.1 (by decide), fun _ => rfl⟩, ⟨fun h => absurd rfl h.2, fun _ => rfl⟩⟩, trivial⟩
  intro t ht
  exact absurd (by decide +kernel) (idna_chars ldh ldh_laws _ _ ht).1

end

end Verif.Props.Reach
