import Verif.Spec.Variants
import Verif.Proof.Ldh
import Verif.Proof.Longest
import Verif.Proof.Uri
import Verif.Props.Domain
import Verif.Props.Host
import Verif.Props.Ip
import Verif.Props.Range

/-!
# C102: the strings that have the same value
-/

namespace Verif.Props.Variants

open Verif Verif.StdIp Verif.Ip Verif.IntV Verif.Range Verif.Spec.Ip Verif.Spec.IntV Verif.Spec.Variants Verif.Spec.Host
open _root_.Verif.BaseN (strBytes)
open Verif.Spec.Domain (HostPort QuadDot Plain)
open Verif.Props.Domain (C58_domain)
open Verif.Props.Host (C37_host)
open Verif.Props.Ip (C28_parse C29_parse C30_union)

/-! ### Digits -/

theorem dec_digit (b : UInt8) (h : b ∈ decDigits) : dec (decDigits.idxOf b) = [b] ∧ decDigits.idxOf b < 10 ∧
    asc (Nat.digitChar (decDigits.idxOf b)) = b := by
  have key : ∀ b ∈ decDigits, dec (decDigits.idxOf b) = [b] ∧ decDigits.idxOf b < 10 ∧ asc (Nat.digitChar (decDigits.idxOf b)) = b := by
    decide +kernel
  exact key b h

theorem zeros_succ (k : Nat) : zeros k ++ [asc '0'] = zeros (k + 1) := by
  simp only [zeros, List.replicate_succ']

/-- Digits are zeros and the digits of the number they write. -/
theorem digits_zeros (ds : List UInt8) (hn : ds ≠ []) (hd : ∀ b ∈ ds, b ∈ decDigits) : ∃ k, ds = zeros k ++ dec (decValue ds) := by
  induction hl : ds.length generalizing ds with
  | zero => exact absurd (List.eq_nil_of_length_eq_zero hl) hn
  | succ n ih =>
    obtain ⟨a, b, rfl⟩ : ∃ a b, ds = a ++ [b] := ⟨ds.dropLast, ds.getLast hn, (List.dropLast_concat_getLast hn).symm⟩
    obtain ⟨hb, hlt, hc⟩ := dec_digit b (hd b (by simp))
    rw [IntV.decValue_append]
    by_cases ha : a = []
    · subst ha
      exact ⟨0, by simp [zeros, decValue, hb]⟩
    · obtain ⟨k, hk⟩ := ih a ha (fun c hc => hd c (by simp [hc])) (by simpa using hl)
      by_cases hz : decValue a = 0
      · refine ⟨k + 1, ?_⟩
        rw [hz] at hk ⊢
        rw [hk, show dec 0 = [asc '0'] from by decide, zeros_succ, Nat.zero_mul, Nat.zero_add, hb]
      · refine ⟨k, ?_⟩
        rw [show dec (decValue a * 10 + decDigits.idxOf b) = dec (decValue a) ++ [b] from by
          rw [dec, Nat.toDigits_of_base_le (by decide) (by omega), List.map_append, List.map_singleton,
            show (decValue a * 10 + decDigits.idxOf b) % 10 = decDigits.idxOf b from by omega,
            show (decValue a * 10 + decDigits.idxOf b) / 10 = decValue a from by omega, hc]
          rfl, ← List.append_assoc, ← hk]

theorem zeros_dec (k n : Nat) : zeros k ++ dec n ≠ [] ∧ (∀ b ∈ zeros k ++ dec n, b ∈ decDigits) ∧ decValue (zeros k ++ dec n) = n := by
  rw [← Uri.showNat_dec]
  refine ⟨by simp [IntV.showNat_ne_nil], fun b hb => ?_, by rw [zeros, Longest.zeros_value, IntV.showNat_value]⟩
  rcases List.mem_append.1 hb with hb | hb
  · rw [(List.mem_replicate.1 hb).2]; decide
  · exact IntV.showNat_digits n b hb

theorem numeral_writes (signed : Bool) (t : List UInt8) (i : Int) : Numeral signed t i ↔ Writes signed i t := by
  constructor
  · rintro ⟨ds, hn, hd, h⟩
    obtain ⟨k, hk⟩ := digits_zeros ds hn hd
    refine ⟨k, ?_⟩
    rcases h with ⟨h, rfl⟩ | ⟨hs, rfl, rfl⟩
    · refine .inl ⟨by omega, ?_⟩
      rw [Int.natAbs_natCast, List.append_assoc, ← hk]
      exact h
    · refine .inr ⟨hs, by omega, ?_⟩
      rw [Int.natAbs_neg, Int.natAbs_natCast, List.append_assoc, ← hk]
      rfl
  · rintro ⟨k, h⟩
    obtain ⟨hn, hd, hv⟩ := zeros_dec k i.natAbs
    refine ⟨_, hn, hd, ?_⟩
    rw [hv]
    rcases h with ⟨hi, h⟩ | ⟨hs, hi, h⟩
    · refine .inl ⟨?_, by omega⟩
      rcases h with rfl | rfl
      · exact .inl rfl
      · exact .inr (List.append_assoc ..)
    · exact .inr ⟨hs, by rw [h, List.append_assoc]; rfl, by omega⟩

/-! ### Integers -/

/-- C102 for integers: if one string has the value, then the strings that have it are exactly the ways to write it. -/
theorem C102_int (ptr : Ptr) (signed : Bool) (w : Width) (r : RangeOption Int) (chk : Int → Out RangeError Unit)
    (h : IntV.check ptr signed w r = some chk) (s t : List UInt8) (i : Int) (hs : IntV.parseStr chk signed (IntV.bits ptr w) s = .ok i) :
    IntV.parseStr chk signed (IntV.bits ptr w) t = .ok i ↔ Writes signed i t := by
  rw [Range.C16_language ptr signed w r chk h] at hs ⊢
  rw [numeral_writes]
  exact ⟨fun h => h.1, fun h => ⟨h, hs.2⟩⟩

/-! ### Addresses -/

theorem portText_writes (t : List UInt8) (n : Nat) : PortText t n ↔ Writes false n t ∧ n < 65536 := by
  rw [PortText, numeral_writes]

theorem v4_writes (t : List UInt8) (x : V4) (p : Option Nat) (hp : ∀ n, p = some n → n < 65536) :
    V4Input t x p ↔ ∃ u, t = x.text ++ u ∧ WritesPort p u := by
  cases p with
  | none => simp [V4Input, WritesPort]
  | some n =>
    simp only [V4Input, WritesPort, portText_writes]
    constructor
    · rintro ⟨u, hu, hw, -⟩
      exact ⟨_, by rw [hu, List.append_assoc], u, rfl, hw⟩
    · rintro ⟨_, hu, v, rfl, hw⟩
      exact ⟨v, by rw [hu, List.append_assoc], hw, hp n rfl⟩

theorem v6_writes (s : List UInt8) (x : V6) (p : Option Nat) (hp : ∀ n, p = some n → n < 65536) :
    V6Input s x p ↔ (∃ t u, V6Text t x.segs ∧ s = ascii "[" ++ t ++ ascii "]" ++ u ∧ WritesPort p u) ∨ p = none ∧ V6Text s x.segs := by
  cases p with
  | none =>
    simp only [V6Input, WritesPort, true_and]
    constructor
    · rintro (h | ⟨t, h, ht⟩)
      · exact .inr h
      · exact .inl ⟨t, [], ht, by simp [h], rfl⟩
    · rintro (⟨t, _, ht, h, rfl⟩ | h)
      · exact .inr ⟨t, by simpa using h, ht⟩
      · exact .inl h
  | some n =>
    simp only [V6Input, WritesPort, portText_writes, reduceCtorEq, false_and, or_false]
    have e : ascii "]:" = ascii "]" ++ ascii ":" := rfl
    constructor
    · rintro ⟨t, u, h, ht, hw, -⟩
      exact ⟨t, _, ht, by rw [h, e]; simp [List.append_assoc], u, rfl, hw⟩
    · rintro ⟨t, _, ht, h, v, rfl, hw⟩
      exact ⟨t, v, by rw [h, e]; simp [List.append_assoc], ht, hw, hp n rfl⟩

theorem v4_port (s : List UInt8) (x : V4) (p : Option Nat) (h : V4Input s x p) (n : Nat) (hn : p = some n) : n < 65536 := by
  subst hn
  obtain ⟨_, _, _, h⟩ := h
  exact h

theorem v6_port (s : List UInt8) (x : V6) (p : Option Nat) (h : V6Input s x p) (n : Nat) (hn : p = some n) : n < 65536 := by
  subst hn
  obtain ⟨_, _, _, _, _, h⟩ := h
  exact h

/-- C102 for `ipv4`: the address has one text; only the port can be written in several ways. -/
theorem C102_ipv4 (loc port : TriAllow) (cs ds : List Char) (x : V4) (p : Option Nat)
    (hs : Verif.Ip.parseStr parseIpv4 loc port (strBytes cs) = .ok (x, p)) :
    Verif.Ip.parseStr parseIpv4 loc port (strBytes ds) = .ok (x, p) ↔ ∃ u, strBytes ds = x.text ++ u ∧ WritesPort p u := by
  rw [C28_parse] at hs ⊢
  rw [v4_writes _ _ _ (v4_port _ _ _ hs.1)]
  exact ⟨fun h => h.1, fun h => ⟨h, hs.2⟩⟩

/-- C102 for `ipv6`: any text of the address, in brackets or not if there is no port. -/
theorem C102_ipv6 (loc port : TriAllow) (cs ds : List Char) (x : V6) (p : Option Nat)
    (hs : Verif.Ip.parseStr parseIpv6 loc port (strBytes cs) = .ok (x, p)) :
    Verif.Ip.parseStr parseIpv6 loc port (strBytes ds) = .ok (x, p) ↔
      (∃ t u, V6Text t x.segs ∧ strBytes ds = ascii "[" ++ t ++ ascii "]" ++ u ∧ WritesPort p u) ∨
      p = none ∧ V6Text (strBytes ds) x.segs := by
  rw [C29_parse] at hs ⊢
  rw [v6_writes _ _ _ (v6_port _ _ _ hs.1)]
  exact ⟨fun h => h.1, fun h => ⟨h, hs.2⟩⟩

/-- C102 for `ip`: as for `ipv4` or `ipv6`. -/
theorem C102_ip (loc port : TriAllow) (cs ds : List Char) (p : Option Nat) :
    (∀ x, Verif.Ip.parseStr parseIp loc port (strBytes cs) = .ok (.v4 x, p) →
      (Verif.Ip.parseStr parseIp loc port (strBytes ds) = .ok (.v4 x, p) ↔ ∃ u, strBytes ds = x.text ++ u ∧ WritesPort p u)) ∧
    (∀ x, Verif.Ip.parseStr parseIp loc port (strBytes cs) = .ok (.v6 x, p) →
      (Verif.Ip.parseStr parseIp loc port (strBytes ds) = .ok (.v6 x, p) ↔
        (∃ t u, V6Text t x.segs ∧ strBytes ds = ascii "[" ++ t ++ ascii "]" ++ u ∧ WritesPort p u) ∨
        p = none ∧ V6Text (strBytes ds) x.segs)) := by
  refine ⟨fun x h => ?_, fun x h => ?_⟩
  · rw [(C30_union loc port _ p).1] at h ⊢
    exact C102_ipv4 loc port cs ds x p h
  · rw [(C30_union loc port _ p).2] at h ⊢
    exact C102_ipv6 loc port cs ds x p h

theorem hostPort_writes (t d : List UInt8) (p : Option Nat) (hp : ∀ n, p = some n → n < 65536) :
    HostPort t d p ↔ ∃ u, t = d ++ u ∧ WritesPort p u ∧ (p = none → asc ':' ∉ d) := by
  cases p with
  | none =>
    simp only [HostPort, WritesPort]
    constructor
    · rintro ⟨h1, h2⟩
      exact ⟨[], by simpa using h1, rfl, fun _ => h1 ▸ h2⟩
    · rintro ⟨_, h1, rfl, h2⟩
      rw [List.append_nil] at h1
      exact ⟨h1, h1 ▸ h2 trivial⟩
  | some n =>
    simp only [HostPort, WritesPort, portText_writes]
    constructor
    · rintro ⟨u, h1, h2, -⟩
      exact ⟨_, by rw [h1, List.append_assoc], ⟨u, rfl, h2⟩, nofun⟩
    · rintro ⟨_, h1, ⟨u, rfl, h2⟩, -⟩
      exact ⟨u, by rw [h1, List.append_assoc], h2, hp n rfl⟩

/-- C102 for `host`: as for addresses; for a name, the texts that IDNA converts to it. -/
theorem C102_host (o : Verif.Host.Opts) (idna : Verif.Domain.Idna) (cs ds : List Char) (v : Verif.Host.Value)
    (hs : Verif.Host.parseStr o idna (strBytes cs) = .ok v) :
    Verif.Host.parseStr o idna (strBytes ds) = .ok v ↔ match v.host with
      | .ipv4 x => ∃ u, strBytes ds = x.text ++ u ∧ WritesPort v.port u
      | .ipv6 x => (∃ t u, V6Text t x.segs ∧ strBytes ds = ascii "[" ++ t ++ ascii "]" ++ u ∧ WritesPort v.port u) ∨
          v.port = none ∧ V6Text (strBytes ds) x.segs
      | .domain a => ∃ d u, strBytes ds = d ++ u ∧ WritesPort v.port u ∧ (v.port = none → asc ':' ∉ d) ∧
          NameText (strBytes ds) d ∧ idna d = some a := by
  rw [C37_host] at hs ⊢
  obtain ⟨hp, h | h | h⟩ := hs
  · obtain ⟨x, hx, hi, hr⟩ := h
    have e : (PortOk o.port v.port ∧ (AsIpv6 o (strBytes ds) v ∨ AsIpv4 o (strBytes ds) v ∨ AsName o idna (strBytes ds) v)) ↔
        V6Input (strBytes ds) x v.port := by
      simp only [AsIpv6, AsIpv4, AsName, hx, hp, true_and]
      constructor
      · rintro (⟨y, h, hy, -⟩ | ⟨y, h, -⟩ | ⟨d, a, h, -⟩)
        · cases h; exact hy
        · cases h
        · cases h
      · exact fun h => .inl ⟨x, rfl, h, hr⟩
    rw [e, hx]
    exact v6_writes _ _ _ (v6_port _ _ _ hi)
  · obtain ⟨x, hx, hi, hr⟩ := h
    have e : (PortOk o.port v.port ∧ (AsIpv6 o (strBytes ds) v ∨ AsIpv4 o (strBytes ds) v ∨ AsName o idna (strBytes ds) v)) ↔
        V4Input (strBytes ds) x v.port := by
      simp only [AsIpv6, AsIpv4, AsName, hx, hp, true_and]
      constructor
      · rintro (⟨y, h, -⟩ | ⟨y, h, hy, -⟩ | ⟨d, a, h, -⟩)
        · cases h
        · cases h; exact hy
        · cases h
      · exact fun h => .inr (.inl ⟨x, rfl, h, hr⟩)
    rw [e, hx]
    exact v4_writes _ _ _ (v4_port _ _ _ hi)
  · obtain ⟨d, a, hx, hi, hn, ha, hr⟩ := h
    have hb : ∀ n, v.port = some n → n < 65536 := by
      intro n e
      rw [e] at hi
      obtain ⟨_, _, _, h⟩ := hi
      exact h
    have e : (PortOk o.port v.port ∧ (AsIpv6 o (strBytes ds) v ∨ AsIpv4 o (strBytes ds) v ∨ AsName o idna (strBytes ds) v)) ↔
        ∃ d, HostPort (strBytes ds) d v.port ∧ NameText (strBytes ds) d ∧ idna d = some a := by
      simp only [AsIpv6, AsIpv4, AsName, hx, hp, true_and]
      constructor
      · rintro (⟨y, h, -⟩ | ⟨y, h, -⟩ | ⟨d, a, h, hd, hn, ha, -⟩)
        · cases h
        · cases h
        · cases h; exact ⟨d, hd, hn, ha⟩
      · rintro ⟨d, hd, hn, ha⟩
        exact .inr (.inr ⟨d, a, rfl, hd, hn, ha, hr⟩)
    rw [e, hx]
    simp only
    refine exists_congr fun d => ?_
    rw [hostPort_writes _ _ _ hb]
    constructor
    · rintro ⟨⟨u, h1, h2, h3⟩, h4⟩
      exact ⟨u, h1, h2, h3, h4⟩
    · rintro ⟨u, h1, h2, h3, h4⟩
      exact ⟨⟨u, h1, h2, h3⟩, h4⟩

theorem hostPort_port (t d : List UInt8) (p : Option Nat) (h : HostPort t d p) (n : Nat) (hn : p = some n) : n < 65536 := by
  subst hn
  obtain ⟨_, _, _, h⟩ := h
  exact h

/-- Only the text of an IPv4 address is stored with its port or as it is. -/
theorem stored_quad (s d : List UInt8) (p : Option Nat) (x : V4) (h : HostPort s d p) (hd : QuadDot d x) (hc : asc ':' ∉ s) : QuadDot s x := by
  cases p with
  | none => rw [h.1]; exact hd
  | some n =>
    obtain ⟨u, rfl, -⟩ := h
    exact absurd (by simp [ascii]) hc

/-- C102 for `domain`, names: the texts that IDNA converts to the stored domain, with the port. If an option tells addresses from names,
the text is no address. -/
theorem C102_domain (o : Verif.Domain.Opts) (idna : Verif.Domain.Idna) (cs ds : List Char) (v : Verif.Domain.Value)
    (hc : asc ':' ∉ v.domain) (hq : ∀ x, ¬ QuadDot v.domain x) (hs : Verif.Domain.parseStr o idna (strBytes cs) = .ok v) :
    Verif.Domain.parseStr o idna (strBytes ds) = .ok v ↔
      strBytes ds ≠ [] ∧ ∃ d u, strBytes ds = d ++ u ∧ WritesPort v.port u ∧ (v.port = none → asc ':' ∉ d) ∧ idna d = some v.domain ∧
        (Plain o ∨ ∀ x, ¬ QuadDot d x) := by
  rw [C58_domain] at hs ⊢
  obtain ⟨-, d, hd, hp, ⟨he, x, ha⟩ | ⟨-, hm, -, hr⟩⟩ := hs
  · exact absurd (stored_quad _ _ _ _ hd ha.2.1 (he ▸ hc)) (he ▸ hq x)
  have hb := hostPort_port _ _ _ hd
  refine and_congr_right fun hn => exists_congr fun e => ?_
  constructor
  · rintro ⟨he, -, ⟨h, x, ha⟩ | ⟨hn, -, hi, -⟩⟩
    · exact absurd (stored_quad _ _ _ _ he ha.2.1 (h ▸ hc)) (h ▸ hq x)
    · obtain ⟨u, h1, h2, h3⟩ := (hostPort_writes _ _ _ hb).1 he
      exact ⟨u, h1, h2, h3, hi, hn⟩
  · rintro ⟨u, h1, h2, h3, hi, hn⟩
    exact ⟨(hostPort_writes _ _ _ hb).2 ⟨u, h1, h2, h3⟩, hp, .inr ⟨hn, hm, hi, hr⟩⟩

/-- C102 for `domain`, IPv4 addresses: the stored text is the string, so it is the only one, unless IDNA converts a name
to it. -/
theorem C102_domain_ipv4 (o : Verif.Domain.Opts) (idna : Verif.Domain.Idna) (cs ds : List Char) (v : Verif.Domain.Value)
    (ho : ¬ Plain o) (hi : ∀ t, idna t = some v.domain → ∃ y, QuadDot t y) (hs : Verif.Domain.parseStr o idna (strBytes cs) = .ok v) :
    Verif.Domain.parseStr o idna (strBytes ds) = .ok v ↔ strBytes ds = strBytes cs := by
  constructor
  · intro ht
    rw [C58_domain] at hs ht
    have key : ∀ e, (Plain o ∨ ∀ x, ¬ QuadDot e x) → idna e ≠ some v.domain := by
      rintro e (hp | hq) h
      · exact ho hp
      · obtain ⟨y, hy⟩ := hi e h
        exact hq y hy
    obtain ⟨-, d, -, -, ⟨h, -⟩ | ⟨hn, -, h, -⟩⟩ := hs
    · obtain ⟨-, e, -, -, ⟨h', -⟩ | ⟨hn, -, h', -⟩⟩ := ht
      · rw [← h, ← h']
      · exact absurd h' (key e hn)
    · exact absurd h (key d hn)
  · intro h
    rw [h, hs]

/-- Without a port the string of an IPv4 address is the only one. -/
theorem C102_ipv4_one (loc port : TriAllow) (cs ds : List Char) (x : V4) (hs : Verif.Ip.parseStr parseIpv4 loc port (strBytes cs) = .ok (x, none))
    (ht : Verif.Ip.parseStr parseIpv4 loc port (strBytes ds) = .ok (x, none)) : strBytes cs = strBytes ds := by
  rw [C28_parse] at hs ht
  exact hs.1.trans ht.1.symm

example : ∃ chk, IntV.check .p64 true .w8 (.inside ⟨some (-5), some 7, false⟩) = some chk ∧
    IntV.parseStr chk true 8 (ascii "-0") = .ok 0 ∧ IntV.parseStr chk true 8 (ascii "+000") = .ok 0 ∧
    IntV.parseStr chk true 8 (ascii "-005") = .ok (-5) := ⟨_, rfl, by decide, by decide, by decide⟩
example : Writes true (-5) (ascii "-005") ∧ Writes false 80 (ascii "+0080") ∧ WritesPort (some 80) (ascii ":080") :=
  ⟨⟨2, .inr ⟨rfl, by decide, by decide⟩⟩, ⟨2, .inl ⟨by decide, .inr (by decide)⟩⟩, ascii "080", rfl, 1, .inl ⟨by decide, .inl (by decide)⟩⟩
example : Verif.Ip.parseStr parseIpv4 .allow .allow (ascii "8.8.4.4:+053") = .ok (⟨8, 8, 4, 4⟩, some 53) ∧
    Verif.Ip.parseStr parseIpv4 .allow .allow (ascii "8.8.4.4:53") = .ok (⟨8, 8, 4, 4⟩, some 53) ∧
    Verif.Ip.parseStr parseIpv6 .allow .allow (ascii "[0:0::1]") = .ok (⟨0, 0, 0, 0, 0, 0, 0, 1⟩, none) ∧
    Verif.Ip.parseStr parseIpv6 .allow .allow (ascii "::1") = .ok (⟨0, 0, 0, 0, 0, 0, 0, 1⟩, none) := by decide +kernel
example : Verif.Host.parseStr ⟨.allow, .allow, .allow⟩ Domain.ldh (ascii "WWW.Example.com:0443") = .ok ⟨.domain (ascii "www.example.com"), none, some 443⟩ ∧
    Verif.Host.parseStr ⟨.allow, .allow, .allow⟩ Domain.ldh (ascii "www.example.com:443") = .ok ⟨.domain (ascii "www.example.com"), none, some 443⟩ := by
  decide +kernel
example : Verif.Domain.parseStr ⟨.allow, .allow, .allow, .must⟩ Domain.ldh (ascii "Example.com.:080") = .ok ⟨ascii "example.com.", some false, some false, some 80⟩ ∧
    Verif.Domain.parseStr ⟨.allow, .allow, .allow, .must⟩ Domain.ldh (ascii "example.com.:80") = .ok ⟨ascii "example.com.", some false, some false, some 80⟩ ∧
    Verif.Domain.parseStr ⟨.must, .allow, .allow, .allow⟩ Domain.ldh (ascii "8.8.8.8:80") = .ok ⟨ascii "8.8.8.8:80", none, none, some 80⟩ := by
  decide +kernel
/-- The hypothesis of `C102_domain_ipv4` holds of the last one. -/
example : ¬ Plain ⟨.must, .allow, .allow, .allow⟩ ∧ ∀ t, Domain.ldh t = some (ascii "8.8.8.8:80") → ∃ y, QuadDot t y :=
  ⟨nofun, fun t h => absurd (Domain.ldh_laws.symbols t _ h (asc ':') (by decide)) (by decide)⟩

end Verif.Props.Variants
