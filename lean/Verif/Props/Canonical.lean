import Verif.Spec.Canonical
import Verif.Model.Email
import Verif.Model.Host
import Verif.Proof.Uri
import Verif.Props.Ip

/-!
# C101: addresses are written in their recommended form
-/

namespace Verif.Props.Canonical

open Verif Verif.StdIp Verif.Ip Verif.Spec.Ip Verif.Spec.Canonical
open _root_.Verif.BaseN (strBytes)

/-! ### Digits -/

theorem hex_char (d : Nat) (h : d < 16) : Hex.hexChar false d = asc (Nat.digitChar d) := by
  have key : ∀ d : Fin 16, Hex.hexChar false d.val = asc (Nat.digitChar d.val) := by decide +kernel
  exact key ⟨d, h⟩

theorem revDigits_hex (fuel n : Nat) (hf : 0 < fuel) (h : n < 16 ^ fuel) : (Hex.revDigits 16 fuel n).reverse.map (Hex.hexChar false) = hex n := by
  induction fuel generalizing n with
  | zero => omega
  | succ f ih =>
    rw [Hex.revDigits]
    split
    · rename_i hn
      rw [hex, Nat.toDigits_of_lt_base hn]
      simp only [List.reverse_singleton, List.map_singleton, hex_char n hn]
    · rename_i hn
      have hf : 0 < f := by
        rcases Nat.eq_zero_or_pos f with rfl | h0
        · simp at h; omega
        · exact h0
      rw [hex, Nat.toDigits_of_base_le (by decide) (by omega), List.reverse_cons, List.map_append, List.map_append,
        ih (n / 16) hf (by rw [Nat.pow_succ] at h; omega)]
      simp only [hex, List.map_singleton, hex_char (n % 16) (by omega)]

theorem showSeg_hex (x : UInt16) : showSeg x = hex x.toNat := revDigits_hex 4 _ (by decide) x.toNat_lt

theorem showSegs_joined : ∀ l : List UInt16, showSegs l = joined (l.map UInt16.toNat)
  | [] => rfl
  | [x] => showSeg_hex x
  | x :: y :: rest => by
    have ih := showSegs_joined (y :: rest)
    rw [showSegs, showSeg_hex, ih]
    simp [joined, asc_colon]

/-! ### The run of zeros -/

/-- `zeroRun` looks only at which segments are zero. -/
def zeroRunB : Nat → Nat → Nat → Nat → Nat → List Bool → Nat × Nat
  | _, _, _, bs, bl, [] => (bs, bl)
  | i, cs, cl, bs, bl, x :: rest =>
    if x then
      let cs := if cl = 0 then i else cs
      let cl := cl + 1
      if cl > bl then zeroRunB (i + 1) cs cl cs cl rest else zeroRunB (i + 1) cs cl bs bl rest
    else zeroRunB (i + 1) 0 0 bs bl rest

theorem zeroRun_pattern (l : List UInt16) : ∀ i cs cl bs bl, zeroRun i cs cl bs bl l = zeroRunB i cs cl bs bl (l.map (· == 0)) := by
  induction l with
  | nil => intros; rfl
  | cons x l ih =>
    intro i cs cl bs bl
    by_cases hx : x = 0 <;> simp [zeroRun, zeroRunB, hx, ih]

/-- A run of zeros in a pattern. -/
def Run (P : List Bool) (i n : Nat) : Prop := ∀ k, k < 8 → i ≤ k ∧ k < i + n → P[k]? = some true

instance (P : List Bool) (i n : Nat) : Decidable (Run P i n) := by unfold Run; infer_instance

/-- The run is one, no run is longer, and no run of this length is earlier. -/
def Best (P : List Bool) (r : Nat × Nat) : Prop :=
  r.1 + r.2 ≤ 8 ∧ Run P r.1 r.2 ∧ ∀ i, i < 9 → ∀ n, n < 9 → (i + n ≤ 8 ∧ Run P i n) → n ≤ r.2 ∧ (n = r.2 ∧ 0 < n → r.1 ≤ i)

instance (P : List Bool) (r : Nat × Nat) : Decidable (Best P r) := by unfold Best; infer_instance

/-- All the patterns of eight zero or other segments. -/
theorem run_table : ∀ a b c d e f g h : Bool, Best [a, b, c, d, e, f, g, h] (zeroRunB 0 0 0 0 0 [a, b, c, d, e, f, g, h]) := by
  decide +kernel

theorem run_spec (x : V6) : let r := zeroRun 0 0 0 0 0 x.segments
    Zeros x.segs r.1 r.2 ∧ ∀ i n, Zeros x.segs i n → n ≤ r.2 ∧ (n = r.2 → 0 < n → r.1 ≤ i) := by
  intro r
  have hr : r = zeroRunB 0 0 0 0 0 (x.segments.map (· == 0)) := zeroRun_pattern _ ..
  have hz : ∀ k : Nat, x.segs[k]? = some 0 ↔ (x.segments.map (· == 0))[k]? = some true := by
    intro k
    rw [segs_eq, List.getElem?_map, List.getElem?_map]
    cases x.segments[k]? with
    | none => simp
    | some y => simp [← UInt16.toNat_inj]
  obtain ⟨h1, h2, h3⟩ := run_table (x.s0 == 0) (x.s1 == 0) (x.s2 == 0) (x.s3 == 0) (x.s4 == 0) (x.s5 == 0) (x.s6 == 0) (x.s7 == 0)
  have e : [x.s0 == 0, x.s1 == 0, x.s2 == 0, x.s3 == 0, x.s4 == 0, x.s5 == 0, x.s6 == 0, x.s7 == 0] = x.segments.map (· == 0) := rfl
  rw [e, ← hr] at h1 h2 h3
  have h8 : x.segs.length = 8 := rfl
  refine ⟨⟨by omega, fun k a b => (hz k).2 (h2 k (by omega) ⟨a, b⟩)⟩, fun i n ⟨a, b⟩ => ?_⟩
  obtain ⟨c, d⟩ := h3 i (by omega) n (by omega) ⟨by omega, fun k _ c => (hz k).1 (b k c.1 c.2)⟩
  exact ⟨c, fun e f => d ⟨e, f⟩⟩

/-! ### Addresses -/

/-- C101: an IPv6 address is written in the form that RFC 5952 recommends. -/
theorem C101_ipv6 (x : V6) : Recommended x.segs (showV6 x) := by
  unfold showV6
  split
  · rename_i a ha
    refine .inl ⟨_, _, _, _, a.a.toNat_lt, a.b.toNat_lt, a.c.toNat_lt, a.d.toNat_lt, mapped_text x a ha, ?_⟩
    rw [showV4_eq]; rfl
  · rename_i ha
    refine .inr ⟨fun a b h => ?_, ?_⟩
    · unfold V6.toIpv4Mapped at ha
      simp only [V6.segs, List.cons.injEq, and_true] at h
      obtain ⟨h0, h1, h2, h3, h4, h5, -, -⟩ := h
      rw [if_pos] at ha
      · cases ha
      · simp only [← UInt16.toNat_inj]
        exact ⟨h0, h1, h2, h3, h4, h5⟩
    · obtain ⟨h1, h2⟩ := run_spec x
      simp only
      generalize zeroRun 0 0 0 0 0 x.segments = r at *
      split
      · rename_i hr
        refine .inr ⟨r.1, r.2, hr, h1, fun j m hj => (h2 j m hj).1, fun j hj => (h2 j _ hj).2 rfl (by omega), ?_⟩
        rw [showSegs_joined, showSegs_joined, segs_eq, List.map_take, List.map_drop]
      · rename_i hr
        exact .inl ⟨fun i hi => hr (h2 i 2 hi).1, showSegs_joined _⟩

/-- The recommendation leaves no choice. -/
theorem C101_unique (segs : List Nat) (t u : List UInt8) (ht : Recommended segs t) (hu : Recommended segs u) : t = u := by
  rcases ht with ⟨a, b, c, d, ha, hb, hc, hd, hs, rfl⟩ | ⟨nt, ht⟩
  · rcases hu with ⟨a', b', c', d', ha', hb', hc', hd', hs', rfl⟩ | ⟨nu, -⟩
    · rw [hs] at hs'
      simp only [List.cons.injEq, and_true, true_and] at hs'
      have e1 : a = a' := by omega
      have e2 : b = b' := by omega
      have e3 : c = c' := by omega
      have e4 : d = d' := by omega
      rw [e1, e2, e3, e4]
    · exact absurd hs (nu _ _)
  · rcases hu with ⟨_, _, _, _, -, -, -, -, hs, -⟩ | ⟨-, hu⟩
    · exact absurd hs (nt _ _)
    · have two : ∀ i n, 2 ≤ n → Zeros segs i n → Zeros segs i 2 := fun i n hn ⟨a, b⟩ => ⟨by omega, fun k c d => b k c (by omega)⟩
      rcases ht with ⟨n1, rfl⟩ | ⟨i, n, hn, hz, hm, hf, rfl⟩ <;> rcases hu with ⟨n2, rfl⟩ | ⟨j, m, hn', hz', hm', hf', rfl⟩
      · rfl
      · exact absurd (two j m hn' hz') (n1 j)
      · exact absurd (two i n hn hz) (n2 i)
      · have e : n = m := Nat.le_antisymm (hm' _ _ hz) (hm _ _ hz')
        subst e
        have : i = j := Nat.le_antisymm (hf _ hz') (hf' _ hz)
        subst this
        rfl

/-- C101, `ipv6` and `ip`: whatever the notation in which an IPv6 address is read, it is written in the recommended one. -/
theorem C101_notation (loc port : TriAllow) (cs : List Char) (x : V6) (p : Option Nat)
    (h : parseStr parseIpv6 loc port (strBytes cs) = .ok (x, p) ∨ parseStr parseIp loc port (strBytes cs) = .ok (.v6 x, p)) (t : List UInt8)
    (ht : Recommended x.segs t) :
    V6Input (strBytes cs) x p ∧ uriV6 (x, p) = (ascii "[" ++ t ++ ascii "]" ++ portText p) ∧
    uriIp (.v6 x, p) = uriV6 (x, p) := by
  have hi : V6Input (strBytes cs) x p := by
    rcases h with h | h
    · exact ((Ip.C29_parse ..).1 h).1
    · exact ((Ip.C29_parse ..).1 ((Ip.C30_union loc port cs p).2 x |>.1 h)).1
  refine ⟨hi, ?_, rfl⟩
  rw [C101_unique _ t _ ht (C101_ipv6 x)]
  cases p with
  | none => simp [uriV6, portText, ascii]
  | some n => simp [uriV6, portText, ascii, Uri.showNat_dec]

/-- C101, IPv4: four decimal numbers without leading zeros. -/
theorem C101_ipv4 (x : V4) (p : Option Nat) :
    uriV4 (x, p) = dotted x.a.toNat x.b.toNat x.c.toNat x.d.toNat ++ portText p ∧ uriIp (.v4 x, p) = uriV4 (x, p) := by
  refine ⟨?_, rfl⟩
  cases p with
  | none => simp [uriV4, portText, showV4_eq, V4.text]
  | some n => simp [uriV4, portText, showV4_eq, V4.text, Uri.showNat_dec, ascii]

/-- C101, `host`: the same, and `Host` writes the address itself. -/
theorem C101_host (v : Host.Value) : (∀ x, v.host = .ipv4 x → Host.toUri v = dotted x.a.toNat x.b.toNat x.c.toNat x.d.toNat ++ portText v.port) ∧
    (∀ x t, v.host = .ipv6 x → Recommended x.segs t → Host.toUri v = ascii "[" ++ t ++ ascii "]" ++ portText v.port) ∧
    (∀ x t, v.host = .ipv6 x → Recommended x.segs t → v.host.display = t) := by
  refine ⟨fun x hx => ?_, fun x t hx ht => ?_, fun x t hx ht => ?_⟩
  · rw [← (C101_ipv4 x v.port).1]
    simp only [Host.toUri, hx, uriV4]
    cases v.port <;> rfl
  · rw [C101_unique _ t _ ht (C101_ipv6 x)]
    simp only [Host.toUri, hx]
    cases v.port with
    | none => simp [portText, ascii]
    | some n => simp [portText, Uri.showNat_dec, ascii]
  · rw [hx]
    exact C101_unique _ _ t (C101_ipv6 x) ht

/-- C101, `email`: the host is written as if it were this text. -/
theorem C101_email (o : Email.Opts) (v : Email.Value) :
    (∀ x, v.host = .ipv4 x → Email.toEmail o v =
      Email.toEmail o { v with host := .domain (ascii "[" ++ dotted x.a.toNat x.b.toNat x.c.toNat x.d.toNat ++ ascii "]") }) ∧
    ∀ x t, v.host = .ipv6 x → Recommended x.segs t → Email.toEmail o v = Email.toEmail o { v with host := .domain (ascii "[IPv6:" ++ t ++ ascii "]") } := by
  refine ⟨fun x hx => ?_, fun x t hx ht => ?_⟩
  · simp only [Email.toEmail, hx, Email.showHost, showV4_eq, V4.text]
    simp [ascii]
  · rw [C101_unique _ t _ ht (C101_ipv6 x)]
    simp only [Email.toEmail, hx, Email.showHost]
    simp [ascii]

/-- The first of two longest runs; one zero; a mapped address; and three notations of one address. -/
example : showV6 ⟨0x2001, 0xdb8, 0, 0, 1, 0, 0, 1⟩ = ascii "2001:db8::1:0:0:1" ∧
    showV6 ⟨0x2001, 0xdb8, 0, 1, 1, 1, 1, 0xA⟩ = ascii "2001:db8:0:1:1:1:1:a" ∧ showV6 ⟨1, 0, 0, 2, 0, 0, 0, 3⟩ = ascii "1:0:0:2::3" ∧
    showV6 ⟨0, 0, 0, 0, 0, 0xffff, 0xc000, 0x201⟩ = ascii "::ffff:192.0.2.1" := by decide +kernel

example : parseStr parseIpv6 .allow .allow (ascii "2001:0DB8:0:0:1:0:0:1") = .ok (⟨0x2001, 0xdb8, 0, 0, 1, 0, 0, 1⟩, none) ∧
    parseStr parseIpv6 .allow .allow (ascii "2001:db8:0:0:1::1") = .ok (⟨0x2001, 0xdb8, 0, 0, 1, 0, 0, 1⟩, none) ∧
    parseStr parseIpv6 .allow .allow (ascii "[2001:db8::1:0:0.0.0.1]:080") = .ok (⟨0x2001, 0xdb8, 0, 0, 1, 0, 0, 1⟩, some 80) := by decide +kernel

example : Recommended [0x2001, 0xdb8, 0, 0, 1, 0, 0, 1] (ascii "2001:db8::1:0:0:1") :=
  C101_ipv6 ⟨0x2001, 0xdb8, 0, 0, 1, 0, 0, 1⟩

end Verif.Props.Canonical
