import Verif.Proof.Longest
import Verif.Proof.Integrations

/-!
# C85: how long an accepted string can be
-/

namespace Verif.Props.Longest

open Verif Verif.Attr Verif.Derive Verif.Generated Verif.Spec.Generated Verif.Spec.Longest Verif.Longest
open _root_.Verif.BaseN (strBytes)

variable {τ φ κ N U V ε : Type} [LinearOrder φ] [DecidableEq κ]

/-- C85, bounds: a derived validator whose options bound the length accepts no longer string. -/
theorem C85_at_most (M : Macro τ φ κ) (ast : Input τ) (p : Plan φ κ) (h : derive M ast = .ok p) (L : Libs φ κ N U V ε)
    (hu : Spec.Url.HostsPresent L.url) (I : Impl (Error ε) (Value φ κ N U V)) (hI : generate L p = some I) (hm : ¬ LargestMax L.ptr p)
    (n : Nat) (hn : AtMost p n) (s : List Char) (hs : (I.parseStr s).IsOk) : (strBytes s).length ≤ n := by
  obtain ⟨x, hx⟩ := hs
  have hw := (Generated.C71_sound_partial M ast p h L hu I hI hm s x hx).2
  cases p with
  | basic v a =>
    obtain ⟨rfl, rfl⟩ := hn
    cases x with
    | bool b =>
      have hl : ((strBytes s).map Spec.Boolean.lower).length = (strBytes s).length := by simp
      obtain ⟨-, hw⟩ := hw
      generalize (strBytes s).map Spec.Boolean.lower = w at hl hw
      rw [← hl]
      cases b
      · exact (by decide : ∀ w ∈ Spec.Boolean.falseWords, w.length ≤ 5) w hw
      · exact (by decide : ∀ w ∈ Spec.Boolean.trueWords, w.length ≤ 5) w hw
    | object y => exact absurd rfl hw.1
    | _ => cases hw
  | email a =>
    cases hn
    cases x with
    | email y => obtain ⟨q, t, h, tail, hd⟩ := hw; exact hd.short
    | _ => cases hw
  | ip v a =>
    obtain ⟨hp, rfl⟩ := hn
    have v4 : ∀ y port, Spec.Ip.V4Input (strBytes s) y port → Spec.Ip.PortOk a.port port → (strBytes s).length ≤ 15 := by
      intro y port h1 h2
      rw [hp] at h2
      cases h2
      rw [show strBytes s = y.text from h1]
      exact v4_length y
    have v6 : ∀ y port, Spec.Ip.V6Input (strBytes s) y port → Spec.Ip.PortOk a.port port → (strBytes s).length ≤ 47 := by
      intro y port h1 h2
      rw [hp] at h2
      cases h2
      rcases h1 with h1 | ⟨t, h1, h2⟩
      · have := v6_length _ _ h1; omega
      · have := v6_length _ _ h2
        rw [h1]
        simp only [List.length_append, show (ascii "[").length = 1 from rfl, show (ascii "]").length = 1 from rfl]
        omega
    cases x with
    | ip y port =>
      obtain ⟨rfl, h1, h2, -⟩ := hw
      cases y with
      | v4 y => have := v4 y port h1 h2; simp; omega
      | v6 y => simpa using v6 y port h1 h2
    | ipv4 y port => obtain ⟨rfl, h1, h2, -⟩ := hw; simpa using v4 y port h1 h2
    | ipv6 y port => obtain ⟨rfl, h1, h2, -⟩ := hw; simpa using v6 y port h1 h2
    | _ => cases hw
  | utf8 v a =>
    obtain ⟨b, l, m, h1, h2, rfl⟩ := hn
    cases x with
    | text t =>
      obtain ⟨-, hw⟩ := hw
      simp only [LengthOk, h1] at hw
      have := hw.1.2 m h2
      have := str_bytes s
      cases b <;> simp_all [Spec.Line.size]
      omega
    | _ => cases hw
  | hex v a =>
    cases hn
    cases x with
    | hex n =>
      obtain ⟨ds, hc, -⟩ := hw
      have := cut_long _ _ _ _ hc
      by_cases hv : v = .uuid
      · simp only [hv, if_true] at this ⊢
        split <;> rename_i e <;> simpa [e, Spec.Hex.uuidSizes] using this
      · simp only [hv, if_false] at this ⊢
        split <;> rename_i e <;> simpa [e, Spec.Hex.macSizes] using this
    | _ => cases hw
  | _ => cases hn

/-- An address of 320 bytes, with a comment: `email` reaches its bound too. -/
example : ∃ s : List Char, (strBytes s).length = 320 ∧ (Email.parseStr ⟨.allow, .allow, .allow, .allow, .allow, true⟩ Domain.ldh (strBytes s)).IsOk ∧
    AtMost (φ := Int) (κ := Nat) (.email ⟨.allow, .allow, .allow, .allow, .allow, .disallow, ⟨true, true⟩, ⟨true, true⟩⟩) 320 :=
  ⟨List.replicate 64 'a' ++ "@b.com(".toList ++ List.replicate 248 'c' ++ [')'], by decide +kernel, by decide +kernel, rfl⟩

/-- `#[validator(uuid(separator(Disallow)))] struct S(u128);` accepts at most 32 bytes. -/
example : ∃ p, derive Derive.full ⟨[Derive.attr (.list (some "uuid") (.metas [.list (some "separator") (.one (.path (some "Disallow")))]))],
      .struct (.unnamed ["u128"])⟩ = .ok p ∧ AtMost p 32 ∧ (∀ a, p ≠ .email a) ∧ ¬ Endless Generated.libs.ptr p :=
  ⟨_, rfl, rfl, nofun, id⟩

/-- C85, the bounds are reached: some accepted string is that long. For `uuid` and `mac_address` the separator is a character that a
string can have. -/
theorem C85_reached (M : Macro τ φ κ) (ast : Input τ) (p : Plan φ κ) (h : derive M ast = .ok p) (L : Libs φ κ N U V ε)
    (hu : Spec.Url.HostsPresent L.url) (I : Impl (Error ε) (Value φ κ N U V)) (hI : generate L p = some I) (hm : ¬ LargestMax L.ptr p)
    (n : Nat) (hn : AtMost p n) (he : ∀ a, p ≠ .email a)
    (hs : ∀ v a, p = .hex v a → ∀ b, a.separator = .must b ∨ a.separator = .allow b → b.toNat < 128) :
    ∃ s, (strBytes s).length = n ∧ (I.parseStr s).IsOk := by
  have hok := Generated.C71_accepts_partial M ast p h L hu I hI hm
  obtain ⟨v, -, -, ps, -, -, -, ho, -⟩ := Generated.C71_written M ast p h
  simp only [hok]
  cases p with
  | basic v a =>
    obtain ⟨rfl, rfl⟩ := hn
    exact ⟨"false".toList, by decide, .bool false, rfl, by decide +kernel⟩
  | email a => exact absurd rfl (he a)
  | ip w a =>
    obtain ⟨hp, rfl⟩ := hn
    obtain ⟨rfl, hv, -⟩ := ho
    have hport : Spec.Ip.PortOk a.port none := by rw [hp]; rfl
    have v4 : ∃ s x, (strBytes s).length = 15 ∧ Spec.Ip.V4Input (strBytes s) x none ∧ Spec.Ip.LocalOk a.loc (Spec.Ip.Local4 x.number) := by
      cases hl : a.loc
      · exact ⟨"192.168.100.100".toList, ⟨192, 168, 100, 100⟩, by decide, by unfold Spec.Ip.V4Input; decide +kernel, trivial⟩
      · exact ⟨"192.168.100.100".toList, ⟨192, 168, 100, 100⟩, by decide, by unfold Spec.Ip.V4Input; decide +kernel, by unfold Spec.Ip.LocalOk; decide +kernel⟩
      · exact ⟨"100.200.200.200".toList, ⟨100, 200, 200, 200⟩, by decide, by unfold Spec.Ip.V4Input; decide +kernel, by unfold Spec.Ip.LocalOk; decide +kernel⟩
    have v6 : ∃ s x, (strBytes s).length = 47 ∧ Spec.Ip.V6Input (strBytes s) x none ∧ Spec.Ip.LocalOk a.loc (Spec.Ip.Local6 x.number) := by
      have ok := fun loc s x => (Verif.Props.Ip.C29_parse loc .disallow s x none).1
      cases hl : a.loc
      · exact ⟨_, _, by decide +kernel, (ok .allow "[fe80:0000:0000:0000:0000:0000:100.100.100.100]".toList ⟨0xfe80, 0, 0, 0, 0, 0, 0x6464, 0x6464⟩ (by decide +kernel)).1, trivial⟩
      · have := ok .must "[fe80:0000:0000:0000:0000:0000:100.100.100.100]".toList ⟨0xfe80, 0, 0, 0, 0, 0, 0x6464, 0x6464⟩ (by decide +kernel)
        exact ⟨_, _, by decide +kernel, this.1, this.2.2⟩
      · have := ok .disallow "[2606:0000:0000:0000:0000:0000:100.100.100.100]".toList ⟨0x2606, 0, 0, 0, 0, 0, 0x6464, 0x6464⟩ (by decide +kernel)
        exact ⟨_, _, by decide +kernel, this.1, this.2.2⟩
    obtain ⟨s4, x4, l4, i4, o4⟩ := v4
    obtain ⟨s6, x6, l6, i6, o6⟩ := v6
    simp only [List.mem_cons, List.not_mem_nil, or_false] at hv
    rcases hv with rfl | rfl | rfl
    · exact ⟨s6, l6, .ip (.v6 x6) none, rfl, i6, hport, o6⟩
    · exact ⟨s4, l4, .ipv4 x4 none, rfl, i4, hport, o4⟩
    · exact ⟨s6, l6, .ipv6 x6 none, rfl, i6, hport, o6⟩
  | utf8 w a =>
    obtain ⟨b, l, m, h1, h2, rfl⟩ := hn
    rcases ho.2.2.2.1 with ⟨e, -⟩ | ⟨q, -, b', l', e, ⟨_, _, _, _, _, _, _, _, _, _, o2, o3⟩, -⟩
    · rw [h1] at e; cases e
    rw [h1] at e
    cases e
    have hok : ∀ c : Char, c ∉ Spec.Line.whiteSpace → 32 < c.toNat ∧ c.toNat ≠ 127 → Spec.Line.size b (List.replicate m c) = m →
        Means L (.utf8 w a) (List.replicate m c) (.text (List.replicate m c)) := by
      intro c hw hc hsz
      refine ⟨rfl, ?_⟩
      rw [h1]
      refine length_replicate _ b l m c hw hc ⟨?_, ?_⟩ ?_ <;> rw [hsz]
      · exact fun k hk => o2 k m hk h2
      · rintro k hk; rw [h2] at hk; cases hk; exact le_refl m
      · exact fun k hk => o3 k m hk h2
    cases b with
    | true =>
      have hl : (strBytes (List.replicate m 'a')).length = m := by rw [bytes_replicate]; exact Nat.mul_one m
      exact ⟨_, by simpa using hl, _, hok 'a' (by decide) (by decide) (by simpa [Spec.Line.size] using hl)⟩
    | false =>
      have hl : (strBytes (List.replicate m '𝐀')).length = 4 * m := by rw [bytes_replicate, Nat.mul_comm]; rfl
      exact ⟨_, by simpa using hl, _, hok '𝐀' (by decide) (by decide) (by simp [Spec.Line.size])⟩
  | hex w a =>
    cases hn
    have hb := hs w a rfl
    obtain ⟨rfl, hv, -⟩ := ho
    have zero : asc '0' ∈ Spec.Hex.symbols a.case := by cases a.case <;> decide
    have hz : ∀ k, ∀ b ∈ List.replicate k (asc '0'), b ∈ Spec.Hex.symbols a.case := fun k b hb => by
      rw [List.eq_of_mem_replicate hb]; exact zero
    have key : ∀ sizes, ∃ t, t.length = sizes.sum + (if a.separator = .disallow then 0 else sizes.length - 1) ∧ (∀ b ∈ t, b.toNat < 128) ∧
        Spec.Hex.Cut a.separator sizes (List.replicate sizes.sum (asc '0')) t := by
      have hg : ∀ k, ∀ b ∈ List.replicate k (asc '0'), b.toNat < 128 := fun k b hb => by rw [List.eq_of_mem_replicate hb]; decide
      intro sizes
      induction sizes with
      | nil => exact ⟨[], by simp, by simp, rfl, rfl⟩
      | cons k ks ih =>
        cases ks with
        | nil => exact ⟨List.replicate k (asc '0'), by simp, hg k, by simp, by simp⟩
        | cons k' ks =>
          obtain ⟨t, h1, h2, h3⟩ := ih
          have sp : ∃ u, Spec.Hex.Taken a.separator u t ∧ u.length = (if a.separator = .disallow then 0 else 1) ∧ ∀ b ∈ u, b.toNat < 128 := by
            cases e : a.separator with
            | allow b => exact ⟨[b], .inl rfl, rfl, by simpa using hb b (.inr e)⟩
            | must b => exact ⟨[b], rfl, rfl, by simpa using hb b (.inl e)⟩
            | disallow => exact ⟨[], rfl, rfl, by simp⟩
          obtain ⟨u, u1, u2, u3⟩ := sp
          refine ⟨List.replicate k (asc '0') ++ u ++ t, ?_, ?_, _, _, u, t, List.length_replicate, ?_, rfl, u1, h3⟩
          · simp only [List.length_append, List.length_replicate, u2, h1, List.sum_cons, List.length_cons]
            split <;> omega
          · intro b hb
            rcases List.mem_append.1 hb with hb | hb
            · rcases List.mem_append.1 hb with hb | hb
              · exact hg k b hb
              · exact u3 b hb
            · exact h2 b hb
          · rw [List.sum_cons, List.replicate_append_replicate]
    simp only [List.mem_cons, List.not_mem_nil, or_false] at hv
    rcases hv with rfl | rfl
    · obtain ⟨t, h1, h2, h3⟩ := key Spec.Hex.macSizes
      obtain ⟨s, rfl⟩ := ascii_str t h2
      refine ⟨s, ?_, .hex _, _, h3, hz _, rfl⟩
      rw [h1]; split <;> simp [Spec.Hex.macSizes]
    · obtain ⟨t, h1, h2, h3⟩ := key Spec.Hex.uuidSizes
      obtain ⟨s, rfl⟩ := ascii_str t h2
      refine ⟨s, ?_, .hex _, _, h3, hz _, rfl⟩
      rw [h1]; split <;> simp [Spec.Hex.uuidSizes]
  | _ => cases hn

/-- C85, no bound: the other validators of which it can be said accept strings of every length and longer. -/
theorem C85_endless (M : Macro τ φ κ) (ast : Input τ) (p : Plan φ κ) (h : derive M ast = .ok p) (L : Libs φ κ N U V ε)
    (hu : Spec.Url.HostsPresent L.url) (I : Impl (Error ε) (Value φ κ N U V)) (hI : generate L p = some I)
    (hp : Endless L.ptr p) (n : Nat) : ∃ s, n ≤ (strBytes s).length ∧ (I.parseStr s).IsOk := by
  have hm : ¬ LargestMax L.ptr p := by
    cases p with
    | utf8 v a =>
      rintro ⟨l, m, h1, h2, -⟩
      rw [hp _ _ h1] at h2
      cases h2
    | _ => exact id
  have hok := Generated.C71_accepts_partial M ast p h L hu I hI hm
  obtain ⟨v, -, -, ps, -, -, -, ho, -⟩ := Generated.C71_written M ast p h
  simp only [hok]
  have v4 : ∀ loc, ∃ s x, n ≤ (strBytes s).length ∧ Spec.Ip.V4Input (strBytes s) x (some 80) ∧ Spec.Ip.LocalOk loc (Spec.Ip.Local4 x.number) := by
    intro loc
    obtain ⟨u, u1, u2, u3⟩ := long_port n
    have hx : ∃ x : StdIp.V4, Spec.Ip.LocalOk loc (Spec.Ip.Local4 x.number) ∧ ∀ b ∈ x.text, b.toNat < 128 := by
      cases loc
      · exact ⟨⟨127, 0, 0, 1⟩, trivial, by decide +kernel⟩
      · exact ⟨⟨127, 0, 0, 1⟩, by unfold Spec.Ip.LocalOk; decide +kernel, by decide +kernel⟩
      · exact ⟨⟨8, 8, 8, 8⟩, by unfold Spec.Ip.LocalOk; decide +kernel, by decide +kernel⟩
    obtain ⟨x, hx, hxt⟩ := hx
    obtain ⟨s, hs⟩ := ascii_str (x.text ++ ascii ":" ++ u) (by
      intro b hb
      simp only [List.mem_append] at hb
      rcases hb with (hb | hb) | hb
      · exact hxt b hb
      · exact (by decide : ∀ b ∈ ascii ":", b.toNat < 128) b hb
      · exact u2 b hb)
    refine ⟨s, x, ?_, ⟨u, hs, u3⟩, hx⟩
    rw [hs]
    simp only [List.length_append]
    omega
  have hport : ∀ t : TriAllow, t ≠ .disallow → Spec.Ip.PortOk t (some 80) := by
    intro t ht
    cases t
    · trivial
    · exact nofun
    · exact absurd rfl ht
  cases p with
  | base w a =>
    obtain ⟨rfl, hv, -⟩ := ho
    have key : ∀ K : BaseN.Kind, ∃ s d, n ≤ (strBytes s).length ∧ Spec.BaseN.Accepts K.spec a.padding (strBytes s) ∧
        Spec.BaseN.Decodes K.spec a.padding (strBytes s) d := by
      intro K
      have hd : List.replicate (n + 1) (0 : UInt8) ≠ [] := by simp
      have hlen : n ≤ (Spec.BaseN.encodeNopad K.spec (List.replicate (n + 1) 0)).length := by
        rw [Verif.BaseN.length_encodeNopad, List.length_replicate]
        cases K <;> simp only [BaseN.Kind.spec, Spec.BaseN.base64, Spec.BaseN.base64Url, Spec.BaseN.base32] <;> omega
      have hasc : ∀ b ∈ Spec.BaseN.encodeNopad K.spec (List.replicate (n + 1) 0), b.toNat < 128 := by
        intro b hb
        have := Verif.BaseN.encodeNopad_mem K.tails _ b hb
        cases K
        · exact (by decide : ∀ b ∈ Spec.BaseN.base64.alphabet, b.toNat < 128) b this
        · exact (by decide : ∀ b ∈ Spec.BaseN.base64Url.alphabet, b.toNat < 128) b this
        · exact (by decide : ∀ b ∈ Spec.BaseN.base32.alphabet, b.toNat < 128) b this
      have hrt := BaseN.C05_decode_encode K _ hd
      by_cases hp : a.padding = .must
      · obtain ⟨s, hs⟩ := ascii_str (Spec.BaseN.encodePad K.spec (List.replicate (n + 1) 0)) (by
          intro b hb
          rcases List.mem_append.1 hb with hb | hb
          · exact hasc b hb
          · rw [List.eq_of_mem_replicate hb]; decide)
        refine ⟨s, List.replicate (n + 1) 0, ?_, ?_, ?_⟩ <;> rw [hs]
        · simp only [Spec.BaseN.encodePad, List.length_append]; omega
        · exact Verif.BaseN.accepts_encodePad K.codec K.tails _ (by simp [hp]) _ hd
        · rw [← BaseN.C06_language, hp]; exact hrt.1
      · obtain ⟨s, hs⟩ := ascii_str (Spec.BaseN.encodeNopad K.spec (List.replicate (n + 1) 0)) hasc
        refine ⟨s, List.replicate (n + 1) 0, ?_, ?_, ?_⟩ <;> rw [hs]
        · exact hlen
        · exact Verif.BaseN.accepts_encodeNopad K.codec K.tails _ hp _ hd
        · rw [← BaseN.C06_language]
          cases e : a.padding
          · exact hrt.2.2.2
          · exact absurd e hp
          · exact hrt.2.2.1
    obtain ⟨s32, d32, l32, a32, b32⟩ := key .base32
    obtain ⟨s64, d64, l64, a64, b64⟩ := key .base64
    obtain ⟨su, du, lu, au, bu⟩ := key .base64Url
    simp only [List.mem_cons, List.not_mem_nil, or_false] at hv
    rcases hv with rfl | rfl | rfl | rfl | rfl | rfl
    · exact ⟨s32, l32, .text s32, by simp, rfl, a32⟩
    · exact ⟨s32, l32, .bytes d32, by simp, b32⟩
    · exact ⟨s64, l64, .text s64, by simp, rfl, a64⟩
    · exact ⟨s64, l64, .bytes d64, by simp, b64⟩
    · exact ⟨su, lu, .text su, by simp, rfl, au⟩
    · exact ⟨su, lu, .bytes du, by simp, bu⟩
  | ip w a =>
    obtain ⟨rfl, hv, -⟩ := ho
    obtain ⟨s, x, h1, h2, h3⟩ := v4 a.loc
    simp only [List.mem_cons, List.not_mem_nil, or_false] at hv
    rcases hv with rfl | rfl | rfl
    · exact ⟨s, h1, .ip (.v4 x) (some 80), rfl, h2, hport _ hp, h3⟩
    · exact ⟨s, h1, .ipv4 x (some 80), rfl, h2, hport _ hp, h3⟩
    · have ok := fun loc s x p => (Verif.Props.Ip.C29_parse loc .allow s x p).1
      have hx : ∃ (t : List UInt8) (x : StdIp.V6), (∀ b ∈ t, b.toNat < 128) ∧ Spec.Ip.V6Text t x.segs ∧ Spec.Ip.LocalOk a.loc (Spec.Ip.Local6 x.number) := by
        have bare : ∀ loc (t : String) x, asc '[' ∉ strBytes t.toList → Verif.Ip.parseStr Verif.Ip.parseIpv6 loc .allow (strBytes t.toList) = .ok (x, none) →
            Spec.Ip.V6Text (strBytes t.toList) x.segs ∧ Spec.Ip.LocalOk loc (Spec.Ip.Local6 x.number) := by
          intro loc t x hb h
          obtain ⟨h1, -, h3⟩ := ok loc t.toList x none h
          rcases h1 with h1 | ⟨t', h1, -⟩
          · exact ⟨h1, h3⟩
          · exact absurd (by rw [h1]; simp [ascii]) hb
        cases a.loc
        · exact ⟨_, _, by decide +kernel, bare .allow "::1" ⟨0, 0, 0, 0, 0, 0, 0, 1⟩ (by decide +kernel) (by decide +kernel)⟩
        · exact ⟨_, _, by decide +kernel, bare .must "::1" ⟨0, 0, 0, 0, 0, 0, 0, 1⟩ (by decide +kernel) (by decide +kernel)⟩
        · exact ⟨_, _, by decide +kernel, bare .disallow "2606::1" ⟨0x2606, 0, 0, 0, 0, 0, 0, 1⟩ (by decide +kernel) (by decide +kernel)⟩
      obtain ⟨t, x, t1, t2, t3⟩ := hx
      obtain ⟨u, u1, u2, u3⟩ := long_port n
      obtain ⟨s, hs⟩ := ascii_str (ascii "[" ++ t ++ ascii "]:" ++ u) (by
        intro b hb
        simp only [List.mem_append] at hb
        rcases hb with ((hb | hb) | hb) | hb
        · exact (by decide : ∀ b ∈ ascii "[", b.toNat < 128) b hb
        · exact t1 b hb
        · exact (by decide : ∀ b ∈ ascii "]:", b.toNat < 128) b hb
        · exact u2 b hb)
      refine ⟨s, ?_, .ipv6 x (some 80), rfl, ⟨t, u, hs, t2, u3⟩, hport _ hp, t3⟩
      rw [hs]
      simp only [List.length_append]
      omega
  | host a =>
    obtain ⟨s, x, h1, h2, h3⟩ := v4 a.loc
    by_cases hl : a.loc = .allow ∧ a.atl ≠ .allow
    · exact ⟨s, h1, .host ⟨.ipv4 x, some (decide (Spec.Ip.Local4 x.number)), some 80⟩, hport _ hp.1, .inr (.inl ⟨x, rfl, h2, hp.2, h3,
        fun _ => ⟨_, rfl, by simp⟩, fun h => absurd hl h⟩)⟩
    · exact ⟨s, h1, .host ⟨.ipv4 x, none, some 80⟩, hport _ hp.1, .inr (.inl ⟨x, rfl, h2, hp.2, h3, fun h => absurd h hl, fun _ => rfl⟩)⟩
  | utf8 w a =>
    cases e : a.length with
    | none =>
      refine ⟨List.replicate n 'a', by rw [bytes_replicate]; simp [String.utf8EncodeChar], .text _, rfl, ?_⟩
      rw [e]
      intro c hc
      rw [List.eq_of_mem_replicate hc]
      simp [Spec.Line.Forbidden]
    | some bl =>
      obtain ⟨b, l⟩ := bl
      have hsz : ∀ k, Spec.Line.size b (List.replicate k 'a') = k := by
        intro k
        cases b
        · simp [Spec.Line.size]
        · have := bytes_replicate k 'a'; simpa [Spec.Line.size, String.utf8EncodeChar] using this
      refine ⟨List.replicate (n + l.min.getD 0 + l.trimmedMin.getD 0) 'a', by rw [bytes_replicate]; simp [String.utf8EncodeChar]; omega, .text _, rfl, ?_⟩
      rw [e]
      refine length_replicate _ b l _ 'a' (by decide) (by decide) ⟨?_, ?_⟩ ?_ <;> rw [hsz]
      · rintro m hm; rw [hm]; simp; omega
      · rintro m hm; rw [hp b l e] at hm; cases hm
      · rintro m hm; rw [hm]; simp
  | int signed w a =>
    obtain ⟨i, h1, h2⟩ := hp
    have hi : signed = true ∨ 0 ≤ i := by
      cases signed
      · exact .inr h1.1
      · exact .inl rfl
    obtain ⟨t, t1, t2, t3⟩ := long_numeral signed n i hi
    obtain ⟨s, rfl⟩ := ascii_str t t2
    exact ⟨s, t1, .int i, t3, h1, h2⟩
  | _ => cases hp

/-- `ipv4` with an optional port has no bound, nor has a `u8` in `3..=5`; a `line` of at most 3 characters has the bound 12. -/
example : Endless (φ := Int) (κ := Nat) .p64 (.ip .ipv4 ⟨.allow, .allow, ⟨true, true⟩, ⟨true, true⟩⟩) ∧
    Endless (φ := Int) (κ := Nat) .p64 (.int false .w8 ⟨.inside ⟨some 3, some 5, true⟩, ⟨true, true⟩, ⟨true, true⟩⟩) ∧
    AtMost (φ := Int) (κ := Nat) (.utf8 .line ⟨some (false, ⟨none, none, some 3⟩), ⟨true, true⟩, ⟨true, true⟩⟩) 12 :=
  ⟨nofun, ⟨4, by simp [Spec.IntV.Fits, IntV.bits], by simp [Spec.Range.Satisfies, Spec.Range.Contains]⟩, _, _, _, rfl, rfl, rfl⟩

example : ∃ I, generate (φ := Int) Generated.libs (.ip .ipv4 ⟨.allow, .must, ⟨true, true⟩, ⟨true, true⟩⟩) = some I ∧
    I.parseStr "8.8.8.8:0000000080".toList = .ok (.ipv4 ⟨8, 8, 8, 8⟩ (some 80)) := ⟨_, rfl, by decide +kernel⟩

end Verif.Props.Longest
