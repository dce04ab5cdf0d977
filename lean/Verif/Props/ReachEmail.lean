import Verif.Props.WrittenLength
import Verif.Spec.HostText

/-!
# C94: every email address has a text

The addresses without comments and with an ASCII local part that `email` can return: all that the options and the limits admit.
-/

namespace Verif.Props.ReachEmail

open _root_.Verif.BaseN (strBytes)
open Verif.Email Verif.StdIp Verif.Spec Verif.Spec.Ip Verif.Spec.Domain Verif.Spec.Host Verif.Spec.Email
open Verif.Spec.HostText (Known)
open Verif.Host (Host)
open Verif.Domain (Idna ldh ldh_laws)

/-- A host without final dot is written as a text that denotes it. -/
theorem host_text (idna : Idna) (laws : IdnaLaws idna) (x : Host) (hk : Known idna x) (hh : ∀ a, x = .domain a → ¬ ∃ c, a = c ++ ascii ".") :
    HostText idna (showHost x) x := by
  cases x with
  | ipv4 x =>
    rw [show showHost (.ipv4 x) = ascii "[" ++ x.text ++ ascii "]" by simp [showHost, showV4_text, ascii]]
    exact .ipv4
  | ipv6 x =>
    rw [show showHost (.ipv6 x) = ascii "[IPv6:" ++ showV6 x ++ ascii "]" by simp [showHost, ascii]]
    exact .ipv6 (showV6_text x)
  | domain a =>
    obtain ⟨t, ht⟩ := hk
    have hs := laws.symbols _ _ ht
    refine .domain (laws.nonempty _ _ ht) ?_ (fun hb => absurd (hs _ hb) (by decide)) (hh a rfl) (laws.again _ _ ht)
    intro e
    cases a with
    | nil => cases e
    | cons b a =>
      have e : b = asc '[' := Option.some.inj e
      have := hs b List.mem_cons_self
      rw [e] at this
      exact absurd this (by decide)

/-- Text that fits, for ASCII. -/
theorem fits_iff (limit start : Nat) (t : List UInt8) (ha : ∀ b ∈ t, b.toNat < 128) (hs : start ≤ limit) : Fits limit start t ↔ start + t.length ≤ limit := by
  constructor
  · intro h
    refine Nat.le_of_not_lt fun hl => ?_
    have hi : limit - start < t.length := by omega
    have := h (limit - start) t[limit - start] (List.getElem?_eq_getElem hi) (by omega)
    have := ha _ (List.getElem_mem hi)
    omega
  · intro h i b hb e
    have := (List.getElem?_eq_some_iff.1 hb).1
    omega

/-- C94 for `email`: the local part is made of atoms and at most 64 bytes long, or it needs quotation marks and is at most 62 bytes long; the host
is an address or a name of the IDNA conversion, and the options admit it. -/
theorem C94_email (o : Opts) (idna : Idna) (laws : IdnaLaws idna) (v : Value)
    (hc : v.comment1 = none ∧ v.comment2 = none ∧ v.comment3 = none ∧ v.comment4 = none) (ha : ∀ b ∈ v.text, b.toNat < 128)
    (hh : ∀ a, v.host = .domain a → (¬ ∃ c, a = c ++ ascii ".") ∧ a.length ≤ 255) :
    (∃ cs, parseStr o idna (strBytes cs) = .ok v) ↔
      (v.needQuoted = false ∧ Unquoted o.nonAscii v.text ∧ v.text.length ≤ 64 ∨
        v.needQuoted = true ∧ Quoted Escape o.nonAscii v.text ∧ ¬ Unquoted o.nonAscii v.text ∧ v.text.length ≤ 62) ∧
      Known idna v.host ∧ HostOk o v.host ∧ Tells (o.loc = .allow ∧ o.atl ≠ .allow) v.isLocal (LocalHost v.host) := by
  obtain ⟨text, nq, host, c1, c2, c3, c4, l⟩ := v
  obtain ⟨rfl, rfl, rfl, rfl⟩ := hc
  constructor
  · rintro ⟨cs, e⟩
    obtain ⟨q, t, h, tail, hd⟩ := (Email.C62_email o idna cs _).1 e
    refine ⟨?_, ?_, hd.domainText.ok, hd.isLocal⟩
    · have hl := hd.localText
      have hn := hd.needQuoted
      cases q with
      | false =>
        obtain ⟨h1, h2⟩ := hl.unquoted rfl
        have := (fits_iff _ _ _ ha (by simp [comment])).1 h2
        refine .inl ⟨?_, h1, by simpa [comment] using this⟩
        cases nq with
        | false => rfl
        | true => exact absurd (hn.1 rfl).1 (by simp)
      | true =>
        obtain ⟨h1, h2, _⟩ := hl.quoted rfl
        have := (fits_iff _ _ _ ha (by simp [comment])).1 h2
        simp only [comment, List.length_nil] at this
        cases nq with
        | true => exact .inr ⟨rfl, h1, (hn.1 rfl).2, by show text.length ≤ 62; omega⟩
        | false =>
          refine .inl ⟨rfl, ?_, by show text.length ≤ 64; omega⟩
          exact Classical.byContradiction fun hu => absurd (hn.2 ⟨rfl, hu⟩) (by simp)
    · have hx := hd.domainText.host
      show Known idna host
      revert hx
      show HostText idna h host → _
      intro hx
      cases hx with
      | ipv4 => trivial
      | ipv6 => trivial
      | domain _ _ _ _ h => exact ⟨_, h⟩
  · rintro ⟨hl, hk, ho, ht⟩
    have hx := host_text idna laws host hk fun a e => (hh a e).1
    have hlen : (showHost host).length ≤ 255 := by
      cases host with
      | ipv4 x => have := WrittenLength.v4_length x; simp [showHost]; omega
      | ipv6 x => have := WrittenLength.v6_length x; simp [showHost, ascii]; omega
      | domain a => exact (hh a rfl).2
    have hq : ∀ b ∈ quote nq text ++ ascii "@", b.toNat < 128 := by
      intro b hb
      rcases List.mem_append.1 hb with hb | hb
      · cases nq with
        | false => exact ha b hb
        | true =>
          simp only [quote, if_true, List.mem_append] at hb
          rcases hb with (hb | hb) | hb
          · exact (by decide : ∀ b ∈ ascii "\"", b.toNat < 128) b hb
          · exact ha b hb
          · exact (by decide : ∀ b ∈ ascii "\"", b.toNat < 128) b hb
      · exact (by decide : ∀ b ∈ ascii "@", b.toNat < 128) b hb
    obtain ⟨ds, e⟩ := Verif.Ip.str_append _ _ (Verif.Ip.str_ascii _ hq) (showHost_str idna laws _ host hx)
    refine ⟨ds, (Email.C62_email o idna ds _).2 ⟨nq, showHost host, showHost host, [], ?_⟩⟩
    have htext : (quote nq text).length ≤ 64 := by
      rcases hl with ⟨rfl, _, h⟩ | ⟨rfl, _, _, h⟩
      · simpa [quote] using h
      · simp [quote, ascii]; exact h
    refine ⟨?_, ?_, ⟨by simp [Closed], by simp, by simp, ?_, ?_⟩, ⟨by simp [Closed], by simp⟩, ?_, ?_, ht⟩
    · rw [← e]; simp [comment]
    · rw [← e]; simp [ascii]; omega
    · rintro rfl
      rcases hl with ⟨_, h1, h2⟩ | ⟨h, _⟩
      · exact ⟨h1, (fits_iff _ _ _ ha (by simp [comment])).2 (by simpa [comment] using h2)⟩
      · cases h
    · rintro rfl
      rcases hl with ⟨h, _⟩ | ⟨_, h1, _, h2⟩
      · cases h
      · refine ⟨h1, (fits_iff _ _ _ ha (by simp [comment])).2 ?_, by simp [comment]⟩
        simp only [comment, List.length_nil]
        change text.length ≤ 62 at h2
        show 0 + 1 + text.length ≤ 63
        omega
    · rcases hl with ⟨h, h1, _⟩ | ⟨h, _, h1, _⟩
      · constructor
        · intro k; exact absurd (h.symm.trans k) (by simp)
        · rintro ⟨k, _⟩; exact absurd (h.symm.trans k) (by simp)
      · exact ⟨fun _ => ⟨h, h1⟩, fun _ => h⟩
    · exact ⟨by simp [comment], by simp [Closed], by simp, hx, ho, ⟨by simp [Closed], by simp, [], by simp [comment]⟩, hlen, .inl (by simp)⟩

/-- The longest local part, and an IPv6 address. -/
example : ∃ cs, parseStr { Email.free with ip := .must, loc := .must } ldh (strBytes cs) =
    .ok ⟨List.replicate 64 (asc 'a'), false, .ipv6 ⟨0, 0, 0, 0, 0, 0, 0, 1⟩, none, none, none, none, none⟩ := by
  refine (C94_email _ ldh ldh_laws _ ⟨rfl, rfl, rfl, rfl⟩ (by decide +kernel) (by rintro a ⟨⟩)).2 ⟨.inl ⟨rfl, ?_, by decide +kernel⟩, trivial, ?_, ?_⟩
  · exact ⟨by decide +kernel, by decide +kernel, fun b hb => .inl (by rw [(List.mem_replicate.1 hb).2]; decide), by decide +kernel⟩
  · exact ⟨by decide, by decide, (Verif.Ip.isLocalV6_iff _).1 (by decide +kernel)⟩
  · exact ⟨fun h => absurd h.1 (by decide), fun _ => rfl⟩

/-- The other side: 63 bytes that need quotation marks are not read from any string. -/
example (idna : Idna) (laws : IdnaLaws idna) :
    ¬ ∃ cs, parseStr Email.free idna (strBytes cs) = .ok ⟨List.replicate 63 (asc ' '), true, .ipv4 ⟨1, 2, 3, 4⟩, none, none, none, none, none⟩ := by
  rw [C94_email _ idna laws _ ⟨rfl, rfl, rfl, rfl⟩ (by decide +kernel) (by rintro a ⟨⟩)]
  rintro ⟨⟨h, _⟩ | ⟨_, _, _, h⟩, _⟩
  · cases h
  · exact absurd h (by decide +kernel)

end Verif.Props.ReachEmail
