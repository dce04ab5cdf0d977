import Verif.Proof.Written
import Verif.Proof.Longest
import Verif.Spec.Options
import Verif.Props.Host
import Verif.Props.Ip
import Verif.Props.Email

/-!
# C91: the two sides of an email
-/

namespace Verif.Props.Sides

open Verif.Email Verif.Spec Verif.Spec.Domain Verif.Spec.Email Verif.Spec.Host Verif.Spec.Ip Verif.Spec.Options Verif.StdIp Verif.Written
open _root_.Verif.BaseN (strBytes)
open Verif.Domain (Idna ldh ldh_laws)
open Verif.Props.Email (free C62_email)

theorem joined (l h : List Char) : strBytes (l ++ '@' :: h) = strBytes l ++ asc '@' :: strBytes h := by
  unfold strBytes
  rw [List.flatMap_append, List.flatMap_cons]
  rfl

/-- A field that tells something. -/
theorem tells_exists (shown P : Prop) : ∃ f, Tells shown f P := by
  by_cases h : shown
  · by_cases hP : P
    · exact ⟨some true, fun _ => ⟨true, rfl, by simp [hP]⟩, fun k => absurd h k⟩
    · exact ⟨some false, fun _ => ⟨false, rfl, by simp [hP]⟩, fun k => absurd h k⟩
  · exact ⟨none, fun k => absurd k h, fun _ => rfl⟩

/-- The parts of an email without comments. -/
theorem parts (o : Opts) (ho : o.comment = .disallow) (idna : Idna) (hi : ∀ s, asc '@' ∈ s → idna s = none) (l h : List Char) (hh : asc '@' ∉ strBytes h)
    (v : Value) (hv : parseStr o idna (strBytes (l ++ '@' :: h)) = .ok v) :
    ∃ q, strBytes l = quote q v.text ∧ Denotes o idna (strBytes (l ++ '@' :: h)) v q (strBytes h) (strBytes h) [] ∧
      v.comment1 = none ∧ v.comment2 = none ∧ v.comment3 = none ∧ v.comment4 = none := by
  obtain ⟨q, t, g, tail, d⟩ := (C62_email o idna _ v).1 hv
  obtain ⟨k1, k2, k3, k4⟩ := denotes_comments o idna _ v q t g tail d ho
  obtain ⟨-, -, junk, e1, e2⟩ := d.domainText.after
  have htail : tail = [] := by rw [e1, k4, e2 k4]; rfl
  subst htail
  have ht : t = g := by rw [d.domainText.text, k3]; simp [comment]
  subst ht
  have hg : asc '@' ∉ t := by
    have hx := d.domainText.host
    generalize v.host = x at hx
    cases hx with
    | ipv4 =>
      rename_i x
      intro k
      simp only [List.mem_append] at k
      rcases k with (k | k) | k
      · exact absurd k (by decide)
      · rcases Verif.Ip.text_bytes x _ k with k | k <;> revert k <;> decide
      · exact absurd k (by decide)
    | ipv6 hx =>
      intro k
      simp only [List.mem_append] at k
      rcases k with (k | k) | k
      · exact absurd k (by decide)
      · rcases Verif.Ip.v6Text_bytes _ _ hx _ k with k | k | k <;> revert k <;> decide
      · exact absurd k (by decide)
    | domain h1 h2 h3 h4 h5 =>
      intro k
      rw [hi _ k] at h5
      cases h5
  have e : strBytes l ++ asc '@' :: strBytes h = quote q v.text ++ asc '@' :: t := by
    rw [← show strBytes (l ++ '@' :: h) = strBytes l ++ asc '@' :: strBytes h from joined _ _, d.text, k1, k2]
    simp [comment, ascii]
  obtain ⟨e1, e2⟩ := cut_last hh hg e
  subst e2
  exact ⟨q, e1, d, k1, k2, k3, k4⟩

/-- C91: without comments the sides are independent. If `l@h` and `l'@h'` are accepted, so is `l@h'`, with the local part of the one and the host
of the other, within the limits of length. -/
theorem C91_sides (o : Opts) (ho : o.comment = .disallow) (idna : Idna) (hi : ∀ s, asc '@' ∈ s → idna s = none) (l l' h h' : List Char)
    (hh : asc '@' ∉ strBytes h) (hh' : asc '@' ∉ strBytes h') (v w : Value)
    (hv : parseStr o idna (strBytes (l ++ '@' :: h)) = .ok v) (hw : parseStr o idna (strBytes (l' ++ '@' :: h')) = .ok w)
    (hlen : (strBytes (l ++ '@' :: h')).length ≤ 320) (hp : (showHost w.host).length ≤ 255) :
    parseStr o idna (strBytes (l ++ '@' :: h')) = .ok { w with text := v.text, needQuoted := v.needQuoted } := by
  obtain ⟨q, e, d, k1, k2, k3, k4⟩ := parts o ho idna hi l h hh v hv
  obtain ⟨q', e', d', k1', k2', k3', k4'⟩ := parts o ho idna hi l' h' hh' w hw
  rw [C62_email]
  refine ⟨q, strBytes h', strBytes h', [], ⟨?_, hlen, ?_, ?_, d.needQuoted, ?_, d'.isLocal⟩⟩
  · simp only [k1', k2', comment]
    rw [show strBytes (l ++ '@' :: h') = strBytes l ++ asc '@' :: strBytes h' from joined _ _, e]
    simp [ascii]
  · have := d.localText
    rw [k1] at this
    simp only [k1']
    exact this
  · simp only [k1', k2']
    exact ⟨fun _ k => (by cases k), fun k => absurd rfl k⟩
  · have dt := d'.domainText
    refine ⟨dt.text, dt.closed, dt.allowed, dt.host, dt.ok, dt.after, dt.short, .inr ?_⟩
    simp only [k3', comment]
    simp
    omega

/-! ## The host -/

/-- A host text after `a@`. -/
theorem short_email (o : Opts) (idna : Idna) (h : List Char) (hp : asc '(' ∉ strBytes h) (x : Verif.Host.Host) :
    Gives (parseStr o idna (strBytes ('a' :: '@' :: h))) Value.host x ↔
      HostText idna (strBytes h) x ∧ HostOk o x ∧ (strBytes h).length ≤ 255 ∧
        ((showHost x).length ≤ (strBytes h).length ∨ (showHost x).length ≤ 255) := by
  have hj : strBytes ('a' :: '@' :: h) = asc 'a' :: asc '@' :: strBytes h := joined ['a'] h
  constructor
  · rintro ⟨v, hv, rfl⟩
    obtain ⟨q, t, g, tail, d⟩ := (C62_email o idna _ v).1 hv
    have e := d.text
    rw [hj] at e
    have k1 : v.comment1 = none := by
      cases hc : v.comment1 with
      | none => rfl
      | some c =>
        rw [hc] at e
        have := (List.cons.inj (show asc 'a' :: _ = asc '(' :: _ by simpa [comment, ascii] using e)).1
        exact absurd this (by decide)
    rw [k1] at e
    have hq : q = false := by
      cases q with
      | false => rfl
      | true =>
        have := (List.cons.inj (show asc 'a' :: _ = asc '"' :: _ by simpa [comment, quote, ascii] using e)).1
        exact absurd this (by decide)
    subst hq
    obtain ⟨hU, -⟩ := d.localText.unquoted rfl
    have e : asc 'a' :: asc '@' :: strBytes h = v.text ++ (comment v.comment2 ++ asc '@' :: t) := by
      rw [e]; simp [comment, quote, ascii]
    have sym : ∀ b ∈ v.text, b ≠ asc '@' := by
      intro b hb
      rcases hU.2.2.1 b hb with k | k | k
      · exact (by decide : ∀ b ∈ atext, b ≠ asc '@') b k
      · subst k; decide
      · intro e; subst e; exact absurd k.2 (by decide)
    have ht : comment v.comment2 ++ asc '@' :: t = asc '@' :: strBytes h := by
      cases hx : v.text with
      | nil => exact absurd hx hU.1
      | cons b r =>
        rw [hx] at e
        obtain ⟨-, e⟩ := List.cons.inj e
        cases r with
        | nil => exact e.symm
        | cons c r =>
          exact absurd (List.cons.inj e).1.symm (sym c (by rw [hx]; simp))
    have k2 : v.comment2 = none := by
      cases hc : v.comment2 with
      | none => rfl
      | some c =>
        rw [hc] at ht
        have := (List.cons.inj (show asc '(' :: _ = asc '@' :: _ by simpa [comment, ascii] using ht)).1
        exact absurd this (by decide)
    rw [k2] at ht
    have ht : t = strBytes h := (List.cons.inj ht).2
    have dt := d.domainText
    have hx := dt.text
    have k3 : v.comment3 = none := by
      cases hc : v.comment3 with
      | none => rfl
      | some c => exact absurd (by rw [← ht, hx, hc]; simp [comment, ascii]) hp
    have k4 : v.comment4 = none := by
      cases hc : v.comment4 with
      | none => rfl
      | some c =>
        obtain ⟨-, -, junk, e1, -⟩ := dt.after
        exact absurd (by rw [← ht, hx, e1, hc]; simp [comment, ascii]) hp
    obtain ⟨-, -, junk, e1, e2⟩ := dt.after
    have htail : tail = [] := by rw [e1, k4, e2 k4]; rfl
    have hg : t = g := by rw [hx, k3, htail]; simp [comment]
    have nq : v.needQuoted = false := by
      cases hn : v.needQuoted with
      | false => rfl
      | true => exact absurd (d.needQuoted.1 hn).1 (by decide)
    have hpr := dt.printed
    rw [nq, k3, htail] at hpr
    have hs := dt.short
    rw [← ht]
    subst hg
    refine ⟨dt.host, dt.ok, hs, ?_⟩
    simpa [comment] using hpr
  · rintro ⟨h1, h2, h3, h4⟩
    obtain ⟨f, hf⟩ := tells_exists (o.loc = .allow ∧ o.atl ≠ .allow) (LocalHost x)
    refine ⟨⟨ascii "a", false, x, none, none, none, none, f⟩, (C62_email o idna _ _).2
      ⟨false, strBytes h, strBytes h, [], ?_, ?_, ?_, ?_, ?_, ?_, hf⟩, rfl⟩
    · rw [hj]; simp [comment, quote, ascii]
    · rw [hj]; simp; omega
    · refine ⟨fun _ k => (by cases k), fun k => absurd rfl k, fun _ k => (by cases k), fun _ => ⟨⟨(by decide : ascii "a" ≠ []), (by decide : (ascii "a").head? ≠ some (asc '.')), ?_, (by decide : ¬ ascii ".." <:+: ascii "a")⟩, ?_⟩, fun k => (by cases k)⟩
      · intro b hb
        exact .inl ((by decide : ∀ b ∈ ascii "a", b ∈ atext) b hb)
      · intro i b hb k
        have : i < 1 := (List.getElem?_eq_some_iff.1 hb).1
        simp [comment] at k
        omega
    · exact ⟨fun _ k => (by cases k), fun k => absurd rfl k⟩
    · simp
    · refine ⟨by simp [comment], fun _ k => (by cases k), fun k => absurd rfl k, h1, h2, ⟨fun _ k => (by cases k), fun k => absurd rfl k, [], by simp [comment], fun _ => rfl⟩, h3, ?_⟩
      simpa [comment] using h4

/-- C91: a text after `a@` is a name for `email` exactly if it is one for `host` without a port, within the limits of length. Only dotted quads
are excepted; `email` takes them for names. -/
theorem C91_name (o : Opts) (idna : Idna) (hi : ∀ s, asc ':' ∈ s → idna s = none) (h : List Char) (hp : asc '(' ∉ strBytes h)
    (hq : ∀ x : V4, strBytes h ≠ x.text) (n : List UInt8) :
    Gives (parseStr o idna (strBytes ('a' :: '@' :: h))) Value.host (.domain n) ↔
      Gives (Verif.Host.parseStr ⟨o.loc, .disallow, o.atl⟩ idna (strBytes h)) Verif.Host.Value.host (.domain n) ∧ o.ip ≠ .must ∧
        (strBytes h).length ≤ 255 ∧ (n.length ≤ (strBytes h).length ∨ n.length ≤ 255) := by
  rw [short_email o idna h hp]
  constructor
  · rintro ⟨h1, ⟨g1, g2, g3⟩, h3, h4⟩
    generalize hz : strBytes h = z at h1
    cases h1 with
    | domain k1 k2 k3 k4 k5 =>
      subst hz
      have hc : asc ':' ∉ strBytes h := fun k => by rw [hi _ k] at k5; cases k5
      obtain ⟨f, hf⟩ := tells_exists (ShowsLocal ⟨o.loc, .disallow, o.atl⟩) (LocalName n)
      refine ⟨⟨⟨.domain n, f, none⟩, (Host.C37_host _ idna h _).2 ⟨rfl, .inr (.inr ⟨strBytes h, n, rfl, ⟨rfl, hc⟩, ⟨k1, k2, ?_, k4, hq⟩, k5, g2, g3, hf⟩)⟩, rfl⟩, g1, h3, h4⟩
      intro x hx
      obtain ⟨t, r, e, -⟩ := Verif.Ip.v6Text_colon _ _ hx
      exact hc (by rw [e]; simp)
  · rintro ⟨⟨v, hv, e⟩, g1, h3, h4⟩
    obtain ⟨hport, hv⟩ := (Host.C37_host _ idna h v).1 hv
    rcases hv with ⟨x, k, -⟩ | ⟨x, k, -⟩ | ⟨d, a, k, k1, ⟨k2, k3, -, k5, -⟩, k6, k7, k8, -⟩
    · rw [e] at k; cases k
    · rw [e] at k; cases k
    · rw [e] at k; cases k
      have hport : v.port = none := hport
      rw [hport] at k1
      obtain ⟨k1, -⟩ := k1
      subst k1
      exact ⟨.domain k2 k3 hp k5 k6, ⟨g1, k7, k8⟩, h3, h4⟩

theorem bracketed (p : List Char) (pb : List UInt8) (hb : strBytes p = pb) (t : List Char) : strBytes (p ++ (t ++ [']'])) = pb ++ strBytes t ++ ascii "]" := by
  unfold strBytes at hb ⊢
  rw [List.flatMap_append, List.flatMap_append, hb, List.append_assoc]
  rfl

/-- C91: a text in brackets is an IPv4 address for `email` exactly if it is one for `ipv4` without a port. -/
theorem C91_ipv4 (o : Opts) (idna : Idna) (t : List Char) (hp : asc '(' ∉ strBytes t) (x : V4) :
    Gives (parseStr o idna (strBytes ('a' :: '@' :: ("[".toList ++ (t ++ [']']))))) Value.host (.ipv4 x) ↔
      Verif.Ip.parseStr Verif.Ip.parseIpv4 o.loc .disallow (strBytes t) = .ok (x, none) ∧ o.ip ≠ .disallow ∧ o.atl ≠ .disallow := by
  have hb := bracketed "[".toList (ascii "[") (by decide) t
  have hp' : asc '(' ∉ strBytes ("[".toList ++ (t ++ [']'])) := by
    rw [hb]
    simp only [List.mem_append]
    rintro ((k | k) | k)
    · exact absurd k (by decide)
    · exact hp k
    · exact absurd k (by decide)
  rw [short_email o idna _ hp', Ip.C28_parse, hb]
  have e4 : showHost (.ipv4 x) = ascii "[" ++ x.text ++ ascii "]" := by simp [showHost, showV4_eq, ascii]
  constructor
  · rintro ⟨h1, ⟨g1, g2, g3⟩, -⟩
    have e : strBytes t = x.text := by
      generalize hz : ascii "[" ++ strBytes t ++ ascii "]" = z at h1
      cases h1 with
      | ipv4 => exact List.append_cancel_left (List.append_cancel_right hz)
    exact ⟨⟨e, rfl, g3⟩, g1, g2⟩
  · rintro ⟨⟨e, -, g3⟩, g1, g2⟩
    have e : strBytes t = x.text := e
    have hl := text_length x
    rw [e]
    refine ⟨.ipv4, ⟨g1, g2, g3⟩, ?_, .inl ?_⟩
    · simp [ascii]; omega
    · rw [e4]

/-- C91: a text after `[IPv6:` is an IPv6 address for `email` exactly if it is one for `ipv6` without brackets and port. -/
theorem C91_ipv6 (o : Opts) (idna : Idna) (t : List Char) (hp : asc '(' ∉ strBytes t) (hb' : (strBytes t).head? ≠ some (asc '[')) (x : V6) :
    Gives (parseStr o idna (strBytes ('a' :: '@' :: ("[IPv6:".toList ++ (t ++ [']']))))) Value.host (.ipv6 x) ↔
      Verif.Ip.parseStr Verif.Ip.parseIpv6 o.loc .disallow (strBytes t) = .ok (x, none) ∧ o.ip ≠ .disallow ∧ o.atl ≠ .disallow := by
  have hb := bracketed "[IPv6:".toList (ascii "[IPv6:") (by decide) t
  have hp' : asc '(' ∉ strBytes ("[IPv6:".toList ++ (t ++ [']'])) := by
    rw [hb]
    simp only [List.mem_append]
    rintro ((k | k) | k)
    · exact absurd k (by decide)
    · exact hp k
    · exact absurd k (by decide)
  rw [short_email o idna _ hp', Ip.C29_parse, hb]
  have e6 : showHost (.ipv6 x) = ascii "[IPv6:" ++ showV6 x ++ ascii "]" := by simp [showHost, ascii]
  constructor
  · rintro ⟨h1, ⟨g1, g2, g3⟩, -⟩
    have e : V6Text (strBytes t) x.segs := by
      generalize hz : ascii "[IPv6:" ++ strBytes t ++ ascii "]" = z at h1
      cases h1 with
      | ipv6 k => rw [List.append_cancel_left (List.append_cancel_right hz)]; exact k
    exact ⟨⟨.inl e, rfl, g3⟩, g1, g2⟩
  · rintro ⟨⟨e, -, g3⟩, g1, g2⟩
    rcases e with e | ⟨u, e, -⟩
    · have hl := Verif.Longest.v6_length _ _ e
      have hl' := Verif.Longest.v6_length _ _ (showV6_text x)
      refine ⟨.ipv6 e, ⟨g1, g2, g3⟩, ?_, .inr ?_⟩
      · simp [ascii]; omega
      · rw [e6]; simp [ascii]; omega
    · exact absurd (show (strBytes t).head? = some (asc '[') by rw [e]; rfl) hb'

/-- The exception: a dotted quad without brackets is a name for `email` and an address for `host`. -/
example : (∃ v, parseStr free ldh (ascii "a@1.2.3.4") = .ok v ∧ v.host = .domain (ascii "1.2.3.4")) ∧
    Verif.Host.parseStr ⟨.allow, .disallow, .allow⟩ ldh (ascii "1.2.3.4") = .ok ⟨.ipv4 ⟨1, 2, 3, 4⟩, none, none⟩ :=
  ⟨⟨⟨ascii "a", false, .domain (ascii "1.2.3.4"), none, none, none, none, none⟩, by decide +kernel⟩, by decide +kernel⟩

/-- Names and addresses for which the sides of C91 hold. -/
example : (∃ v, parseStr free ldh (ascii "a@Example.com") = .ok v ∧ v.host = .domain (ascii "example.com")) ∧
    Verif.Host.parseStr ⟨.allow, .disallow, .allow⟩ ldh (ascii "Example.com") = .ok ⟨.domain (ascii "example.com"), none, none⟩ ∧
    (∃ v, parseStr free ldh (ascii "a@[IPv6:::1]") = .ok v ∧ v.host = .ipv6 ⟨0, 0, 0, 0, 0, 0, 0, 1⟩) ∧
    Verif.Ip.parseStr Verif.Ip.parseIpv6 .allow .disallow (ascii "::1") = .ok (⟨0, 0, 0, 0, 0, 0, 0, 1⟩, none) ∧
    (∃ v, parseStr free ldh (ascii "a@[1.2.3.4]") = .ok v ∧ v.host = .ipv4 ⟨1, 2, 3, 4⟩) ∧
    Verif.Ip.parseStr Verif.Ip.parseIpv4 .allow .disallow (ascii "1.2.3.4") = .ok (⟨1, 2, 3, 4⟩, none) :=
  ⟨⟨⟨ascii "a", false, .domain (ascii "example.com"), none, none, none, none, none⟩, by decide +kernel⟩, by decide +kernel,
    ⟨⟨ascii "a", false, .ipv6 ⟨0, 0, 0, 0, 0, 0, 0, 1⟩, none, none, none, none, none⟩, by decide +kernel⟩, by decide +kernel,
    ⟨⟨ascii "a", false, .ipv4 ⟨1, 2, 3, 4⟩, none, none, none, none, none⟩, by decide +kernel⟩, by decide +kernel⟩

/-- Two emails and the one made of the sides of both. -/
example : ∃ v w, parseStr { free with comment := .disallow } ldh (strBytes ("\"a b\"".toList ++ '@' :: "x.yy".toList)) = .ok v ∧
    parseStr { free with comment := .disallow } ldh (strBytes ("c".toList ++ '@' :: "[1.2.3.4]".toList)) = .ok w ∧
    parseStr { free with comment := .disallow } ldh (strBytes ("\"a b\"".toList ++ '@' :: "[1.2.3.4]".toList)) =
      .ok { w with text := v.text, needQuoted := v.needQuoted } :=
  ⟨⟨ascii "a b", true, .domain (ascii "x.yy"), none, none, none, none, none⟩, ⟨ascii "c", false, .ipv4 ⟨1, 2, 3, 4⟩, none, none, none, none, none⟩,
    by decide +kernel⟩

end Verif.Props.Sides
