import Verif.Proof.Control
import Verif.Proof.Ldh

/-!
# C86: control characters in accepted strings
-/

namespace Verif.Props.Control

open Verif Verif.Attr Verif.Derive Verif.Generated Verif.Spec.Generated Verif.Spec.Control Verif.Control
open _root_.Verif.BaseN (strBytes)

variable {τ φ κ N U V ε : Type} [LinearOrder φ] [DecidableEq κ]

/-- C86, the validators of numbers, addresses, base-N texts and `boolean`: an accepted string consists of printable ASCII characters,
without blanks. -/
theorem C86_printable (M : Macro τ φ κ) (ast : Input τ) (p : Plan φ κ) (h : derive M ast = .ok p) (L : Libs φ κ N U V ε)
    (hu : Spec.Url.HostsPresent L.url) (I : Impl (Error ε) (Value φ κ N U V)) (hI : generate L p = some I) (hp : Printable p) (s : List Char)
    (hs : (I.parseStr s).IsOk) : ∀ b ∈ strBytes s, Graphic b := by
  obtain ⟨x, hx⟩ := hs
  have hm : ¬ LargestMax L.ptr p := by cases p <;> first | exact id | cases hp
  have hw := (Generated.C71_sound_partial M ast p h L hu I hI hm s x hx).2
  cases p with
  | base v a =>
    have hk : ∃ K : BaseN.Kind, notationOf v = K.spec := by
      unfold notationOf
      split
      · exact ⟨.base32, rfl⟩
      · exact ⟨.base32, rfl⟩
      · exact ⟨.base64Url, rfl⟩
      · exact ⟨.base64Url, rfl⟩
      · exact ⟨.base64, rfl⟩
    obtain ⟨K, hk⟩ := hk
    cases x with
    | text t => obtain ⟨-, -, h⟩ := hw; rw [hk] at h; exact accepts_graphic K _ _ h
    | bytes d => obtain ⟨-, h⟩ := hw; rw [hk] at h; exact decodes_graphic K _ _ _ h
    | _ => cases hw
  | basic v a =>
    cases hp
    cases x with
    | bool w =>
      obtain ⟨-, hw⟩ := hw
      intro b hb
      have hm : Spec.Boolean.lower b ∈ (strBytes s).map Spec.Boolean.lower := List.mem_map_of_mem hb
      have hl : Graphic (Spec.Boolean.lower b) := by
        generalize (strBytes s).map Spec.Boolean.lower = w' at hm hw
        cases w
        · exact (by decide : ∀ w ∈ Spec.Boolean.falseWords, ∀ b ∈ w, Graphic b) _ hw _ hm
        · exact (by decide : ∀ w ∈ Spec.Boolean.trueWords, ∀ b ∈ w, Graphic b) _ hw _ hm
      have key : ∀ b : UInt8, Graphic (Spec.Boolean.lower b) → Graphic b := by
        apply Verif.BaseN.forall_uint8
        decide +kernel
      exact key b hl
    | object y => exact absurd rfl hw.1
    | _ => cases hw
  | ip v a =>
    cases x with
    | ip y port =>
      obtain ⟨-, h, -⟩ := hw
      cases y with
      | v4 y => exact v4Input_graphic _ _ _ h
      | v6 y => exact v6Input_graphic _ _ _ h
    | ipv4 y port => obtain ⟨-, h, -⟩ := hw; exact v4Input_graphic _ _ _ h
    | ipv6 y port => obtain ⟨-, h, -⟩ := hw; exact v6Input_graphic _ _ _ h
    | _ => cases hw
  | hex v a =>
    cases x with
    | hex n =>
      obtain ⟨ds, hc, hd, -⟩ := hw
      exact cut_graphic _ hp _ _ _ hc fun b hb => symbols_graphic _ b (hd b hb)
    | _ => cases hw
  | int signed w a =>
    cases x with
    | int i => obtain ⟨h, -⟩ := hw; exact numeral_graphic _ _ _ h
    | _ => cases hw
  | _ => cases hp

/-- `#[validator(ipv4(port(Disallow)))] struct S(Ipv4Addr);` is one of them. -/
example : ∃ p, derive Derive.full ⟨[Derive.attr (.list (some "ipv4") (.metas [.list (some "port") (.word "Disallow")]))], .struct (.unnamed ["Ipv4Addr"])⟩ = .ok p ∧
    Printable p := ⟨.ip .ipv4 _, rfl, trivial⟩

/-- C86, names, emails and lines: with an IDNA conversion that refuses control characters an accepted string has no control character
but the tab. Missing: emails with `comment(Allow)`, lines with `trimmed_min`, and (C73) the largest maximum. -/
theorem C86_single_line_partial (M : Macro τ φ κ) (ast : Input τ) (p : Plan φ κ) (h : derive M ast = .ok p) (L : Libs φ κ N U V ε)
    (hu : Spec.Url.HostsPresent L.url) (hi : Refuses L.idna) (I : Impl (Error ε) (Value φ κ N U V)) (hI : generate L p = some I)
    (hm : ¬ LargestMax L.ptr p) (hp : SingleLine p) (hx : ¬ Exception p) (s : List Char) (hs : (I.parseStr s).IsOk) : OneLine (strBytes s) := by
  obtain ⟨x, hs⟩ := hs
  have hw := (Generated.C71_sound_partial M ast p h L hu I hI hm s x hs).2
  have quadDot : ∀ d y, Spec.Domain.QuadDot d y → OneLine d := by
    rintro d y (rfl | rfl)
    · exact oneLine_graphic _ (v4_graphic y)
    · exact oneLine_graphic _ (append_graphic _ _ (v4_graphic y) dot_graphic)
  have hostPort : ∀ s d port, Spec.Domain.HostPort s d port → OneLine d → OneLine s := by
    intro s d port h1 h2
    cases port with
    | none => obtain ⟨rfl, -⟩ := h1; exact h2
    | some n =>
      obtain ⟨u, rfl, hu⟩ := h1
      rw [oneLine_append, oneLine_append]
      exact ⟨⟨h2, oneLine_graphic _ colon_graphic⟩, oneLine_graphic _ (port_graphic _ _ hu)⟩
  cases p with
  | domain a =>
    cases x with
    | domain y =>
      obtain ⟨-, d, h1, -, ⟨-, x, -, h2, -⟩ | ⟨-, -, h2, -⟩⟩ := hw
      · exact hostPort _ _ _ h1 (quadDot _ _ h2)
      · exact hostPort _ _ _ h1 (refused _ hi _ _ h2)
    | _ => cases hw
  | host a =>
    cases x with
    | host y =>
      obtain ⟨-, ⟨x, -, h, -⟩ | ⟨x, -, h, -⟩ | ⟨d, b, -, h1, -, h2, -⟩⟩ := hw
      · exact oneLine_graphic _ (v6Input_graphic _ _ _ h)
      · exact oneLine_graphic _ (v4Input_graphic _ _ _ h)
      · exact hostPort _ _ _ h1 (refused _ hi _ _ h2)
    | _ => cases hw
  | email a =>
    cases x with
    | email y =>
      obtain ⟨q, t, h, tail, hd⟩ := hw
      have hc : ∀ c : Option (List UInt8), (c ≠ none → a.comment = .allow) → c = none := fun c h => Classical.byContradiction fun hn => hx (h hn)
      have h1 := hc _ hd.localText.allowed
      have h2 := hc _ fun h => (hd.comment2.2 h).1
      have h3 := hc _ hd.domainText.allowed
      obtain ⟨-, h4, junk, hj, hn⟩ := hd.domainText.after
      have h4 := hc _ h4
      have hl := local_oneLine _ _ _ _ hd.localText
      have hh := hostText_oneLine _ hi _ _ hd.domainText.host
      rw [hd.text, hd.domainText.text, hj, h1, h2, h3, h4, hn h4]
      simp only [Spec.Email.comment, List.nil_append, List.append_nil, oneLine_append]
      refine ⟨⟨?_, oneLine_graphic _ (by decide)⟩, hh⟩
      cases q
      · exact hl
      · simp only [Spec.Email.quote, if_true, oneLine_append]
        exact ⟨⟨oneLine_graphic _ (by decide), hl⟩, oneLine_graphic _ (by decide)⟩
    | _ => cases hw
  | utf8 v a =>
    cases hp
    cases x with
    | text t =>
      obtain ⟨-, hw⟩ := hw
      have hc : Spec.Line.Clean .line s := by
        cases e : a.length with
        | none => simpa only [LengthOk, e, if_true] using hw
        | some bl =>
          obtain ⟨b, l⟩ := bl
          simp only [LengthOk, e] at hw
          have : l.trimmedMin = none := Classical.byContradiction fun h => hx ⟨b, l, e, h⟩
          simpa only [this, if_true] using hw.2.2
      exact clean_oneLine s hc
    | _ => cases hw
  | _ => cases hp

/-- `#[validator(line)] struct S(String);` and `#[validator(email)]` are such; `email(comment(Allow))` is an exception. -/
example : ∃ p, derive Derive.full ⟨[Derive.attr (.path (some "line"))], .struct (.unnamed ["String"])⟩ = .ok p ∧ SingleLine p ∧ ¬ Exception p :=
  ⟨_, rfl, rfl, nofun⟩

/-- A conversion that refuses control characters. -/
example : Refuses Domain.ldh := by
  intro h a e b hb
  rw [Domain.ldh] at e
  split at e
  · rename_i hall
    have key : ∀ b : UInt8, Spec.Domain.lowered b ∈ ascii "abcdefghijklmnopqrstuvwxyz0123456789-." → ¬ Control b := by
      apply Verif.BaseN.forall_uint8
      decide +kernel
    exact key b (hall.2.2.2.1 _ (List.mem_map_of_mem hb))
  · cases e

example : (Email.parseStr ⟨.disallow, .allow, .allow, .allow, .allow, true⟩ Domain.ldh (strBytes "\"a\tb\"@b.com".toList)).IsOk ∧
    ¬ (Email.parseStr ⟨.disallow, .allow, .allow, .allow, .allow, true⟩ Domain.ldh (strBytes "\"a\nb\"@b.com".toList)).IsOk := by decide +kernel

/-- C86, emails with comments: every control character but the tab lies in a comment, or after the last one. -/
theorem C86_email_partial (o : Email.Opts) (idna : Domain.Idna) (hi : Refuses idna) (cs : List Char) (v : Email.Value)
    (hv : Email.parseStr o idna (strBytes cs) = .ok v) :
    ∃ q h junk, strBytes cs = Spec.Email.comment v.comment1 ++ Spec.Email.quote q v.text ++ Spec.Email.comment v.comment2 ++ ascii "@" ++
      Spec.Email.comment v.comment3 ++ h ++ Spec.Email.comment v.comment4 ++ junk ∧ OneLine v.text ∧ OneLine h ∧
      (v.comment4 = none → junk = []) := by
  obtain ⟨q, t, h, tail, hd⟩ := (Email.C62_email o idna cs v).1 hv
  obtain ⟨-, -, junk, hj, hn⟩ := hd.domainText.after
  refine ⟨q, h, junk, ?_, local_oneLine _ _ _ _ hd.localText, hostText_oneLine _ hi _ _ hd.domainText.host, hn⟩
  rw [hd.text, hd.domainText.text, hj]
  simp

/-- C86, what is written: without comments, and if IDNA returns letters, digits, hyphens and dots, the email that `to_email_string`
writes has no control character but the tab. -/
theorem C86_written_partial (o : Email.Opts) (idna : Domain.Idna) (hi : Spec.Domain.IdnaLaws idna) (cs : List Char) (v : Email.Value)
    (hv : Email.parseStr o idna (strBytes cs) = .ok v) (hc : o.comment = .disallow) : OneLine (Email.toEmail o v) := by
  obtain ⟨q, t, h, tail, hd⟩ := (Email.C62_email o idna cs v).1 hv
  have hl := local_oneLine _ _ _ _ hd.localText
  have hh : OneLine (Email.showHost v.host) := by
    have hx := hd.domainText.host
    generalize v.host = x at hx
    cases hx with
    | ipv4 =>
      rw [Email.showHost, Email.showV4_text]
      exact oneLine_graphic _ (append_graphic _ _ (append_graphic [asc '['] _ (by decide) (v4_graphic _)) (by decide))
    | ipv6 h =>
      exact oneLine_graphic _ (append_graphic _ _ (append_graphic _ _ (by decide) (v6_graphic _ _ (StdIp.showV6_text _))) (by decide))
    | domain _ _ _ _ e =>
      exact oneLine_graphic _ fun b hb =>
        (by decide : ∀ b ∈ ascii "abcdefghijklmnopqrstuvwxyz0123456789-.", Graphic b) b (hi.symbols _ _ e b hb)
  rw [Email.toEmail, if_pos hc]
  exact (oneLine_append _ _).2 ⟨hl, (oneLine_append [asc '@'] _).2 ⟨oneLine_graphic _ (by decide), hh⟩⟩

/-- C86 fails for emails with comments: whatever a comment after the host contains, line breaks included, is accepted, and
`to_email_string` writes it. -/
theorem C86_violated_email (o : Email.Opts) (idna : Domain.Idna) (hi : idna (ascii "b.com") = some (ascii "b.com")) (hc : o.comment = .allow)
    (h1 : o.ip ≠ .must) (h2 : o.loc ≠ .must) (h3 : o.atl ≠ .disallow) (c : List Char) (hp : ')' ∉ c) (hl : (strBytes c).length ≤ 248) :
    ∃ v, Email.parseStr o idna (strBytes ("a@b.com(".toList ++ c ++ [')'])) = .ok v ∧
      Email.toEmail o v = strBytes ("a@b.com(".toList ++ c ++ [')']) := by
  have hb : strBytes ("a@b.com(".toList ++ c ++ [')']) = ascii "a@b.com(" ++ strBytes c ++ ascii ")" := by
    simp only [strBytes, List.flatMap_append]
    rfl
  have hn : ¬ Spec.Domain.LocalName (ascii "b.com") := by rw [← Domain.localName_iff]; decide
  have hm : Spec.Domain.ManyLabels (ascii "b.com") := by rw [← Domain.manyLabels_iff]; decide
  have hclosed : asc ')' ∉ strBytes c := by
    intro h
    obtain ⟨x, hx, -, e⟩ := ascii_mem c _ h (by decide)
    have : x = ')' := Char.ext (UInt32.toNat_inj.1 e.symm)
    exact hp (this ▸ hx)
  refine ⟨⟨ascii "a", false, .domain (ascii "b.com"), none, none, none, some (strBytes c),
    if o.loc = .allow ∧ o.atl ≠ .allow then some false else none⟩, (Email.C62_email o idna _ _).2 ⟨false,
      ascii "b.com(" ++ strBytes c ++ ascii ")", ascii "b.com", ascii "(" ++ strBytes c ++ ascii ")", ?_⟩, ?_⟩
  · refine ⟨?_, ?_, ⟨nofun, nofun, nofun, fun _ => ⟨⟨(by decide : ascii "a" ≠ []), (by decide : (ascii "a").head? ≠ some (asc '.')), ?_, ?_⟩, ?_⟩, nofun⟩, ⟨nofun, nofun⟩, by simp,
      ⟨?_, nofun, nofun, .domain (by decide) (by decide) (by decide) ?_ hi, ⟨h1, ?_, ?_⟩, ⟨?_, fun _ => hc, [], by simp [Spec.Email.comment], nofun⟩, ?_, .inl (le_refl _)⟩, ?_⟩
    · rw [hb]; simp [Spec.Email.comment, Spec.Email.quote, ascii]
    · rw [hb]; simp [ascii]; omega
    · intro b hb; exact .inl ((by decide : ∀ b ∈ ascii "a", b ∈ Spec.Email.atext) b hb)
    · intro h; have := h.length_le; simp [ascii] at this
    · intro i b h e
      simp only [Spec.Email.comment, List.length_nil, Nat.zero_add] at e
      subst e
      simp [ascii] at h
    · simp [Spec.Email.comment, ascii]
    · rintro ⟨x, h⟩
      have := congrArg List.getLast? h
      rw [List.getLast?_append] at this
      simp [ascii, asc] at this
    · cases e : o.atl
      · trivial
      · exact .inr hm
      · exact absurd e h3
    · cases e : o.loc
      · trivial
      · exact absurd e h2
      · exact hn
    · rintro t ⟨⟩; exact hclosed
    · simp [ascii]; omega
    · constructor
      · intro h; exact ⟨false, if_pos h, by simpa [Spec.Host.LocalHost] using hn⟩
      · intro h; exact if_neg h
  · rw [hb, Email.toEmail, if_neg (by simp [hc])]
    simp [Email.showComment, Email.showHost, ascii]

/-- A line break in a comment, written to an email header, begins another header. -/
example : ∃ v, Email.parseStr ⟨.allow, .allow, .allow, .allow, .allow, true⟩ Domain.ldh (strBytes "a@b.com(\r\nBcc: c@d.com\r\n)".toList) = .ok v ∧
    Email.toEmail ⟨.allow, .allow, .allow, .allow, .allow, true⟩ v = strBytes "a@b.com(\r\nBcc: c@d.com\r\n)".toList :=
  C86_violated_email ⟨.allow, .allow, .allow, .allow, .allow, true⟩ Domain.ldh (by decide +kernel) rfl nofun nofun nofun
    "\r\nBcc: c@d.com\r\n".toList (by decide) (by decide)

/-- C86 fails for lines with `trimmed_min`, which take a line feed at the start (C24). -/
theorem C86_violated_line : ∃ v, Line.parseStr .line false none (some 1) none "\na".toList = .ok v ∧ ¬ OneLine (strBytes v) :=
  ⟨"\na".toList, by decide +kernel, fun h => absurd (h (asc '\n') (by decide +kernel) (by decide)) (by decide)⟩

end Verif.Props.Control
