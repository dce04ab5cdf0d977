import Verif.Proof.EmailShow
import Verif.Proof.Ldh

/-!
# Properties of the `email` validator

`idna` is any conversion. Where a theorem needs something of it, `IdnaLaws idna` is a hypothesis; `ldh`, the conversion of
ASCII host names, satisfies it (`ldh_laws`) and is used in the examples. `checked` tells whether the program is built with
overflow checks.
-/

namespace Verif.Props.Email

open Verif.Email Verif.Spec Verif.Spec.Ip Verif.Spec.Domain Verif.Spec.Host Verif.Spec.Email Verif.StdIp
open BaseN (strBytes)
open Verif.Ip (Str)
open Verif.Host (Host)
open Verif.Domain (Idna ldh ldh_laws)

/-- No option restricts anything. -/
def free : Opts := ⟨.allow, .allow, .allow, .allow, .allow, true⟩

/-! ## Outcome -/

/-- C62: which strings are accepted, and with which value. -/
theorem C62_email (o : Opts) (idna : Idna) (cs : List Char) (v : Value) :
    parseStr o idna (strBytes cs) = .ok v ↔ ∃ q t h tail, Denotes o idna (strBytes cs) v q t h tail :=
  parseStr_ok o idna _ ⟨cs, rfl⟩ v

/-- A string is an email in one way. -/
theorem C62_unambiguous (o : Opts) (idna : Idna) (cs : List Char) (v w : Value) (q q' : Bool) (t t' h h' tail tail' : List UInt8)
    (hv : Denotes o idna (strBytes cs) v q t h tail) (hw : Denotes o idna (strBytes cs) w q' t' h' tail') : v = w := by
  have h1 := (C62_email o idna cs v).2 ⟨q, t, h, tail, hv⟩
  have h2 := (C62_email o idna cs w).2 ⟨q', t', h', tail', hw⟩
  rw [h1] at h2
  exact Out.ok.inj h2

/-- `validate_str` has the same outcome. -/
theorem C62_validate (o : Opts) (idna : Idna) (cs : List Char) :
    validateStr o idna (strBytes cs) = (parseStr o idna (strBytes cs)).void := validate_void o idna _ ⟨cs, rfl⟩

example : parseStr free ldh (ascii "(x)\"a b\\@c\"(y)@(z)Example.com(w)") =
      .ok ⟨ascii "a b\\@c", true, .domain (ascii "example.com"), some (ascii "x"), some (ascii "y"), some (ascii "z"), some (ascii "w"), none⟩ ∧
    parseStr { free with ip := .must } ldh (ascii "\"a.b\"@[IPv6:::1]") =
      .ok ⟨ascii "a.b", false, .ipv6 ⟨0, 0, 0, 0, 0, 0, 0, 1⟩, none, none, none, none, none⟩ ∧
    parseStr { free with atl := .must } ldh (ascii "a@[127.0.0.1]") =
      .ok ⟨ascii "a", false, .ipv4 ⟨127, 0, 0, 1⟩, none, none, none, none, some true⟩ ∧
    parseStr free ldh (ascii "a b@x.yy") = .err .invalid ∧ parseStr free ldh (ascii "a..b@x.yy") = .err .invalid ∧
    parseStr free ldh (ascii "\"a@b\"@x.yy") = .err .invalid ∧ parseStr free ldh (ascii "a@[1.2.3.256]") = .err .invalid := by decide +kernel

/-! ## Panics -/

/-- C40, exactly: in a build with overflow checks the validator panics when a comment starts after 64 or more bytes. -/
theorem C40_exact (o : Opts) (idna : Idna) (cs : List Char) :
    parseStr o idna (strBytes cs) = .panic ↔
      (strBytes cs).length ≤ 320 ∧ o.comment = .allow ∧ o.checked = true ∧
        ∃ c1 q t r, strBytes cs = comment c1 ++ quote q t ++ ascii "(" ++ r ∧ r ≠ [] ∧ LocalText o c1 q t ∧ 64 ≤ (comment c1 ++ quote q t).length := by
  rw [parseStr_panic o idna _ ⟨cs, rfl⟩, parse_panic o idna _ ⟨cs, rfl⟩]
  constructor
  · rintro ⟨h, c1, q, t, r2, h1, h2, h3, h4, h5, r, h6, rfl⟩
    exact ⟨h, h3, h4, c1, q, t, r, by rw [h1]; simp [ascii, asc], h6, h2, h5⟩
  · rintro ⟨h, h3, h4, c1, q, t, r, h1, h6, h2, h5⟩
    exact ⟨h, c1, q, t, asc '(' :: r, by rw [h1]; simp [ascii, asc], h2, h3, h4, h5, r, h6, rfl⟩

/-- C40 without overflow checks, or without comments. Missing: builds with overflow checks, where it is false. -/
theorem C40_no_panic_partial (o : Opts) (idna : Idna) (cs : List Char) (h : o.checked = false ∨ o.comment = .disallow) :
    parseStr o idna (strBytes cs) ≠ .panic ∧ validateStr o idna (strBytes cs) ≠ .panic := by
  have hp : parseStr o idna (strBytes cs) ≠ .panic := by
    intro k
    obtain ⟨_, h1, h2, _⟩ := (C40_exact o idna cs).1 k
    rw [h1, h2] at h
    simp at h
  refine ⟨hp, ?_⟩
  rw [C62_validate]
  cases hr : parseStr o idna (strBytes cs) with
  | panic => exact absurd hr hp
  | ok v => simp [Out.void]
  | err e => simp [Out.void]

/-- C40 with overflow checks for strings in which no `(` follows 64 or more bytes. -/
theorem C40_short_partial (o : Opts) (idna : Idna) (cs : List Char) (h : asc '(' ∉ (strBytes cs).drop 64) :
    parseStr o idna (strBytes cs) ≠ .panic ∧ validateStr o idna (strBytes cs) ≠ .panic := by
  have hp : parseStr o idna (strBytes cs) ≠ .panic := by
    intro k
    obtain ⟨_, _, _, c1, q, t, r, h1, _, _, h2⟩ := (C40_exact o idna cs).1 k
    apply h
    rw [h1, List.append_assoc, List.drop_append, List.mem_append]
    right
    rw [Nat.sub_eq_zero_of_le h2, List.drop_zero]
    simp [ascii]
  refine ⟨hp, ?_⟩
  rw [C62_validate]
  cases hr : parseStr o idna (strBytes cs) with
  | panic => exact absurd hr hp
  | ok v => simp [Out.void]
  | err e => simp [Out.void]

/-- C40 is false: 64 letters and a comment, with all default options. -/
theorem C40_violated : ∃ cs : List Char, strBytes cs = List.replicate 64 (asc 'a') ++ ascii "(c)@x.yy" ∧
    parseStr free ldh (strBytes cs) = .panic ∧ validateStr free ldh (strBytes cs) = .panic :=
  ⟨List.replicate 64 'a' ++ "(c)@x.yy".toList, by decide +kernel⟩

example : ¬ asc '(' ∈ (ascii "a(c)@x.yy").drop 64 ∧ (parseStr free ldh (ascii "a(c)@x.yy")).IsOk ∧
    (parseStr { free with checked := false } ldh (List.replicate 64 (asc 'a') ++ ascii "(c)@x.yy")).IsOk := by decide +kernel

/-! ## The whole input -/

/-- C41 without text after the last comment: the input is the pieces of the value in their order. Missing: what follows a
comment after the host is ignored. -/
theorem C41_partial (o : Opts) (idna : Idna) (cs : List Char) (v : Value) (hv : parseStr o idna (strBytes cs) = .ok v) :
    ∃ q h junk, strBytes cs = comment v.comment1 ++ quote q v.text ++ comment v.comment2 ++ ascii "@" ++ comment v.comment3 ++ h ++ comment v.comment4 ++ junk ∧
      HostText idna h v.host ∧ (v.comment4 = none → junk = []) := by
  obtain ⟨q, t, h, tail, hd⟩ := (C62_email o idna cs v).1 hv
  obtain ⟨_, _, junk, h1, h2⟩ := hd.domainText.after
  refine ⟨q, h, junk, ?_, hd.domainText.host, h2⟩
  rw [hd.text, hd.domainText.text, h1]
  simp

/-- With `comment(Disallow)` the whole input is used. -/
theorem C41_without_comments_partial (o : Opts) (idna : Idna) (cs : List Char) (v : Value) (ho : o.comment = .disallow)
    (hv : parseStr o idna (strBytes cs) = .ok v) :
    ∃ q h, strBytes cs = quote q v.text ++ ascii "@" ++ h ∧ HostText idna h v.host := by
  obtain ⟨q, t, h, tail, hd⟩ := (C62_email o idna cs v).1 hv
  obtain ⟨h1, h2, h3, h4⟩ := denotes_comments o idna _ v q t h tail hd ho
  obtain ⟨q, h, junk, h5, h6, h7⟩ := C41_partial o idna cs v hv
  refine ⟨q, h, ?_, h6⟩
  rw [h5, h1, h2, h3, h4, h7 h4]
  simp [comment]

/-- C41 is false: the text after the last comment is ignored. -/
theorem C41_violated : ∃ cs ds : List Char, strBytes cs = ascii "a@b.com(c)" ∧ strBytes ds = ascii "a@b.com(c) and (anything@else" ∧
    (parseStr free ldh (strBytes cs)).IsOk ∧ parseStr free ldh (strBytes ds) = parseStr free ldh (strBytes cs) :=
  ⟨"a@b.com(c)".toList, "a@b.com(c) and (anything@else".toList, by decide +kernel⟩

example : parseStr { free with comment := .disallow } ldh (ascii "a@b.com(c)") = .err .commentDisallow ∧
    (parseStr { free with comment := .disallow } ldh (ascii "\"a\"@b.com")).IsOk := by decide +kernel

/-! ## Lengths -/

/-- C42, the limits for the whole and for the text after the `@`. -/
theorem C42_total_and_right (o : Opts) (idna : Idna) (cs : List Char) (v : Value) (hv : parseStr o idna (strBytes cs) = .ok v) :
    (strBytes cs).length ≤ 320 ∧
    ∃ q right, strBytes cs = comment v.comment1 ++ quote q v.text ++ comment v.comment2 ++ ascii "@" ++ right ∧ right.length ≤ 255 := by
  obtain ⟨q, t, h, tail, hd⟩ := (C62_email o idna cs v).1 hv
  exact ⟨hd.short, q, t, hd.text, hd.domainText.short⟩

theorem left_short (o : Opts) (idna : Idna) (s : List UInt8) (v : Value) (q : Bool) (t h tail : List UInt8) (hd : Denotes o idna s v q t h tail)
    (ha : ∀ b ∈ v.text, b.toNat < 128) (h1 : ∀ c, v.comment1 = some c → c.length ≠ 61) (h2 : o.checked = true ∨ v.comment2 = none) :
    (comment v.comment1 ++ quote q v.text ++ comment v.comment2).length ≤ 64 := by
  have hc2 := hd.comment2
  have hl := hd.localText
  have key : (comment v.comment1 ++ quote q v.text).length ≤ 64 := by
    have hc1 : (comment v.comment1).length ≤ 62 := by
      cases hc : v.comment1 with
      | none => simp [comment]
      | some c =>
        have k1 := h1 c hc
        have k2 := hl.short c hc
        have : (comment (some c)).length = c.length + 2 := by simp [comment, ascii]
        omega
    have hf : ∀ l p, Fits l p v.text → p ≤ l → p + v.text.length ≤ l := by
      intro l p hf hp
      apply Nat.le_of_not_lt
      intro k
      have hi : l - p < v.text.length := by omega
      have := hf (l - p) v.text[l - p] (List.getElem?_eq_getElem hi) (by omega)
      have := ha _ (List.getElem_mem hi)
      omega
    cases q
    · have := hf _ _ (hl.unquoted rfl).2 (by omega)
      simpa [quote] using this
    · have k := hl.quoted rfl
      have := hf _ _ k.2.1 (by omega)
      simp [quote, ascii]
      omega
  by_cases hc : v.comment2 = none
  · rw [hc]; simpa [comment] using key
  · rcases (hc2.2 hc).2 with k | ⟨k, _⟩
    · simpa [Nat.add_assoc] using k
    · rw [k] at h2
      exact absurd (h2.resolve_left (by simp)) hc

/-- C42, the limit for the text before the `@`. Missing: local parts with non-ASCII characters, quoted ones after a comment
of 61 bytes, and comments before the `@` in builds without overflow checks. -/
theorem C42_left_partial (o : Opts) (idna : Idna) (cs : List Char) (v : Value) (hv : parseStr o idna (strBytes cs) = .ok v)
    (ha : ∀ b ∈ v.text, b.toNat < 128) (h1 : ∀ c, v.comment1 = some c → c.length ≠ 61) (h2 : o.checked = true ∨ v.comment2 = none) :
    ∃ q right, strBytes cs = comment v.comment1 ++ quote q v.text ++ comment v.comment2 ++ ascii "@" ++ right ∧
      (comment v.comment1 ++ quote q v.text ++ comment v.comment2).length ≤ 64 := by
  obtain ⟨q, t, h, tail, hd⟩ := (C62_email o idna cs v).1 hv
  exact ⟨q, t, hd.text, left_short o idna _ v q t h tail hd ha h1 h2⟩

/-- What `to_email_string` writes after the `@` has at most 255 bytes, or 257 if the local part needs quotation marks. -/
theorem C42_written (o : Opts) (idna : Idna) (cs : List Char) (v : Value) (hv : parseStr o idna (strBytes cs) = .ok v) :
    (comment v.comment3 ++ showHost v.host ++ comment v.comment4).length ≤ if v.needQuoted = true then 257 else 255 := by
  obtain ⟨q, t, h, tail, hd⟩ := (C62_email o idna cs v).1 hv
  exact right_short o idna _ v q t h tail hd

/-- C42 is false for the text before the `@`: 40 two-byte characters; a comment of 61 bytes before a quoted local part; and,
without overflow checks, a comment after 64 letters. -/
theorem C42_violated :
    (∃ cs l, strBytes cs = l ++ ascii "@x.yy" ∧ asc '@' ∉ l ∧ l.length = 80 ∧ (parseStr free ldh (strBytes cs)).IsOk) ∧
    (∃ cs l, strBytes cs = l ++ ascii "@x.yy" ∧ asc '@' ∉ l ∧ l.length = 165 ∧ (parseStr free ldh (strBytes cs)).IsOk) ∧
    (∃ cs l, strBytes cs = l ++ ascii "@x.yy" ∧ asc '@' ∉ l ∧ l.length = 166 ∧ (parseStr { free with checked := false } ldh (strBytes cs)).IsOk) :=
  ⟨⟨List.replicate 40 'é' ++ "@x.yy".toList, strBytes (List.replicate 40 'é'), by decide +kernel⟩,
    ⟨"(".toList ++ List.replicate 61 'c' ++ ")\"".toList ++ List.replicate 100 'a' ++ "\"@x.yy".toList,
      strBytes ("(".toList ++ List.replicate 61 'c' ++ ")\"".toList ++ List.replicate 100 'a' ++ "\"".toList), by decide +kernel⟩,
    ⟨List.replicate 64 'a' ++ "(".toList ++ List.replicate 100 'c' ++ ")@x.yy".toList,
      strBytes (List.replicate 64 'a' ++ "(".toList ++ List.replicate 100 'c' ++ ")".toList), by decide +kernel⟩⟩

example : (parseStr free ldh (List.replicate 60 (asc 'a') ++ ascii "(cc)@x.yy")).IsOk ∧
    parseStr free ldh (List.replicate 60 (asc 'a') ++ ascii "(ccc)@x.yy") = .err .invalid ∧
    parseStr free ldh (List.replicate 65 (asc 'a') ++ ascii "@x.yy") = .err .invalid := by decide +kernel

/-! ## Options -/

/-- C43: what the options ask for holds of the returned value. -/
theorem C43_options (o : Opts) (idna : Idna) (cs : List Char) (v : Value) (hv : parseStr o idna (strBytes cs) = .ok v) :
    (o.ip = .must → ∀ a, v.host ≠ .domain a) ∧ (o.ip = .disallow → ∃ a, v.host = .domain a) ∧
    (o.loc = .must → LocalHost v.host) ∧ (o.loc = .disallow → ¬ LocalHost v.host) ∧
    (o.atl = .must → ∀ a, v.host = .domain a → LocalName a ∨ ManyLabels a) ∧
    (o.atl = .disallow → ∃ a, v.host = .domain a ∧ (LocalName a ∨ ¬ ManyLabels a)) ∧
    (o.comment = .disallow → v.comment1 = none ∧ v.comment2 = none ∧ v.comment3 = none ∧ v.comment4 = none) ∧
    (o.nonAscii = .disallow → ∀ b ∈ v.text, b.toNat < 128) := by
  obtain ⟨q, t, h, tail, hd⟩ := (C62_email o idna cs v).1 hv
  have hk := hd.domainText.ok
  have hl := hd.localText
  refine ⟨?_, ?_, ?_, ?_, ?_, ?_, denotes_comments o idna _ v q t h tail hd, ?_⟩
  · intro ho a ha
    rw [ha] at hk
    exact hk.1 ho
  · intro ho
    cases hh : v.host with
    | domain a => exact ⟨a, rfl⟩
    | ipv4 x => rw [hh] at hk; exact absurd ho hk.1
    | ipv6 x => rw [hh] at hk; exact absurd ho hk.1
  · intro ho
    cases hh : v.host <;> rw [hh] at hk <;> simpa [LocalOk, ho, LocalHost] using hk.2.2
  · intro ho
    cases hh : v.host <;> rw [hh] at hk <;> simpa [LocalOk, ho, LocalHost] using hk.2.2
  · intro ho a ha
    rw [ha] at hk
    simpa [LabelsOk, ho] using hk.2.1
  · intro ho
    cases hh : v.host with
    | domain a => rw [hh] at hk; exact ⟨a, rfl, by simpa [LabelsOk, ho] using hk.2.1⟩
    | ipv4 x => rw [hh] at hk; exact absurd ho hk.2.1
    | ipv6 x => rw [hh] at hk; exact absurd ho hk.2.1
  · intro ho b hb
    have hw : ¬ Wide o.nonAscii b := by rintro ⟨k, _⟩; rw [ho] at k; cases k
    have h1 : ∀ b ∈ atext ++ ascii ".\\ \t" ++ specials, b.toNat < 128 := by decide +kernel
    apply h1
    simp only [List.mem_append]
    cases q
    · rcases (hl.unquoted rfl).1.2.2.1 b hb with k | rfl | k
      · exact .inl (.inl k)
      · exact .inl (.inr (by decide))
      · exact absurd k hw
    · obtain ⟨pre, post, ht⟩ := List.append_of_mem hb
      rcases (hl.quoted rfl).1.2.1 pre b post ht with k | k | k | k
      · exact .inl (.inl k)
      · exact .inl (.inr k)
      · exact absurd k hw
      · exact .inr k.1

/-- `is_local`, where it is a field, is right. -/
theorem C43_is_local (o : Opts) (idna : Idna) (cs : List Char) (v : Value) (hv : parseStr o idna (strBytes cs) = .ok v) :
    Tells (o.loc = .allow ∧ o.atl ≠ .allow) v.isLocal (LocalHost v.host) := by
  obtain ⟨q, t, h, tail, hd⟩ := (C62_email o idna cs v).1 hv
  exact hd.isLocal

example : parseStr { free with ip := .must } ldh (ascii "a@b.cc") = .err .ipMust ∧
    parseStr { free with ip := .disallow } ldh (ascii "a@[1.2.3.4]") = .err .ipDisallow ∧
    parseStr { free with loc := .disallow } ldh (ascii "a@[127.0.0.1]") = .err .localDisallow ∧
    parseStr { free with loc := .must } ldh (ascii "a@b.cc") = .err .localMust ∧
    parseStr { free with atl := .must } ldh (ascii "a@b") = .err .atLeastTwoLabelsMust ∧
    parseStr { free with atl := .disallow } ldh (ascii "a@b.cc") = .err .atLeastTwoLabelsDisallow ∧
    parseStr { free with nonAscii := .disallow } ldh (strBytes "é@b.cc".toList) = .err .invalid ∧
    (parseStr free ldh (strBytes "é@b.cc".toList)).IsOk ∧ (parseStr { free with loc := .must } ldh (ascii "a@localhost")).IsOk := by decide +kernel

/-- C59 is false for `email`: with `ip(Disallow)` and `local(Disallow)` the text of a loopback address is accepted as a
domain. -/
theorem C59_email_violated : ∃ (o : Opts) (cs : List Char) (v : Value), o.ip = .disallow ∧ o.loc = .disallow ∧
    parseStr o ldh (strBytes cs) = .ok v ∧ v.host = .domain (ascii "127.0.0.1") :=
  ⟨{ free with ip := .disallow, loc := .disallow }, "a@127.0.0.1".toList, ⟨ascii "a", false, .domain (ascii "127.0.0.1"), none, none, none, none, none⟩, by decide +kernel⟩

/-! ## The written form -/

theorem left_fits (o : Opts) (idna : Idna) (cs : List Char) (v : Value) (hv : parseStr o idna (strBytes cs) = .ok v)
    (h : (comment v.comment1 ++ v.text ++ comment v.comment2).length ≤ 64) :
    Fits 64 (comment v.comment1).length v.text ∧ Comment2 o (comment v.comment1 ++ v.text).length v.comment2 := by
  obtain ⟨q, t, g, tail, hd⟩ := (C62_email o idna cs v).1 hv
  simp only [List.length_append] at h
  refine ⟨fits_of_short _ _ _ (by omega), hd.comment2.1, fun hn => ⟨(hd.comment2.2 hn).1, .inl ?_⟩⟩
  simp only [List.length_append]
  exact h

/-- C44: `to_email_string` writes a string that is read as the same value. Missing: quotation marks are lost with
`comment(Disallow)`, a domain may end with a dot, and the written form may exceed the limits. -/
theorem C44_round_trip_partial (o : Opts) (idna : Idna) (laws : IdnaLaws idna) (cs : List Char) (v : Value) (hv : parseStr o idna (strBytes cs) = .ok v)
    (ho : o.comment = .allow ∨ v.needQuoted = false) (hdot : ∀ a, v.host = .domain a → ¬ ∃ c, a = c ++ ascii ".")
    (hleft : v.needQuoted = true ∨ (comment v.comment1 ++ v.text ++ comment v.comment2).length ≤ 64)
    (hright : (comment v.comment3 ++ showHost v.host ++ comment v.comment4).length ≤ 255) (htotal : (toEmail o v).length ≤ 320) :
    parseStr o idna (toEmail o v) = .ok v :=
  roundTrip o idna laws _ ⟨cs, rfl⟩ v hv ho hdot (hleft.imp_right (left_fits o idna cs v hv)) hright htotal

/-- C44 exactly: when what `to_email_string` writes is read as the same value. -/
theorem C44_exact_partial (o : Opts) (idna : Idna) (laws : IdnaLaws idna) (cs : List Char) (v : Value) (hv : parseStr o idna (strBytes cs) = .ok v) :
    parseStr o idna (toEmail o v) = .ok v ↔
      (o.comment = .allow ∨ v.needQuoted = false) ∧ (∀ a, v.host = .domain a → ¬ ∃ c, a = c ++ ascii ".") ∧
      (v.needQuoted = true ∨ Fits 64 (comment v.comment1).length v.text ∧ Comment2 o (comment v.comment1 ++ v.text).length v.comment2) ∧
      (comment v.comment3 ++ showHost v.host ++ comment v.comment4).length ≤ 255 ∧ (toEmail o v).length ≤ 320 :=
  ⟨fun hb => readBack o idna laws _ ⟨cs, rfl⟩ v hv hb (toEmail_str o idna laws _ ⟨cs, rfl⟩ v hv), fun h => roundTrip o idna laws _ ⟨cs, rfl⟩ v hv h.1 h.2.1 h.2.2.1 h.2.2.2.1 h.2.2.2.2⟩

/-- Without overflow checks: the quotation marks that are not written move the second comment into the first 64 bytes. -/
example : ∃ v, parseStr { free with checked := false } ldh (ascii "\"" ++ List.replicate 62 (asc 'a') ++ ascii "\"(bc)@x.yy") = .ok v ∧
    v.needQuoted = false ∧ parseStr { free with checked := false } ldh (toEmail { free with checked := false } v) = .err .invalid :=
  ⟨⟨List.replicate 62 (asc 'a'), false, .domain (ascii "x.yy"), none, some (ascii "bc"), none, none, none⟩, by decide +kernel⟩

/-- The limits for the written form hold for unquoted ASCII local parts of checked builds. -/
theorem C44_plain_partial (o : Opts) (idna : Idna) (laws : IdnaLaws idna) (cs : List Char) (v : Value) (hv : parseStr o idna (strBytes cs) = .ok v)
    (hq : v.needQuoted = false) (hdot : ∀ a, v.host = .domain a → ¬ ∃ c, a = c ++ ascii ".")
    (ha : ∀ b ∈ v.text, b.toNat < 128) (h1 : ∀ c, v.comment1 = some c → c.length ≠ 61) (h2 : o.checked = true ∨ v.comment2 = none) :
    parseStr o idna (toEmail o v) = .ok v := by
  obtain ⟨q, r, hs, hl⟩ := C42_left_partial o idna cs v hv ha h1 h2
  have hr := C42_written o idna cs v hv
  rw [hq] at hr
  have hl' : (comment v.comment1 ++ v.text ++ comment v.comment2).length ≤ 64 := by
    refine Nat.le_trans ?_ hl
    cases q <;> simp [quote, ascii]
    omega
  have hc : o.comment = .allow ∨ v.needQuoted = false ∧ v.comment1 = none ∧ v.comment2 = none ∧ v.comment3 = none ∧ v.comment4 = none := by
    obtain ⟨q, t, h, tail, hd⟩ := (C62_email o idna cs v).1 hv
    cases hc : o.comment with
    | allow => exact .inl rfl
    | disallow => exact .inr ⟨hq, denotes_comments o idna _ v q t h tail hd hc⟩
  refine C44_round_trip_partial o idna laws cs v hv (.inr hq) hdot (.inr hl') (by simpa using hr) ?_
  rw [toEmail_eq o v hc, hq]
  simp only [quote, List.length_append, Bool.false_eq_true, if_false] at hl' hr ⊢
  have : (ascii "@").length = 1 := rfl
  omega

/-- C44 is false: quotation marks are not written with `comment(Disallow)`. -/
theorem C44_violated : ∃ (cs : List Char) (v : Value), parseStr { free with comment := .disallow } ldh (strBytes cs) = .ok v ∧
    toEmail { free with comment := .disallow } v = ascii "a b@x.yy" ∧
    parseStr { free with comment := .disallow } ldh (toEmail { free with comment := .disallow } v) = .err .invalid :=
  ⟨"\"a b\"@x.yy".toList, ⟨ascii "a b", true, .domain (ascii "x.yy"), none, none, none, none, none⟩, by decide +kernel⟩

/-- C44 is false with comments as well: the two bytes credited for the quotation marks make the written host too long. -/
theorem C44_violated_length : ∃ (cs : List Char) (v : Value), parseStr free ldh (strBytes cs) = .ok v ∧
    parseStr free ldh (toEmail free v) = .err .invalid :=
  ⟨"\"a b\"@(".toList ++ List.replicate 226 'c' ++ ")[IPv6:::ffff:ffff:ffff]".toList,
    ⟨ascii "a b", true, .ipv6 ⟨0, 0, 0, 0, 0, 0xffff, 0xffff, 0xffff⟩, none, none, some (List.replicate 226 (asc 'c')), none, none⟩, by decide +kernel⟩

example : ∃ v, parseStr free ldh (ascii "(x)\"a b\\@c\"(y)@(z)Example.com(w)junk") = .ok v ∧
    toEmail free v = ascii "(x)\"a b\\@c\"(y)@(z)example.com(w)" ∧ parseStr free ldh (toEmail free v) = .ok v :=
  ⟨⟨ascii "a b\\@c", true, .domain (ascii "example.com"), some (ascii "x"), some (ascii "y"), some (ascii "z"), some (ascii "w"), none⟩, by decide +kernel⟩

/-! ## The local part -/

/-- C45: the local part is not empty and, unless `need_quoted` is set, it is a local part without quotation marks; if it is
set, it is none, and it is what the validator takes for the inside of quotation marks. -/
theorem C45_local_part (o : Opts) (idna : Idna) (cs : List Char) (v : Value) (hv : parseStr o idna (strBytes cs) = .ok v) :
    v.text ≠ [] ∧ (v.needQuoted = false → Unquoted o.nonAscii v.text) ∧
      (v.needQuoted = true → ¬ Unquoted o.nonAscii v.text ∧ Quoted Escape o.nonAscii v.text) := by
  obtain ⟨q, t, h, tail, hd⟩ := (C62_email o idna cs v).1 hv
  have hl := hd.localText
  have hU : v.needQuoted = false → Unquoted o.nonAscii v.text := by
    intro hn
    cases q
    · exact (hl.unquoted rfl).1
    · apply Classical.byContradiction
      intro k
      have := hd.needQuoted.2 ⟨rfl, k⟩
      rw [hn] at this
      cases this
  have hQ : v.needQuoted = true → ¬ Unquoted o.nonAscii v.text ∧ Quoted Escape o.nonAscii v.text := by
    intro hn
    obtain ⟨rfl, k⟩ := hd.needQuoted.1 hn
    exact ⟨k, (hl.quoted rfl).1⟩
  refine ⟨?_, hU, hQ⟩
  cases hn : v.needQuoted
  · exact (hU hn).1
  · exact (hQ hn).2.1

/-- C45: in a quoted local part every special character is escaped. Missing: local parts with a blank directly after a
backslash. -/
theorem C45_quoted_partial (o : Opts) (idna : Idna) (cs : List Char) (v : Value) (hv : parseStr o idna (strBytes cs) = .ok v)
    (hq : v.needQuoted = true) (hb : ∀ b : UInt8, b = asc ' ' ∨ b = asc '\t' → ¬ [asc '\\', b] <:+: v.text) : Quoted RealEscape o.nonAscii v.text :=
  quoted_real _ _ hb ((C45_local_part o idna cs v hv).2.2 hq).2

/-- C45 is false: a blank after a backslash does not end the escape, so that a bare `(` and even a bare quotation mark are
accepted. -/
theorem C45_violated :
    (∃ cs v, strBytes cs = ascii "\"\\ (\"@x.yy" ∧ parseStr free ldh (strBytes cs) = .ok v ∧ ¬ Quoted RealEscape .allow v.text) ∧
    (∃ cs v, strBytes cs = ascii "\"a\\ \"b\"@x.yy" ∧ parseStr free ldh (strBytes cs) = .ok v ∧ ¬ Quoted RealEscape .allow v.text) := by
  refine ⟨⟨"\"\\ (\"@x.yy".toList, ⟨ascii "\\ (", true, .domain (ascii "x.yy"), none, none, none, none, none⟩, by decide +kernel, by decide +kernel, ?_⟩,
    ⟨"\"a\\ \"b\"@x.yy".toList, ⟨ascii "a\\ \"b", true, .domain (ascii "x.yy"), none, none, none, none, none⟩, by decide +kernel, by decide +kernel, ?_⟩⟩
  · intro h
    have := h.2.1 (ascii "\\ ") (asc '(') [] (by decide)
    revert this
    unfold Wide RealEscape
    decide +kernel
  · intro h
    have := h.2.1 (ascii "a\\ ") (asc '"') (ascii "b") (by decide)
    revert this
    unfold Wide RealEscape
    decide +kernel

/-- C60: an unquoted local part neither starts with a dot nor has two dots in a row. Missing: it may end with a dot. -/
theorem C60_dots_partial (o : Opts) (idna : Idna) (cs : List Char) (v : Value) (hv : parseStr o idna (strBytes cs) = .ok v) (hq : v.needQuoted = false) :
    v.text.head? ≠ some (asc '.') ∧ ¬ ascii ".." <:+: v.text :=
  have h := (C45_local_part o idna cs v hv).2.1 hq
  ⟨h.2.1, h.2.2.2⟩

/-- C60 is false. -/
theorem C60_violated : ∃ (cs : List Char) (v : Value), strBytes cs = ascii "a.@b.com" ∧ parseStr free ldh (strBytes cs) = .ok v ∧
    v.needQuoted = false ∧ v.text = ascii "a." :=
  ⟨"a.@b.com".toList, ⟨ascii "a.", false, .domain (ascii "b.com"), none, none, none, none, none⟩, by decide +kernel⟩

example : parseStr free ldh (ascii "\"a.b\\\"c\"@x.yy") = .ok ⟨ascii "a.b\\\"c", true, .domain (ascii "x.yy"), none, none, none, none, none⟩ ∧
    parseStr free ldh (ascii "\"a..b\"@x.yy") = .ok ⟨ascii "a..b", true, .domain (ascii "x.yy"), none, none, none, none, none⟩ ∧
    parseStr free ldh (ascii "\"ab\"@x.yy") = .ok ⟨ascii "ab", false, .domain (ascii "x.yy"), none, none, none, none, none⟩ ∧
    parseStr free ldh (ascii "\"\"@x.yy") = .err .invalid ∧ parseStr free ldh (ascii ".a@x.yy") = .err .invalid := by decide +kernel

/-! ## Errors -/

/-- C61: an error other than `Invalid` names an option that is set. -/
theorem C61_named_option_is_set (o : Opts) (idna : Idna) (cs : List Char) (e : EmailError) (h : parseStr o idna (strBytes cs) = .err e) : Names o e :=
  parse_names o idna _ ⟨cs, rfl⟩ e ((parseStr_err o idna _ ⟨cs, rfl⟩ e).1 h)

/-- C61: an email that is refused only because of options is refused with an error that names one it violates. -/
theorem C61_truthful (o : Opts) (idna : Idna) (cs : List Char) (v : Value) (e : EmailError) (hv : parseStr (relaxed o) idna (strBytes cs) = .ok v)
    (he : parseStr o idna (strBytes cs) = .err e) : BlamesAll o v e := by
  obtain ⟨q, t, h, tail, hd⟩ := (C62_email _ idna cs v).1 hv
  exact parse_blame o idna _ ⟨cs, rfl⟩ e ((parseStr_err o idna _ ⟨cs, rfl⟩ e).1 he) v q t h tail hd

/-- C61: an email is refused because of options only if it violates one. -/
theorem C61_accepted (o : Opts) (idna : Idna) (cs : List Char) (v : Value) (hv : parseStr (relaxed o) idna (strBytes cs) = .ok v)
    (hk : HostOk o v.host) (hc : o.comment = .disallow → v.comment1 = none ∧ v.comment2 = none ∧ v.comment3 = none ∧ v.comment4 = none) :
    ∃ f, parseStr o idna (strBytes cs) = .ok { v with isLocal := f } := by
  obtain ⟨q, t, h, tail, hd⟩ := (C62_email _ idna cs v).1 hv
  have hd' := hd.domainText
  have hl := hd.localText
  have hcn : ∀ c : Option (List UInt8), (c = v.comment1 ∨ c = v.comment2 ∨ c = v.comment3 ∨ c = v.comment4) → c ≠ none → o.comment = .allow := by
    intro c hcc hne
    cases ho : o.comment with
    | allow => rfl
    | disallow =>
      obtain ⟨k1, k2, k3, k4⟩ := hc ho
      exfalso
      apply hne
      rcases hcc with rfl | rfl | rfl | rfl <;> assumption
  have : ∃ f, Tells (o.loc = .allow ∧ o.atl ≠ .allow) f (LocalHost v.host) := by
    by_cases hs : o.loc = .allow ∧ o.atl ≠ .allow
    · by_cases hL : LocalHost v.host
      · exact ⟨some true, fun _ => ⟨true, rfl, by simp [hL]⟩, fun k => absurd hs k⟩
      · exact ⟨some false, fun _ => ⟨false, rfl, by simp [hL]⟩, fun k => absurd hs k⟩
    · exact ⟨none, fun k => absurd k hs, fun _ => rfl⟩
  obtain ⟨f, hf⟩ := this
  refine ⟨f, (C62_email o idna cs _).2 ⟨q, t, h, tail, hd.text, hd.short, ?_, ?_, hd.needQuoted, ?_, hf⟩⟩
  · exact ⟨hl.closed, hcn _ (.inl rfl), hl.short, hl.unquoted, hl.quoted⟩
  · exact ⟨hd.comment2.1, fun hne => ⟨hcn _ (.inr (.inl rfl)) hne, (hd.comment2.2 hne).2⟩⟩
  · exact ⟨hd'.text, hd'.closed, hcn _ (.inr (.inr (.inl rfl))), hd'.host, hk,
      ⟨hd'.after.1, hcn _ (.inr (.inr (.inr rfl))), hd'.after.2.2⟩, hd'.short, hd'.printed⟩

example : (parseStr (relaxed { free with comment := .disallow }) ldh (ascii "a@[1.2.3.4](c)")).IsOk ∧
    parseStr { free with comment := .disallow } ldh (ascii "a@[1.2.3.4](c)") = .err .commentDisallow ∧
    parseStr { free with comment := .disallow } ldh (ascii "a@[1.2.3.4]") =
      .ok ⟨ascii "a", false, .ipv4 ⟨1, 2, 3, 4⟩, none, none, none, none, none⟩ := by decide +kernel

end Verif.Props.Email
