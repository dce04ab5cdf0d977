import Verif.Proof.Mailbox
import Verif.Props.Email

/-!
# C89: an accepted email is read as the same address
-/

namespace Verif.Props.Mailbox

open Verif.Email Verif.Spec Verif.Spec.Domain Verif.Spec.Email Verif.Spec.Mailbox Verif.StdIp Verif.Mailbox
open _root_.Verif.BaseN (strBytes)
open Verif.Domain (Idna ldh ldh_laws)
open Verif.Props.Email (free C62_email)

theorem harmless_none : Harmless none := fun _ h => by cases h

/-- A local part without a blank after a backslash ends at its quotation mark. -/
theorem sealed_of (na : Allow) (t : List UInt8) (h : Quoted Escape na t) (hb : ∀ b : UInt8, b = asc ' ' ∨ b = asc '\t' → ¬ [asc '\\', b] <:+: t) :
    Sealed t := by
  obtain ⟨-, h2, h3⟩ := quoted_real _ _ hb h
  refine ⟨fun pre post e => ?_, h3⟩
  rcases h2 pre _ post e with k | k | k | k
  · exact absurd k (by decide)
  · exact absurd k (by decide)
  · exact absurd k.2 (by decide)
  · exact k.2

theorem finish_some (l h tail : List UInt8) (x : List UInt8 × List UInt8) (e : finish l h tail = some x) : x = (l, h) := by
  unfold finish at e
  cases hs : skip 0 false tail with
  | none => rw [hs] at e; cases e
  | some u =>
    rw [hs, Option.bind_some] at e
    split at e
    · exact (Option.some.inj e).symm
    · cases e

/-- The parts of an accepted email, if the comments before the host are harmless. -/
theorem parts (o : Opts) (idna : Idna) (hi : Strict idna) (s : List UInt8) (v : Value) (q : Bool) (t h tail : List UInt8) (d : Denotes o idna s v q t h tail)
    (h1 : Harmless v.comment1) (h2 : Harmless v.comment2) (h3 : Harmless v.comment3) :
    s = assembled v.comment1 q v.text v.comment2 v.comment3 h tail ∧ Parts o.nonAscii v.comment1 q v.text v.comment2 v.comment3 h tail := by
  refine ⟨by rw [d.text, d.domainText.text]; rfl, h1, d.localText.closed, h2, d.comment2.1, h3, d.domainText.closed,
    fun k => (d.localText.unquoted k).1, fun k => (d.localText.quoted k).1, hostLike_text idna hi h _ d.domainText.host, ?_⟩
  obtain ⟨-, -, junk, e, hj⟩ := d.domainText.after
  cases hc : v.comment4 with
  | none => left; rw [e, hc, hj hc]; rfl
  | some c => right; exact ⟨c ++ ascii ")" ++ junk, by rw [e, hc]; simp [comment, ascii]⟩

/-- C89, emails without comments, all those of `comment(Disallow)` among them: a reader of mail addresses either reads the local part and the
domain of the value, or refuses the string. It refuses it exactly when the local part ends with a dot (C60), or when it is in quotation marks and
a reader sees its end at another place (C45). -/
theorem C89_plain (o : Opts) (idna : Idna) (hi : Strict idna) (cs : List Char) (v : Value) (hv : parseStr o idna (strBytes cs) = .ok v)
    (hn : o.comment = .disallow ∨ NoComments v) :
    (∀ l d, read (strBytes cs) = some (l, d) → l = v.text ∧ HostText idna d v.host) ∧
    (read (strBytes cs) = none ↔
      (strBytes cs).head? ≠ some (asc '"') ∧ v.text.getLast? = some (asc '.') ∨ (strBytes cs).head? = some (asc '"') ∧ ¬ Sealed v.text) := by
  obtain ⟨q, t, h, tail, d⟩ := (C62_email o idna cs v).1 hv
  obtain ⟨n1, n2, n3, n4⟩ : NoComments v := by
    rcases hn with ho | hn
    · have key : ∀ c : Option (List UInt8), (c ≠ none → o.comment = .allow) → c = none := fun c k =>
        Classical.byContradiction fun hc => by rw [k hc] at ho; cases ho
      exact ⟨key _ d.localText.allowed, key _ fun k => (d.comment2.2 k).1, key _ d.domainText.allowed, key _ d.domainText.after.2.1⟩
    · exact hn
  obtain ⟨e, p⟩ := parts o idna hi _ v q t h tail d (n1 ▸ harmless_none) (n2 ▸ harmless_none) (n3 ▸ harmless_none)
  have htail : tail = [] := by
    obtain ⟨-, -, junk, e, hj⟩ := d.domainText.after
    rw [e, hj n4, n4]; rfl
  subst htail
  have hfin : finish v.text h [] = some (v.text, h) := rfl
  rw [e]
  cases q with
  | false =>
    have hr := read_unquoted o.nonAscii _ v.text _ _ h [] p
    have hh : (assembled v.comment1 false v.text v.comment2 v.comment3 h []).head? ≠ some (asc '"') := by
      obtain ⟨k1, -, k3, -⟩ := p.unquoted rfl
      rw [n1]
      cases ht : v.text with
      | nil => exact absurd ht k1
      | cons b u =>
        rw [ht] at k3
        intro k
        have k : b = asc '"' := by simpa [assembled, comment, quote] using k
        subst k
        rcases k3 _ (List.mem_cons_self ..) with k | k | k
        · exact absurd k (by decide)
        · exact absurd k (by decide)
        · exact absurd k.2 (by decide)
    rw [hr, hfin]
    by_cases hl : v.text.getLast? = some (asc '.')
    · simp only [hl, if_true]
      exact ⟨fun _ _ k => (by cases k), fun _ => .inl ⟨hh, trivial⟩, fun _ => trivial⟩
    · simp only [hl, if_false]
      refine ⟨fun l d' k => ?_, fun k => (by cases k), fun k => ?_⟩
      · cases k
        exact ⟨rfl, d.domainText.host⟩
      · rcases k with ⟨-, k⟩ | ⟨k, -⟩
        · exact absurd k id
        · exact absurd k hh
  | true =>
    obtain ⟨r1, r2⟩ := read_quoted o.nonAscii _ v.text _ _ h [] p
    have hh : (assembled v.comment1 true v.text v.comment2 v.comment3 h []).head? = some (asc '"') := by
      rw [n1]; simp [assembled, comment, quote, ascii]
    by_cases hs : Sealed v.text
    · rw [r1 hs, hfin]
      refine ⟨fun l d' k => ?_, fun k => (by cases k), fun k => ?_⟩
      · cases k
        exact ⟨rfl, d.domainText.host⟩
      · rcases k with ⟨k, -⟩ | ⟨-, k⟩
        · exact absurd hh k
        · exact absurd hs k
    · have hR : asc '"' ∉ comment v.comment2 ++ ascii "@" ++ (comment v.comment3 ++ h ++ []) := by
        rw [n2, n3]
        simp only [comment, List.nil_append, List.append_nil, List.mem_append]
        rintro (k | k)
        · revert k; decide
        · exact text_no_quote idna hi h _ d.domainText.host k
      rw [r2 hs hR]
      exact ⟨fun _ _ k => (by cases k), fun _ => .inr ⟨hh, hs⟩, fun _ => rfl⟩

/-- C89 with comments: the same, when no comment before the host contains `(` or a backslash and no blank follows a backslash in the local part.
Missing: other comments, and other local parts together with comments; see the violations below. -/
theorem C89_comments_partial (o : Opts) (idna : Idna) (hi : Strict idna) (cs : List Char) (v : Value) (hv : parseStr o idna (strBytes cs) = .ok v)
    (ht : Tame v) (l d : List UInt8) (hr : read (strBytes cs) = some (l, d)) : l = v.text ∧ HostText idna d v.host := by
  obtain ⟨q, t, h, tail, dn⟩ := (C62_email o idna cs v).1 hv
  obtain ⟨h1, h2, h3, h4⟩ := ht
  obtain ⟨e, p⟩ := parts o idna hi _ v q t h tail dn h1 h2 h3
  rw [e] at hr
  have key : finish v.text h tail = some (l, d) := by
    cases q with
    | false =>
      rw [read_unquoted o.nonAscii _ v.text _ _ h tail p] at hr
      split at hr
      · cases hr
      · exact hr
    | true =>
      rwa [(read_quoted o.nonAscii _ v.text _ _ h tail p).1 (sealed_of _ _ (p.quoted rfl) h4)] at hr
  have := finish_some _ _ _ _ key
  cases this
  exact ⟨rfl, dn.domainText.host⟩

/-- The host as it is written. -/
theorem hostLike_show (idna : Idna) (laws : IdnaLaws idna) (h : List UInt8) (x : Verif.Host.Host) (hx : Verif.Spec.Email.HostText idna h x) : HostLike (showHost x) := by
  cases hx with
  | ipv4 =>
    rename_i x
    rw [show showHost (.ipv4 x) = ascii "[" ++ x.text ++ ascii "]" by simp [showHost, showV4_text, ascii]]
    exact hostLike_v4 x
  | ipv6 hv =>
    rename_i t x
    rw [show showHost (.ipv6 x) = ascii "[IPv6:" ++ showV6 x ++ ascii "]" by simp [showHost, ascii]]
    exact hostLike_v6 _ _ (showV6_text x)
  | domain h1 h2 h3 h4 h5 =>
    refine hostLike_name _ (laws.nonempty _ _ h5) fun b hb => ?_
    exact (by decide : ∀ b ∈ ascii "abcdefghijklmnopqrstuvwxyz0123456789-.", atomChar b = true) b (laws.symbols _ _ h5 b hb)

/-- C89 for the written form: what `to_email_string` writes for an accepted email is read as the local part and the domain of the value, or
refused. Missing: the options `comment(Disallow)` when the local part needs its quotation marks, which are not written then (C44), and what
C89_comments_partial misses. -/
theorem C89_written_partial (o : Opts) (idna : Idna) (laws : IdnaLaws idna) (cs : List Char) (v : Value) (hv : parseStr o idna (strBytes cs) = .ok v)
    (ho : o.comment = .allow ∨ v.needQuoted = false) (ht : Tame v) (l d : List UInt8) (hr : read (toEmail o v) = some (l, d)) :
    l = v.text ∧ d = showHost v.host := by
  obtain ⟨q, t, h, tail, dn⟩ := (C62_email o idna cs v).1 hv
  obtain ⟨h1, h2, h3, h4⟩ := ht
  have heq := toEmail_eq o v (by
    cases hc : o.comment with
    | allow => exact .inl rfl
    | disallow =>
      rw [hc] at ho
      exact .inr ⟨ho.resolve_left (by simp), denotes_comments o idna _ v q t h tail dn hc⟩)
  have p : Parts o.nonAscii v.comment1 v.needQuoted v.text v.comment2 v.comment3 (showHost v.host) (comment v.comment4) := by
    refine ⟨h1, dn.localText.closed, h2, dn.comment2.1, h3, dn.domainText.closed, fun k => ?_, fun k => ?_,
      hostLike_show idna laws h _ dn.domainText.host, ?_⟩
    · cases q with
      | false => exact (dn.localText.unquoted rfl).1
      | true =>
        refine Classical.byContradiction fun hU => ?_
        rw [dn.needQuoted.2 ⟨rfl, hU⟩] at k
        cases k
    · obtain ⟨rfl, -⟩ := dn.needQuoted.1 k
      exact (dn.localText.quoted rfl).1
    · cases v.comment4 with
      | none => exact .inl rfl
      | some c => exact .inr ⟨c ++ ascii ")", by simp [comment, ascii]⟩
  have e : toEmail o v = assembled v.comment1 v.needQuoted v.text v.comment2 v.comment3 (showHost v.host) (comment v.comment4) := heq
  rw [e] at hr
  generalize v.needQuoted = nq at p hr
  have key : finish v.text (showHost v.host) (comment v.comment4) = some (l, d) := by
    cases nq with
    | false =>
      rw [read_unquoted o.nonAscii _ v.text _ _ _ _ p] at hr
      split at hr
      · cases hr
      · exact hr
    | true =>
      rwa [(read_quoted o.nonAscii _ v.text _ _ _ _ p).1 (sealed_of _ _ (p.quoted rfl) h4)] at hr
  have := finish_some _ _ _ _ key
  cases this
  exact ⟨rfl, rfl⟩

/-! ## Violations -/

/-- Comments nest for a reader, and not for this type, which then ignores what follows the last comment (C41): the string accepted as
`a@good.com` is the address of somebody else. -/
theorem C89_violated_nested : ∃ (cs : List Char) (v : Value), parseStr free ldh (strBytes cs) = .ok v ∧
    v.text = ascii "a" ∧ v.host = .domain (ascii "good.com") ∧ read (strBytes cs) = some (ascii "eve", ascii "evil.com") :=
  ⟨"((x)a@good.com(y))eve@evil.com".toList,
    ⟨ascii "a", false, .domain (ascii "good.com"), some (ascii "(x"), none, none, some (ascii "y"), none⟩, by decide +kernel⟩

/-- A blank after a backslash (C45) does the same with harmless comments. -/
theorem C89_violated_blank : ∃ (cs : List Char) (v : Value), parseStr free ldh (strBytes cs) = .ok v ∧
    Harmless v.comment1 ∧ Harmless v.comment2 ∧ Harmless v.comment3 ∧
    v.host = .domain (ascii "good.com") ∧ ∃ l, read (strBytes cs) = some (l, ascii "evil.com") :=
  ⟨"\"\\ \\\"@good.com()\"@evil.com".toList,
    ⟨ascii "\\ \\", true, .domain (ascii "good.com"), none, none, none, some [], none⟩, by decide +kernel, fun _ h => (by cases h), fun _ h => (by cases h),
    fun _ h => (by cases h), rfl, ascii "\\ \\\"@good.com()", by decide +kernel⟩

/-- The written form of such a value is read at another domain as well. -/
theorem C89_violated_written : ∃ (cs : List Char) (v : Value), parseStr free ldh (strBytes cs) = .ok v ∧
    Harmless v.comment1 ∧ Harmless v.comment2 ∧ Harmless v.comment3 ∧
    v.host = .domain (ascii "good.com") ∧ ∃ l, read (toEmail free v) = some (l, ascii "evil.com") :=
  ⟨"\"\\ \\\"@good.com(\"@evil.com(x)".toList,
    ⟨ascii "\\ \\", true, .domain (ascii "good.com"), none, none, none, some (ascii "\"@evil.com(x"), none⟩, by decide +kernel,
    fun _ h => (by cases h), fun _ h => (by cases h), fun _ h => (by cases h), rfl, ascii "\\ \\\"@good.com(", by decide +kernel⟩

/-- With `comment(Disallow)` the quotation marks are not written (C44), and the blanks are lost for a reader: another mailbox. -/
theorem C89_violated_disallow : ∃ (cs : List Char) (v : Value), parseStr { free with comment := .disallow } ldh (strBytes cs) = .ok v ∧
    v.text = ascii " a " ∧ read (toEmail { free with comment := .disallow } v) = some (ascii "a", ascii "x.yy") :=
  ⟨"\" a \"@x.yy".toList, ⟨ascii " a ", true, .domain (ascii "x.yy"), none, none, none, none, none⟩, by decide +kernel⟩

/-! ## Examples -/

/-- The test algorithm accepts names with letters, digits, hyphens and dots only. -/
theorem ldh_strict : Strict ldh := by
  intro h a e b hb
  have key : lowered b ∈ ascii "abcdefghijklmnopqrstuvwxyz0123456789-." := by
    unfold ldh at e
    simp only at e
    split at e
    · rename_i hc
      exact hc.2.2.2.1 _ (List.mem_map_of_mem hb)
    · cases e
  revert key
  clear hb
  revert b
  apply Verif.BaseN.forall_uint8
  decide +kernel

/-- Comments, quotation marks, an address: what `C89_comments_partial` and `C89_written_partial` say of a string. -/
example : ∃ v, parseStr free ldh (ascii "(c)\"a b\\@c\"(y)@(z)[1.2.3.4](w(x))") = .ok v ∧ v.text = ascii "a b\\@c" ∧
    read (ascii "(c)\"a b\\@c\"(y)@(z)[1.2.3.4](w(x))") = some (ascii "a b\\@c", ascii "[1.2.3.4]") ∧
    read (toEmail free v) = none :=
  ⟨⟨ascii "a b\\@c", true, .ipv4 ⟨1, 2, 3, 4⟩, some (ascii "c"), some (ascii "y"), some (ascii "z"), some (ascii "w(x"), none⟩, by decide +kernel⟩

example : ∃ v, parseStr free ldh (ascii "(c)ab@Example.com(w)") = .ok v ∧ v.text = ascii "ab" ∧
    read (ascii "(c)ab@Example.com(w)") = some (ascii "ab", ascii "Example.com") ∧ read (toEmail free v) = some (ascii "ab", ascii "example.com") :=
  ⟨⟨ascii "ab", false, .domain (ascii "example.com"), some (ascii "c"), none, none, some (ascii "w"), none⟩, by decide +kernel⟩

/-- Without comments: read, refused for a final dot, refused for a quotation mark that is not where a reader sees one. -/
example : ∃ v w x, parseStr { free with comment := .disallow } ldh (ascii "\"a b\"@x.yy") = .ok v ∧
    read (ascii "\"a b\"@x.yy") = some (ascii "a b", ascii "x.yy") ∧
    parseStr { free with comment := .disallow } ldh (ascii "a.@x.yy") = .ok w ∧ read (ascii "a.@x.yy") = none ∧
    parseStr { free with comment := .disallow } ldh (ascii "\"\\ \\\"@x.yy") = .ok x ∧ read (ascii "\"\\ \\\"@x.yy") = none :=
  ⟨⟨ascii "a b", true, .domain (ascii "x.yy"), none, none, none, none, none⟩, ⟨ascii "a.", false, .domain (ascii "x.yy"), none, none, none, none, none⟩,
    ⟨ascii "\\ \\", true, .domain (ascii "x.yy"), none, none, none, none, none⟩, by decide +kernel⟩

end Verif.Props.Mailbox
