import Verif.Props.Email
import Verif.Proof.Expect

/-!
# How far C41, C42, C59 and C60 fail
-/

namespace Verif.Props.EmailExact

open Verif.Email Verif.Spec Verif.Spec.Ip Verif.Spec.Domain Verif.Spec.Host Verif.Spec.Email Verif.StdIp
open _root_.Verif.BaseN (strBytes)
open Verif.Ip (Str str_cut str_append str_ascii)
open Verif.Host (Host)
open Verif.Domain (Idna ldh)
open Verif.Props.Email (free)

/-- C41: what follows the comment after the host may be anything, within the limits of the lengths. The last limit is that of the
text with the host as it is written. -/
theorem C41_ignored (o : Opts) (idna : Idna) (cs : List Char) (v : Value) (hv : parseStr o idna (strBytes cs) = .ok v) (h4 : v.comment4 ≠ none) :
    ∃ left h rest, strBytes cs = left ++ ascii "@" ++ comment v.comment3 ++ h ++ rest ∧ HostText idna h v.host ∧
      ∀ ds : List Char, (strBytes cs ++ strBytes ds).length ≤ 320 → (comment v.comment3 ++ h ++ rest ++ strBytes ds).length ≤ 255 →
        (comment v.comment3 ++ showHost v.host ++ rest ++ strBytes ds).length ≤ 255 → parseStr o idna (strBytes (cs ++ ds)) = .ok v := by
  obtain ⟨q, t, h, tail, hd⟩ := (Email.C62_email o idna cs v).1 hv
  refine ⟨comment v.comment1 ++ quote q v.text ++ comment v.comment2, h, tail, ?_, hd.domainText.host, ?_⟩
  · rw [hd.text, hd.domainText.text]; simp
  intro ds h1 h2 h3
  have he : strBytes (cs ++ ds) = strBytes cs ++ strBytes ds := by simp [strBytes]
  refine (Email.C62_email o idna (cs ++ ds) v).2 ⟨q, t ++ strBytes ds, h, tail ++ strBytes ds, ?_⟩
  obtain ⟨hc, ha, junk, hj, -⟩ := hd.domainText.after
  refine ⟨?_, ?_, hd.localText, hd.comment2, hd.needQuoted, ⟨?_, hd.domainText.closed, hd.domainText.allowed, hd.domainText.host, hd.domainText.ok,
    ⟨hc, ha, junk ++ strBytes ds, ?_, fun h => absurd h h4⟩, ?_, .inr ?_⟩, hd.isLocal⟩
  · rw [he, hd.text]; simp
  · rw [he]; exact h1
  · rw [hd.domainText.text]; simp
  · rw [hj]; simp
  · rw [hd.domainText.text]; exact h2
  · rw [← List.append_assoc]; omega

/-- The byte at index `i` of the email lies in the local part, and is part of a character that is not ASCII. -/
def WideAt (i start : Nat) (t : List UInt8) : Prop := ∃ b, start ≤ i ∧ t[i - start]? = some b ∧ 128 ≤ b.toNat

/-- C42: exactly when the text before the `@` of an accepted email has more than 64 bytes. -/
theorem C42_left_exact_partial (o : Opts) (idna : Idna) (cs : List Char) (v : Value) (hv : parseStr o idna (strBytes cs) = .ok v) :
    ∃ q right, strBytes cs = comment v.comment1 ++ quote q v.text ++ comment v.comment2 ++ ascii "@" ++ right ∧
      (64 < (comment v.comment1 ++ quote q v.text ++ comment v.comment2).length ↔
        q = false ∧ WideAt 64 (comment v.comment1).length v.text ∨
        q = true ∧ WideAt 63 ((comment v.comment1).length + 1) v.text ∨
        q = true ∧ (∃ c, v.comment1 = some c ∧ c.length = 61) ∨
        o.checked = false ∧ v.comment2 ≠ none ∧ 64 ≤ (comment v.comment1 ++ quote q v.text).length) := by
  obtain ⟨q, t, h, tail, hd⟩ := (Email.C62_email o idna cs v).1 hv
  refine ⟨q, t, hd.text, ?_⟩
  have hc2 := hd.comment2.2
  have hl := hd.localText
  have h2 : ∀ c, (comment (some c)).length = c.length + 2 := by intro c; simp [comment, ascii]
  have hlen : (comment v.comment1).length ≤ 63 := by
    cases hc : v.comment1 with
    | none => simp [comment]
    | some c => have := hl.short c hc; rw [h2]; omega
  have h61 : (∃ c, v.comment1 = some c ∧ c.length = 61) ↔ (comment v.comment1).length = 63 := by
    cases v.comment1 with
    | none => simp [comment]
    | some c => rw [h2]; simp
  have hwide : ∀ l p, Fits l p v.text → p ≤ l → (l < p + v.text.length ↔ WideAt l p v.text) := by
    intro l p hf hp
    constructor
    · intro hlt
      have hi : l - p < v.text.length := by omega
      exact ⟨_, hp, List.getElem?_eq_getElem hi, hf _ _ (List.getElem?_eq_getElem hi) (by omega)⟩
    · rintro ⟨b, -, hb, -⟩
      have := (List.getElem?_eq_some_iff.1 hb).1
      omega
  have hne : v.text.length ≠ 0 := by
    have := (Email.C45_local_part o idna cs v hv).1
    simpa using this
  rw [h61]
  have hcm : ∀ c : Option (List UInt8), c ≠ none → 2 ≤ (comment c).length := by
    intro c hc
    cases c with
    | none => exact absurd rfl hc
    | some c => rw [h2]; omega
  have hcn : v.comment2 = none → (comment v.comment2).length = 0 := by intro h; rw [h]; rfl
  have hc2' := hcm v.comment2
  cases q with
  | false =>
    have hf := hwide 64 _ (hl.unquoted rfl).2 (by omega)
    have hq : quote false v.text = v.text := rfl
    simp only [hq, List.length_append] at hc2 ⊢
    simp only [true_and, Bool.false_eq_true, false_and, false_or]
    rw [← hf]
    constructor
    · intro hk
      by_cases h0 : v.comment2 = none
      · exact .inl (by have := hcn h0; omega)
      · rcases (hc2 h0).2 with h | ⟨h, h'⟩
        · omega
        · exact .inr ⟨h, h0, h'⟩
    · rintro (h | ⟨-, h, h'⟩)
      · omega
      · have := hc2' h; omega
  | true =>
    obtain ⟨-, hfit, hne62⟩ := hl.quoted rfl
    have hq : (quote true v.text).length = v.text.length + 2 := by simp [quote, ascii]
    simp only [hq, List.length_append] at hc2 ⊢
    simp only [true_and, Bool.true_eq_false, false_and, false_or]
    by_cases h63 : (comment v.comment1).length = 63
    · constructor
      · exact fun _ => .inr (.inl h63)
      · intro _; omega
    · have hf := hwide 63 _ hfit (by omega)
      rw [← hf]
      constructor
      · intro hk
        by_cases h0 : v.comment2 = none
        · exact .inl (by have := hcn h0; omega)
        · rcases (hc2 h0).2 with h | ⟨h, h'⟩
          · omega
          · exact .inr (.inr ⟨h, h0, h'⟩)
      · rintro (h | h | ⟨-, h, h'⟩)
        · omega
        · exact absurd h h63
        · have := hc2' h; omega

theorem v4_many (x : V4) : ManyLabels x.text := by
  obtain ⟨r, h⟩ := text_split x
  refine ⟨dec x.a.toNat, r, ?_⟩
  have : dec x.a.toNat ++ ascii "." ++ r = x.text := by rw [h]; simp [ascii, asc]
  rw [this]
  exact .inr ⟨rfl, Verif.Host.text_no_dot x⟩

/-- C59: an email validator takes the text of every IPv4 address for a domain, unless an option asks for something else; `ip(Disallow)`
and `local(Disallow)` do not. -/
theorem C59_email_every_address (o : Opts) (idna : Idna) (x : V4) (hi : idna x.text = some x.text) (hip : o.ip ≠ .must) (hloc : o.loc ≠ .must)
    (hatl : o.atl ≠ .disallow) : ∃ v, parseStr o idna (ascii "a@" ++ x.text) = .ok v ∧ v.host = .domain x.text := by
  have hn : ¬ LocalName x.text := fun h => Verif.Expect.local_one _ h (v4_many x)
  have hlen := text_length x
  refine ⟨⟨ascii "a", false, .domain x.text, none, none, none, none, if o.loc = .allow ∧ o.atl ≠ .allow then some false else none⟩, ?_, rfl⟩
  have hs : Str (ascii "a@" ++ x.text) := str_ascii _ fun b hb => by
    rcases List.mem_append.1 hb with h | h
    · exact (by decide : ∀ b ∈ ascii "a@", b.toNat < 128) b h
    · exact Verif.Ip.text_ascii x b h
  have ha : (ascii "a@").length = 2 := rfl
  refine (Verif.Email.parseStr_ok o idna _ hs _).2 ⟨false, x.text, x.text, [], ?_⟩
  refine ⟨?_, ?_, ⟨?_, ?_, ?_, ?_, ?_⟩, ⟨?_, ?_⟩, ?_, ⟨?_, ?_, ?_, ?_, ?_, ⟨?_, ?_, [], rfl, fun _ => rfl⟩, ?_, .inl ?_⟩, ?_⟩
  · rfl
  · rw [List.length_append, ha]; omega
  · intro t h; cases h
  · intro h; exact absurd rfl h
  · intro c h; cases h
  · intro _
    refine ⟨⟨(by decide : ascii "a" ≠ []), (by decide : (ascii "a").head? ≠ some (asc '.')), ?_, (by decide : ¬ ascii ".." <:+: ascii "a")⟩, ?_⟩
    · intro b hb
      obtain rfl : b = asc 'a' := by simpa [ascii] using hb
      exact .inl (by decide)
    · intro i b hb he
      have := (List.getElem?_eq_some_iff.1 hb).1
      simp [comment, ascii] at he this
      omega
  · intro h; cases h
  · intro t h; cases h
  · intro h; exact absurd rfl h
  · simp
  · simp [comment]
  · intro t h; cases h
  · intro h; exact absurd rfl h
  · refine .domain (Verif.Ip.text_ne_nil x) ?_ ?_ (Verif.Host.text_no_dot x) hi
    · intro h
      have := Verif.Ip.text_bytes x _ (List.mem_of_mem_head? h)
      revert this; decide
    · intro h
      have := Verif.Ip.text_bytes x _ h
      revert this; decide
  · refine ⟨hip, ?_, ?_⟩
    · cases hh : o.atl with
      | allow => trivial
      | must => exact .inr (v4_many x)
      | disallow => exact absurd hh hatl
    · cases hh : o.loc with
      | allow => trivial
      | must => exact absurd hh hloc
      | disallow => exact hn
  · intro t h; cases h
  · intro h; exact absurd rfl h
  · omega
  · simp [showHost]
  · refine ⟨fun h => ⟨false, by simp [h], ?_⟩, fun h => by simp [h]⟩
    exact ⟨fun h => (by cases h), fun h => absurd h hn⟩

/-- C59: and nothing else is a hidden address: if the conversion does not turn another text into the text of an address, then the text
after the `@` (and a comment) is that of the address. -/
theorem C59_email_only (o : Opts) (idna : Idna) (hi : ∀ s a (x : V4), idna s = some a → a = x.text → s = x.text) (cs : List Char) (v : Value) (x : V4)
    (hv : parseStr o idna (strBytes cs) = .ok v) (hx : v.host = .domain x.text) :
    ∃ left rest, strBytes cs = left ++ ascii "@" ++ comment v.comment3 ++ x.text ++ rest := by
  obtain ⟨q, t, h, tail, hd⟩ := (Email.C62_email o idna cs v).1 hv
  refine ⟨comment v.comment1 ++ quote q v.text ++ comment v.comment2, tail, ?_⟩
  have hh := hd.domainText.host
  rw [hx] at hh
  cases hh with
  | domain _ _ _ _ hs =>
    rw [hd.text, hd.domainText.text, hi _ _ x hs rfl]
    simp

/-- C60: a dot may be added to every local part without quotation marks, if it does not end with one and there is room. -/
theorem C60_any (o : Opts) (idna : Idna) (cs : List Char) (v : Value) (t h tail : List UInt8) (hd : Denotes o idna (strBytes cs) v false t h tail)
    (hdot : v.text.getLast? ≠ some (asc '.')) (hl : (comment v.comment1 ++ v.text ++ comment v.comment2).length < 64) (hs : (strBytes cs).length < 320) :
    parseStr o idna (comment v.comment1 ++ (v.text ++ ascii ".") ++ comment v.comment2 ++ ascii "@" ++ t) = .ok { v with text := v.text ++ ascii "." } := by
  obtain ⟨⟨hne, hhead, hb, hdd⟩, -⟩ := hd.localText.unquoted rfl
  have hdot1 : (ascii ".").length = 1 := rfl
  have hat : (ascii "@").length = 1 := rfl
  have htext := hd.text
  rw [show quote false v.text = v.text from rfl] at htext
  have hun : Unquoted o.nonAscii (v.text ++ ascii ".") := by
    refine ⟨by simp [hne], ?_, ?_, ?_⟩
    · cases hv : v.text with
      | nil => exact absurd hv hne
      | cons b r => rw [hv] at hhead; exact hhead
    · intro b h
      rcases List.mem_append.1 h with h | h
      · exact hb b h
      · exact .inr (.inl (by simpa [ascii] using h))
    · rintro ⟨p, r, hpr⟩
      rcases List.eq_nil_or_concat r with rfl | ⟨r', z, rfl⟩
      · have : v.text = p ++ ascii "." := by
          have : v.text ++ ascii "." = (p ++ ascii ".") ++ ascii "." := by rw [← hpr]; simp [ascii]
          exact List.append_cancel_right this
        exact hdot (by rw [this]; simp [ascii])
      · refine hdd ⟨p, r', ?_⟩
        have : v.text ++ [asc '.'] = (p ++ ascii ".." ++ r') ++ [z] := by rw [show v.text ++ [asc '.'] = v.text ++ ascii "." from rfl, ← hpr]; simp
        exact (List.append_inj' this rfl).1.symm
  have hnq : v.needQuoted = false := by
    have := hd.needQuoted
    cases h : v.needQuoted with
    | false => rfl
    | true => rw [h] at this; simp at this
  have hs' : Str (comment v.comment1 ++ (v.text ++ ascii ".") ++ comment v.comment2 ++ ascii "@" ++ t) := by
    have hS : Str (strBytes cs) := ⟨cs, rfl⟩
    rw [htext] at hS
    obtain ⟨b, r, hr, hb128⟩ : ∃ b r, comment v.comment2 ++ ascii "@" ++ t = b :: r ∧ b.toNat < 128 := by
      cases v.comment2 with
      | none => exact ⟨asc '@', t, rfl, by decide⟩
      | some c => exact ⟨asc '(', _, rfl, by decide⟩
    have e1 : comment v.comment1 ++ v.text ++ comment v.comment2 ++ ascii "@" ++ t = (comment v.comment1 ++ v.text) ++ b :: r := by rw [← hr]; simp
    rw [e1] at hS
    obtain ⟨k1, k2⟩ := str_cut _ _ b hb128 hS
    have e2 : comment v.comment1 ++ (v.text ++ ascii ".") ++ comment v.comment2 ++ ascii "@" ++ t =
        (comment v.comment1 ++ v.text) ++ (ascii "." ++ ([b] ++ r)) := by
      rw [show [b] ++ r = b :: r from rfl, ← hr]; simp
    rw [e2]
    exact str_append _ _ k1 (str_append _ _ (str_ascii _ (by decide)) (str_append _ _ (str_ascii _ (by simpa using hb128)) k2))
  refine (Verif.Email.parseStr_ok o idna _ hs' _).2 ⟨false, t, h, tail, ⟨rfl, ?_, ?_, ?_, ?_, ?_, ?_⟩⟩
  · rw [htext] at hs
    simp only [List.length_append] at hs ⊢; omega
  · refine ⟨hd.localText.closed, hd.localText.allowed, hd.localText.short, fun _ => ⟨hun, ?_⟩, fun h => by cases h⟩
    intro i b hi he
    have := (List.getElem?_eq_some_iff.1 hi).1
    simp only [List.length_append] at hl this
    simp only at he
    omega
  · refine ⟨hd.comment2.1, fun hn => ⟨(hd.comment2.2 hn).1, .inl ?_⟩⟩
    simp only [List.length_append, quote] at hl ⊢
    simp
    omega
  · simp [hnq]
  · exact hd.domainText
  · exact hd.isLocal

/-! ### The hypotheses are met -/

/-- An email with a comment after the host, and the same with more text. -/
example : ∃ v, parseStr free ldh (strBytes "a@b.com(c)".toList) = .ok v ∧ v.comment4 = some (ascii "c") ∧
    parseStr free ldh (strBytes ("a@b.com(c)".toList ++ ")(@\n".toList)) = .ok v :=
  ⟨⟨ascii "a", false, .domain (ascii "b.com"), none, none, none, some (ascii "c"), none⟩, by decide +kernel⟩

/-- `"…"` after a comment of 61 bytes, and 65 bytes of which the last two are one character. -/
example : (∃ v, parseStr free ldh (strBytes ("(".toList ++ List.replicate 61 'c' ++ ")\"a\"@x.yy".toList)) = .ok v ∧
      v.comment1 = some (List.replicate 61 (asc 'c'))) ∧
    ∃ v, parseStr free ldh (strBytes (List.replicate 63 'a' ++ "é@x.yy".toList)) = .ok v ∧ WideAt 64 (comment v.comment1).length v.text :=
  ⟨⟨⟨ascii "a", false, .domain (ascii "x.yy"), some (List.replicate 61 (asc 'c')), none, none, none, none⟩, by decide +kernel⟩,
    ⟨List.replicate 63 (asc 'a') ++ [0xC3, 0xA9], false, .domain (ascii "x.yy"), none, none, none, none, none⟩, by decide +kernel,
    0xA9, by decide⟩

/-- The loopback address, although addresses and local hosts are refused. -/
example : ldh (V4.text ⟨127, 0, 0, 1⟩) = some (V4.text ⟨127, 0, 0, 1⟩) ∧ V4.text ⟨127, 0, 0, 1⟩ = ascii "127.0.0.1" ∧
    (parseStr ⟨.disallow, .disallow, .disallow, .must, .disallow, true⟩ ldh (ascii "a@127.0.0.1")).IsOk := by decide +kernel

example : ∃ v, parseStr free ldh (ascii "(c)a.b(d)@x.yy") = .ok v ∧ v.text = ascii "a.b" ∧
    parseStr free ldh (ascii "(c)a.b.(d)@x.yy") = .ok { v with text := ascii "a.b." } :=
  ⟨⟨ascii "a.b", false, .domain (ascii "x.yy"), some (ascii "c"), some (ascii "d"), none, none, none⟩, by decide +kernel⟩

end Verif.Props.EmailExact
