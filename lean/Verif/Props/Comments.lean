import Verif.Props.Sides

/-!
# C99: comments do not matter
-/

namespace Verif.Props.Comments

open _root_.Verif.BaseN (strBytes)
open Verif.Email Verif.Spec Verif.Spec.Ip Verif.Spec.Domain Verif.Spec.Host Verif.Spec.Email
open Verif.Domain (Idna ldh)
open Verif.Ip (Str str_cut str_append str_ascii)
open Verif.Props.Email

/-- An optional comment, written. -/
def inParens : Option (List Char) → List Char
  | some c => '(' :: c ++ [')']
  | none => []

/-- The value without comments. -/
def stripped (v : Value) : Value := { v with comment1 := none, comment2 := none, comment3 := none, comment4 := none }

theorem inParens_bytes (c : Option (List Char)) : strBytes (inParens c) = comment (c.map strBytes) := by
  cases c with
  | none => rfl
  | some c => simp [inParens, comment, strBytes, ascii, asc, String.utf8EncodeChar]

theorem bytes_append (a b : List Char) : strBytes (a ++ b) = strBytes a ++ strBytes b := by simp [strBytes]

theorem cut_comment (c : Option (List UInt8)) (r : List UInt8) (h : Str (comment c ++ r)) : Str r := by
  cases c with
  | none => exact h
  | some c =>
    have e : comment (some c) ++ r = (ascii "(" ++ c) ++ asc ')' :: r := by simp [comment, ascii]
    rw [e] at h
    exact (str_cut _ _ _ (by decide) h).2

theorem cut_before (l r : List UInt8) (c : Option (List UInt8)) (b : UInt8) (hb : b.toNat < 128) (h : Str (l ++ (comment c ++ b :: r))) : Str l ∧ Str (b :: r) := by
  cases c with
  | none =>
    have := str_cut _ _ _ hb h
    exact ⟨this.1, str_append [b] r (str_ascii _ (by simp [hb])) this.2⟩
  | some c =>
    have e : l ++ (comment (some c) ++ b :: r) = l ++ asc '(' :: (c ++ ascii ")" ++ b :: r) := by simp [comment, ascii]
    have e' : l ++ (comment (some c) ++ b :: r) = (l ++ ascii "(" ++ c) ++ asc ')' :: (b :: r) := by simp [comment, ascii]
    exact ⟨(str_cut _ _ _ (by decide) (e ▸ h)).1, (str_cut _ _ _ (by decide) (e' ▸ h)).2⟩

theorem fits_short (limit start : Nat) (t : List UInt8) (h : start + t.length ≤ limit) : Fits limit start t := by
  intro i b hb e
  have := (List.getElem?_eq_some_iff.1 hb).1
  omega

/-- C99, comments can be left out: with a local part of at most 62 bytes, an accepted email without its comments (and without what follows the
last one, C41) is accepted too, with comments allowed or not, and is the same mailbox. -/
theorem C99_without (o : Opts) (idna : Idna) (cs : List Char) (v : Value) (hv : parseStr o idna (strBytes cs) = .ok v) (hl : v.text.length ≤ 62) :
    ∃ (l h : List Char) (junk : List UInt8),
      strBytes cs = comment v.comment1 ++ strBytes l ++ comment v.comment2 ++ ascii "@" ++ comment v.comment3 ++ strBytes h ++ comment v.comment4 ++ junk ∧
      (v.comment4 = none → junk = []) ∧
      ∀ c, parseStr { o with comment := c } idna (strBytes (l ++ '@' :: h)) = .ok (stripped v) := by
  obtain ⟨q, t, h, tail, d⟩ := (C62_email o idna cs v).1 hv
  have dt := d.domainText
  obtain ⟨_, _, junk, htail, hjunk⟩ := dt.after
  have e : strBytes cs = comment v.comment1 ++ quote q v.text ++ comment v.comment2 ++ ascii "@" ++ comment v.comment3 ++ h ++ comment v.comment4 ++ junk := by
    rw [d.text, dt.text, htail]; simp
  have hs : Str (strBytes cs) := ⟨cs, rfl⟩
  have h1 : Str (quote q v.text) ∧ Str (asc '@' :: (comment v.comment3 ++ (h ++ tail))) := by
    refine cut_before _ _ v.comment2 _ (by decide) (cut_comment v.comment1 _ ?_)
    have : strBytes cs = comment v.comment1 ++ (quote q v.text ++ (comment v.comment2 ++ asc '@' :: (comment v.comment3 ++ (h ++ tail)))) := by
      rw [d.text, dt.text]; simp [ascii]
    rw [← this]; exact hs
  have h2 : Str h := by
    have h3 := cut_comment _ _ (str_cut [] _ _ (by decide) h1.2).2
    rw [htail] at h3
    cases hc : v.comment4 with
    | none => rw [hc, hjunk hc] at h3; simpa [comment] using h3
    | some c =>
      rw [hc] at h3
      have e : h ++ (comment (some c) ++ junk) = h ++ asc '(' :: (c ++ ascii ")" ++ junk) := by simp [comment, ascii]
      exact (str_cut _ _ _ (by decide) (e ▸ h3)).1
  obtain ⟨lc, hlc⟩ := h1.1
  obtain ⟨hc, hhc⟩ := h2
  refine ⟨lc, hc, junk, ?_, hjunk, ?_⟩
  · rw [← hlc, ← hhc]; exact e
  intro c
  have hlen : h.length ≤ 255 := by
    have := dt.short
    rw [dt.text] at this
    simp only [List.length_append] at this
    omega
  have hq : (quote q v.text).length ≤ 64 := by
    unfold quote
    split
    · simp [ascii]; omega
    · omega
  rw [C62_email]
  refine ⟨q, h, h, [], ⟨?_, ?_, ⟨?_, ?_, ?_, ?_, ?_⟩, ?_, d.needQuoted, ?_, d.isLocal⟩⟩
  · rw [Verif.Props.Sides.joined, ← hlc, ← hhc]; simp [stripped, comment, ascii]
  · rw [Verif.Props.Sides.joined, ← hlc, ← hhc, List.length_append, List.length_cons]; omega
  · rintro _ ⟨⟩
  · exact fun k => absurd rfl k
  · rintro _ ⟨⟩
  · intro k
    exact ⟨(d.localText.unquoted k).1, fits_short _ _ _ (by show 0 + v.text.length ≤ 64; omega)⟩
  · intro k
    exact ⟨(d.localText.quoted k).1, fits_short _ _ _ (by show 0 + 1 + v.text.length ≤ 63; omega), by show 0 ≠ 62; decide⟩
  · exact ⟨fun _ k => (by cases k), fun k => absurd rfl k⟩
  · refine ⟨by simp [stripped, comment], fun _ k => (by cases k), fun k => absurd rfl k, dt.host, dt.ok, ⟨fun _ k => (by cases k), fun k => absurd rfl k, [], rfl, fun _ => rfl⟩, hlen, ?_⟩
    rcases dt.printed with k | k
    · exact .inl k
    · refine .inr ?_
      simp only [List.length_append] at k
      show (comment none ++ showHost v.host ++ []).length ≤ 255 + _
      simp only [comment, List.nil_append, List.append_nil]
      show (showHost v.host).length ≤ 255 + (if v.needQuoted = true then 2 else 0)
      omega

/-- C99, comments can be put in: an email accepted without comments is the same mailbox with any comments that have no closing parenthesis, where
comments are allowed, within 64 bytes before the `@` and 255 after it. -/
theorem C99_with (o : Opts) (ho : o.comment = .disallow) (idna : Idna) (hi : ∀ s, asc '@' ∈ s → idna s = none) (l h : List Char)
    (hh : asc '@' ∉ strBytes h) (v : Value) (hv : parseStr o idna (strBytes (l ++ '@' :: h)) = .ok v)
    (c1 c2 c3 c4 : Option (List Char)) (hc : ∀ c, c1 = some c ∨ c2 = some c ∨ c3 = some c ∨ c4 = some c → asc ')' ∉ strBytes c)
    (h1 : (strBytes (inParens c1 ++ l ++ inParens c2)).length ≤ 64) (h2 : (strBytes (inParens c3 ++ h ++ inParens c4)).length ≤ 255)
    (h3 : (strBytes (inParens c3 ++ inParens c4)).length + (showHost v.host).length ≤ 255) :
    parseStr { o with comment := .allow } idna (strBytes (inParens c1 ++ l ++ inParens c2 ++ '@' :: (inParens c3 ++ h ++ inParens c4))) =
      .ok { v with comment1 := c1.map strBytes, comment2 := c2.map strBytes, comment3 := c3.map strBytes, comment4 := c4.map strBytes } := by
  obtain ⟨q, e, d, k1, k2, k3, k4⟩ := Verif.Props.Sides.parts o ho idna hi l h hh v hv
  have dt := d.domainText
  have closed : ∀ c : Option (List Char), (∀ x, c = some x → asc ')' ∉ strBytes x) → Closed (c.map strBytes) := by
    rintro (_ | c) hx t ht
    · cases ht
    · cases ht; exact hx c rfl
  simp only [bytes_append, inParens_bytes, e] at h1 h2 h3
  simp only [List.length_append] at h1 h2 h3
  have ht : 0 < v.text.length := by
    refine List.length_pos_iff.2 ?_
    cases q with
    | false => exact (d.localText.unquoted rfl).1.1
    | true => exact (d.localText.quoted rfl).1.1
  have hq : (quote q v.text).length = v.text.length + (if q = true then 2 else 0) := by
    cases q <;> simp [quote, ascii]
  have hcl : ∀ c, (comment (some c)).length = c.length + 2 := by intro c; simp [comment, ascii]
  rw [C62_email]
  refine ⟨q, comment (c3.map strBytes) ++ strBytes h ++ comment (c4.map strBytes), strBytes h, comment (c4.map strBytes),
    ⟨?_, ?_, ⟨?_, ?_, ?_, ?_, ?_⟩, ?_, d.needQuoted, ?_, d.isLocal⟩⟩
  · rw [Verif.Props.Sides.joined]
    simp only [bytes_append, inParens_bytes, e]
    simp [ascii]
  · rw [Verif.Props.Sides.joined]
    simp only [bytes_append, inParens_bytes, e, List.length_append, List.length_cons]
    omega
  · exact closed _ fun x hx => hc x (.inl hx)
  · exact fun _ => rfl
  · intro c k
    have k : c1.map strBytes = some c := k
    rw [k, hcl] at h1
    omega
  · intro k
    refine ⟨(d.localText.unquoted k).1, fits_short _ _ _ ?_⟩
    show (comment (c1.map strBytes)).length + v.text.length ≤ 64
    omega
  · intro k
    rw [if_pos k] at hq
    refine ⟨(d.localText.quoted k).1, fits_short _ _ _ ?_, ?_⟩
    · show (comment (c1.map strBytes)).length + 1 + v.text.length ≤ 63
      omega
    · show (comment (c1.map strBytes)).length ≠ 62
      omega
  · refine ⟨closed _ fun x hx => hc x (.inr (.inl hx)), fun _ => ⟨rfl, .inl ?_⟩⟩
    show (comment (c1.map strBytes) ++ quote q v.text).length + (comment (c2.map strBytes)).length ≤ 64
    rw [List.length_append]
    omega
  · refine ⟨rfl, closed _ fun x hx => hc x (.inr (.inr (.inl hx))), fun _ => rfl, dt.host, dt.ok,
      ⟨closed _ fun x hx => hc x (.inr (.inr (.inr hx))), fun _ => rfl, [], by simp, fun _ => rfl⟩, ?_, .inr ?_⟩
    · simp only [List.length_append]; omega
    · show (comment (c3.map strBytes) ++ showHost v.host ++ comment (c4.map strBytes)).length ≤ 255 + _
      simp only [List.length_append]; omega

/-- Hypotheses and conclusions of both: `(x)"a b"(y)@(z)B.com(w)` and `"a b"@B.com`. -/
example : (∃ v, parseStr free ldh (strBytes "(x)\"a b\"(y)@(z)B.com(w)".toList) = .ok v ∧ v.text.length = 3 ∧ v.comment3 = some (ascii "z") ∧
      parseStr { free with comment := .disallow } ldh (strBytes ("\"a b\"".toList ++ '@' :: "B.com".toList)) = .ok (stripped v)) ∧
    (strBytes (inParens (some "x".toList) ++ "\"a b\"".toList ++ inParens (some "y".toList))).length = 11 ∧
    (∀ s, asc '@' ∈ s → ldh s = none) := by
  refine ⟨⟨⟨ascii "a b", true, .domain (ascii "b.com"), some (ascii "x"), some (ascii "y"), some (ascii "z"), some (ascii "w"), none⟩,
    by decide +kernel, rfl, rfl, by decide +kernel⟩, by decide +kernel, ?_⟩
  intro s hs
  cases e : ldh s with
  | none => rfl
  | some a =>
    unfold ldh at e
    simp only at e
    split at e
    · rename_i hc
      have := hc.2.2.2.1 (Verif.Spec.Domain.lowered (asc '@')) (List.mem_map_of_mem hs)
      exact absurd this (by decide)
    · cases e

/-- The limit of `C99_without` is needed: after a comment of 61 bytes a quoted local part has no limit (C42), and without the comment it has. -/
theorem C99_long_local : ∃ (c t : List Char) (v : Value), c.length = 61 ∧ t.length = 63 ∧
    parseStr free ldh (strBytes ('(' :: c ++ [')', '"'] ++ t ++ "\"@b.com".toList)) = .ok v ∧ v.text = strBytes t ∧
    parseStr free ldh (strBytes ('"' :: t ++ "\"@b.com".toList)) = .err .invalid :=
  ⟨List.replicate 61 'c', List.replicate 63 'a', ⟨List.replicate 63 (asc 'a'), false, .domain (ascii "b.com"), some (List.replicate 61 (asc 'c')), none, none, none, none⟩,
    by decide +kernel, by decide +kernel, by decide +kernel, by decide +kernel, by decide +kernel⟩

end Verif.Props.Comments
