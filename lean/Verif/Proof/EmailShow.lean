import Verif.Proof.EmailParse

/-! The written form of an email, and lengths. -/

namespace Verif.Email

open Verif.Spec Verif.Spec.Ip Verif.Spec.Domain Verif.Spec.Host Verif.Spec.Email Verif.StdIp
open Verif.Ip (Str str_cut str_append str_ascii)
open Verif.Domain (Idna idna_chars)
open Verif.Host (Host)

/-! ### Escapes -/

theorem run_zero (r : List UInt8) (h : ∀ b : UInt8, b = asc ' ' ∨ b = asc '\t' → ¬ [b, asc '\\'] <:+: r) (hh : r.head? ≠ some (asc '\\')) :
    (r.takeWhile (· ∈ ascii "\\ \t")).count (asc '\\') = 0 := by
  induction r with
  | nil => rfl
  | cons b r ih =>
    rw [List.takeWhile_cons]
    split
    · rename_i hb
      have hb' : b ≠ asc '\\' := by simpa using hh
      rw [List.count_cons_of_ne hb']
      apply ih
      · intro c hc k
        exact h c hc (k.trans (List.suffix_cons b r).isInfix)
      · intro k
        cases r with
        | nil => cases k
        | cons c r =>
          simp only [List.head?_cons, Option.some.injEq] at k
          subst k
          have : b ∈ [asc '\\', asc ' ', asc '\t'] := of_decide_eq_true hb
          simp only [List.mem_cons, List.not_mem_nil, or_false] at this
          exact h b (this.resolve_left hb') ⟨[], r, rfl⟩
    · rfl

theorem run_eq (r : List UInt8) (h : ∀ b : UInt8, b = asc ' ' ∨ b = asc '\t' → ¬ [b, asc '\\'] <:+: r) :
    (r.takeWhile (· ∈ ascii "\\ \t")).count (asc '\\') = (r.takeWhile (· = asc '\\')).length := by
  induction r with
  | nil => rfl
  | cons b r ih =>
    by_cases hb : b = asc '\\'
    · subst hb
      rw [List.takeWhile_cons, if_pos (by decide), List.count_cons_self, List.takeWhile_cons, if_pos (by decide), List.length_cons, ih]
      intro c hc k
      exact h c hc (k.trans (List.suffix_cons _ r).isInfix)
    · rw [run_zero (b :: r) h (by simpa using hb), List.takeWhile_cons, if_neg (by simpa using hb)]
      rfl

theorem escape_real (t : List UInt8) (h : ∀ b : UInt8, b = asc ' ' ∨ b = asc '\t' → ¬ [asc '\\', b] <:+: t) : Escape t ↔ RealEscape t := by
  unfold Escape RealEscape
  rw [run_eq]
  intro b hb k
  apply h b hb
  have := List.reverse_infix.2 k
  simpa using this

theorem quoted_real (na : Allow) (t : List UInt8) (h : ∀ b : UInt8, b = asc ' ' ∨ b = asc '\t' → ¬ [asc '\\', b] <:+: t) (hq : Quoted Escape na t) :
    Quoted RealEscape na t := by
  obtain ⟨h1, h2, h3⟩ := hq
  refine ⟨h1, ?_, fun k => h3 ((escape_real t h).2 k)⟩
  intro pre b post ht
  rcases h2 pre b post ht with k | k | k | ⟨k, k2⟩
  · exact .inl k
  · exact .inr (.inl k)
  · exact .inr (.inr (.inl k))
  · refine .inr (.inr (.inr ⟨k, ?_⟩))
    rw [← escape_real]
    · exact k2
    · intro c hc k'
      exact h c hc (k'.trans (by rw [ht]; exact (List.prefix_append _ _).isInfix))

/-! ### Pieces are strings -/

theorem comment_text_str (p t : List UInt8) (c : Option (List UInt8)) (h : Str (p ++ (comment c ++ t))) : Str (comment c) := by
  cases c with
  | none => exact str_ascii [] (by simp)
  | some cc =>
    rw [comment_some] at h
    have h1 := (str_cut p _ _ (by decide) h).2
    have h2 := (str_cut cc _ _ (by decide) h1).1
    have : comment (some cc) = ([asc '('] ++ cc) ++ [asc ')'] := by simp [comment, ascii]
    rw [this]
    exact str_append _ _ (str_append _ _ (str_ascii _ (by decide)) h2) (str_ascii _ (by decide))

structure Strs (s : List UInt8) (v : Value) (t : List UInt8) : Prop where
  c1 : Str (comment v.comment1)
  text : Str v.text
  c2 : Str (comment v.comment2)
  t : Str t
  c3 : Str (comment v.comment3)
  c4 : Str (comment v.comment4)

theorem strs (o : Opts) (idna : Idna) (s : List UInt8) (hs : Str s) (v : Value) (q : Bool) (t h tail : List UInt8)
    (hd : Denotes o idna s v q t h tail) : Strs s v t := by
  have hcl := hd.localText
  have ht' : s = comment v.comment1 ++ (quote q v.text ++ (comment v.comment2 ++ asc '@' :: t)) := by rw [hd.text]; simp [ascii, asc]
  have hhead : q = false → (comment v.comment2 ++ asc '@' :: t).head? = some (asc '@') ∨ (comment v.comment2 ++ asc '@' :: t).head? = some (asc '(') := by
    intro _
    cases v.comment2 with
    | none => left; rfl
    | some c => right; rw [comment_some]; rfl
  have h2 : Str (quote q v.text ++ (comment v.comment2 ++ asc '@' :: t)) := lead_str _ _ _ hs _ _ (lead_of o s _ v.comment1 q v.text hcl ht')
  have hrs : Str (comment v.comment2 ++ asc '@' :: t) :=
    localAt_str o.nonAscii (comment v.comment1).length _ h2 ⟨v.text, v.needQuoted, q, _⟩ _
      (localAt_of o _ v.comment1 q v.needQuoted v.text hcl (by simp) hhead hd.needQuoted)
  have hts : Str t := (str_cut _ _ _ (by decide) hrs).2
  have hdt := hd.domainText
  refine ⟨?_, ?_, comment_text_str [] _ _ hrs, hts, ?_, ?_⟩
  · rw [ht'] at hs; exact comment_text_str [] _ _ hs
  · cases q
    · rw [quote_false] at h2
      have hh := hhead rfl
      cases hr : comment v.comment2 ++ asc '@' :: t with
      | nil => rw [hr] at hh; simp at hh
      | cons b r =>
        rw [hr] at h2 hh
        refine (str_cut _ _ b ?_ h2).1
        simp only [List.head?_cons, Option.some.injEq] at hh
        rcases hh with rfl | rfl <;> decide
    · rw [quote_true] at h2
      exact (str_cut v.text _ _ (by decide) (str_tail _ _ (by decide) h2)).1
  · rw [hdt.text, List.append_assoc] at hts; exact comment_text_str [] _ _ hts
  · obtain ⟨_, _, junk, htl, _⟩ := hdt.after
    rw [hdt.text, htl] at hts
    exact comment_text_str _ _ _ hts

/-! ### Written form -/

theorem toEmail_eq (o : Opts) (v : Value) (ho : o.comment = .allow ∨ v.needQuoted = false ∧ v.comment1 = none ∧ v.comment2 = none ∧ v.comment3 = none ∧ v.comment4 = none) :
    toEmail o v = comment v.comment1 ++ quote v.needQuoted v.text ++ comment v.comment2 ++ ascii "@" ++ (comment v.comment3 ++ showHost v.host ++ comment v.comment4) := by
  have hc : ∀ c : Option (List UInt8), showComment c = comment c := by
    intro c; cases c <;> simp [showComment, comment, ascii]
  unfold toEmail
  rcases ho with ho | ⟨h0, h1, h2, h3, h4⟩
  · rw [if_neg (by rw [ho]; simp)]
    simp only [hc]
    cases v.needQuoted <;> simp [quote, ascii]
  · simp only [hc, h0, h1, h2, h3, h4]
    split <;> simp [comment, quote, ascii]

theorem showHost_text (idna : Idna) (laws : IdnaLaws idna) (h : List UInt8) (x : Host) (hx : HostText idna h x)
    (hdot : ∀ a, x = .domain a → ¬ ∃ c, a = c ++ ascii ".") : HostText idna (showHost x) x ∧ Str (showHost x) := by
  cases hx with
  | ipv4 =>
    rename_i x
    have : showHost (.ipv4 x) = ascii "[" ++ x.text ++ ascii "]" := by simp [showHost, showV4_text, ascii]
    rw [this]
    refine ⟨.ipv4, str_ascii _ ?_⟩
    intro b hb
    simp only [List.mem_append] at hb
    rcases hb with (hb | hb) | hb
    · revert b; decide
    · exact Ip.text_ascii x b hb
    · revert b; decide
  | ipv6 hv =>
    rename_i t x
    have : showHost (.ipv6 x) = ascii "[IPv6:" ++ showV6 x ++ ascii "]" := by simp [showHost, ascii]
    rw [this]
    have h6 := showV6_text x
    refine ⟨.ipv6 h6, str_ascii _ ?_⟩
    intro b hb
    simp only [List.mem_append] at hb
    rcases hb with (hb | hb) | hb
    · revert b; decide
    · exact Ip.v6Text_ascii _ _ h6 b hb
    · revert b; decide
  | domain h1 h2 h3 h4 h5 =>
    rename_i a
    have hsym := laws.symbols _ _ h5
    have hne := laws.nonempty _ _ h5
    refine ⟨.domain hne ?_ ?_ (hdot a rfl) (laws.again _ _ h5), str_ascii _ (idna_chars idna laws _ _ h5).2.2⟩
    · intro k
      have : asc '[' ∈ a := List.mem_of_mem_head? (show asc '[' ∈ a.head? from k)
      exact absurd (hsym _ this) (by decide)
    · intro k
      exact absurd (hsym _ k) (by decide)

theorem fits_of_short (l p : Nat) (t : List UInt8) (h : p + t.length ≤ l) : Fits l p t := by
  intro i b hi hl
  have := (List.getElem?_eq_some_iff.1 hi).1
  omega

/-- What `to_email_string` writes is read back. -/
theorem roundTrip (o : Opts) (idna : Idna) (laws : IdnaLaws idna) (s : List UInt8) (hs : Str s) (v : Value) (hv : parseStr o idna s = .ok v)
    (ho : o.comment = .allow ∨ v.needQuoted = false) (hdot : ∀ a, v.host = .domain a → ¬ ∃ c, a = c ++ ascii ".")
    (hleft : v.needQuoted = true ∨ Fits 64 (comment v.comment1).length v.text ∧ Comment2 o (comment v.comment1 ++ v.text).length v.comment2)
    (hright : (comment v.comment3 ++ showHost v.host ++ comment v.comment4).length ≤ 255)
    (htotal : (toEmail o v).length ≤ 320) : parseStr o idna (toEmail o v) = .ok v := by
  rw [parseStr_ok o idna s hs] at hv
  obtain ⟨q, t, h, tail, hd⟩ := hv
  have hS := strs o idna s hs v q t h tail hd
  obtain ⟨hht, hhs⟩ := showHost_text idna laws h v.host hd.domainText.host hdot
  have heq := toEmail_eq o v (by
    cases hc : o.comment with
    | allow => exact .inl rfl
    | disallow =>
      rw [hc] at ho
      exact .inr ⟨ho.resolve_left (by simp), denotes_comments o idna s v q t h tail hd hc⟩)
  have hstr : Str (toEmail o v) := by
    rw [heq]
    have hq : Str (quote v.needQuoted v.text) := by
      cases v.needQuoted
      · exact hS.text
      · exact str_append _ _ (str_append _ _ (str_ascii _ (by decide)) hS.text) (str_ascii _ (by decide))
    exact str_append _ _ (str_append _ _ (str_append _ _ (str_append _ _ hS.c1 hq) hS.c2) (str_ascii _ (by decide)))
      (str_append _ _ (str_append _ _ hS.c3 hhs) hS.c4)
  rw [parseStr_ok o idna _ hstr]
  have hl := hd.localText
  have hn := hd.needQuoted
  have hc2 := hd.comment2
  refine ⟨v.needQuoted, comment v.comment3 ++ showHost v.host ++ comment v.comment4, showHost v.host, comment v.comment4, heq, htotal, ?_, ?_, ?_, ?_, hd.isLocal⟩
  · refine ⟨hl.closed, hl.allowed, hl.short, ?_, ?_⟩
    · intro hnq
      have hU : Unquoted o.nonAscii v.text := by
        cases q
        · exact (hl.unquoted rfl).1
        · apply Classical.byContradiction
          intro k
          rw [hn.2 ⟨rfl, k⟩] at hnq
          cases hnq
      refine ⟨hU, ?_⟩
      rw [hnq] at hleft
      exact (hleft.resolve_left (by simp)).1
    · intro hnq
      obtain ⟨rfl, _⟩ := hn.1 hnq
      exact hl.quoted rfl
  · refine ⟨hc2.1, fun hne => ⟨(hc2.2 hne).1, ?_⟩⟩
    cases hnq : v.needQuoted
    · rw [hnq] at hleft
      exact ((hleft.resolve_left (by simp)).2.2 hne).2
    · obtain ⟨rfl, _⟩ := hn.1 hnq
      exact (hc2.2 hne).2
  · constructor
    · intro k
      exact ⟨k, (hn.1 k).2⟩
    · exact fun k => k.1
  · refine ⟨rfl, hd.domainText.closed, hd.domainText.allowed, hht, hd.domainText.ok, ⟨hd.domainText.after.1, hd.domainText.after.2.1, [], by simp, fun _ => rfl⟩, hright, .inl (by omega)⟩

/-- A text that is accepted does not start with a quotation mark. -/
theorem text_head (o : Opts) (c1 : Option (List UInt8)) (q : Bool) (t : List UInt8) (h : LocalText o c1 q t) : t.head? ≠ some (asc '"') := by
  intro hh
  cases t with
  | nil => cases hh
  | cons b r =>
    simp only [List.head?_cons, Option.some.injEq] at hh
    subst hh
    cases q
    · rcases (h.unquoted rfl).1.2.2.1 _ (List.mem_cons_self ..) with k | k | k
      · revert k; decide
      · revert k; decide
      · exact absurd k.2 (by decide)
    · rcases (h.quoted rfl).1.2.1 [] _ _ rfl with k | k | k | k
      · revert k; decide
      · revert k; decide
      · exact absurd k.2 (by decide)
      · exact absurd k.2 (by unfold Escape; decide)

/-- A list up to the first occurrence of `b`. -/
theorem cut_unique (b : UInt8) (x y r s : List UInt8) (hx : b ∉ x) (hy : b ∉ y) (h : x ++ b :: r = y ++ b :: s) : x = y := by
  induction x generalizing y with
  | nil =>
    cases y with
    | nil => rfl
    | cons c y => simp only [List.nil_append, List.cons_append, List.cons.injEq] at h; exact absurd (h.1 ▸ List.mem_cons_self ..) hy
  | cons c x ih =>
    cases y with
    | nil => simp only [List.nil_append, List.cons_append, List.cons.injEq] at h; exact absurd (h.1 ▸ List.mem_cons_self ..) hx
    | cons d y =>
      simp only [List.cons_append, List.cons.injEq] at h
      rw [h.1, ih y (fun k => hx (List.mem_cons_of_mem _ k)) (fun k => hy (List.mem_cons_of_mem _ k)) h.2]

theorem showHost_str (idna : Idna) (laws : IdnaLaws idna) (h : List UInt8) (x : Host) (hx : HostText idna h x) : Str (showHost x) := by
  cases x with
  | ipv4 x => exact (showHost_text idna laws h _ hx (by simp)).2
  | ipv6 x => exact (showHost_text idna laws h _ hx (by simp)).2
  | domain a =>
    cases hx with
    | domain h1 h2 h3 h4 h5 => exact str_ascii _ (idna_chars idna laws _ _ h5).2.2

/-- What `to_email_string` writes is a string. -/
theorem toEmail_str (o : Opts) (idna : Idna) (laws : IdnaLaws idna) (s : List UInt8) (hs : Str s) (v : Value) (hv : parseStr o idna s = .ok v) :
    Str (toEmail o v) := by
  rw [parseStr_ok o idna s hs] at hv
  obtain ⟨q, t, h, tail, hd⟩ := hv
  have hS := strs o idna s hs v q t h tail hd
  have hhs := showHost_str idna laws h v.host hd.domainText.host
  cases hc : o.comment with
  | disallow =>
    have hw : toEmail o v = v.text ++ ([asc '@'] ++ showHost v.host) := by unfold toEmail; rw [if_pos hc]; rfl
    rw [hw]
    exact str_append _ _ hS.text (str_append _ _ (str_ascii _ (by decide)) hhs)
  | allow =>
    rw [toEmail_eq o v (.inl hc)]
    have hq : Str (quote v.needQuoted v.text) := by
      cases v.needQuoted
      · exact hS.text
      · exact str_append _ _ (str_append _ _ (str_ascii _ (by decide)) hS.text) (str_ascii _ (by decide))
    exact str_append _ _ (str_append _ _ (str_append _ _ (str_append _ _ hS.c1 hq) hS.c2) (str_ascii _ (by decide)))
      (str_append _ _ (str_append _ _ hS.c3 hhs) hS.c4)

/-- What is read back from the written form. -/
theorem readBack (o : Opts) (idna : Idna) (laws : IdnaLaws idna) (s : List UInt8) (hs : Str s) (v : Value) (hv : parseStr o idna s = .ok v)
    (hb : parseStr o idna (toEmail o v) = .ok v) (hstr : Str (toEmail o v)) :
    (o.comment = .allow ∨ v.needQuoted = false) ∧ (∀ a, v.host = .domain a → ¬ ∃ c, a = c ++ ascii ".") ∧
    (v.needQuoted = true ∨ Fits 64 (comment v.comment1).length v.text ∧ Comment2 o (comment v.comment1 ++ v.text).length v.comment2) ∧
    (comment v.comment3 ++ showHost v.host ++ comment v.comment4).length ≤ 255 ∧ (toEmail o v).length ≤ 320 := by
  rw [parseStr_ok o idna s hs] at hv
  obtain ⟨q0, t0, h0, tail0, hd0⟩ := hv
  rw [parseStr_ok o idna _ hstr] at hb
  obtain ⟨q, t, h, tail, hd⟩ := hb
  have hhead := text_head o _ _ _ hd.localText
  have hne : v.text ≠ [] := by
    cases q
    · exact (hd.localText.unquoted rfl).1.1
    · exact (hd.localText.quoted rfl).1.1
  have ho : o.comment = .allow ∨ v.needQuoted = false := by
    cases hc : o.comment with
    | allow => exact .inl rfl
    | disallow =>
      right
      cases hnq : v.needQuoted with
      | false => rfl
      | true =>
        obtain ⟨e1, e2, e3, e4⟩ := denotes_comments o idna s v q0 t0 h0 tail0 hd0 hc
        obtain ⟨rfl, _⟩ := hd.needQuoted.1 hnq
        have ht := hd.text
        rw [e1, e2] at ht
        have hw : toEmail o v = v.text ++ (ascii "@" ++ showHost v.host) := by
          unfold toEmail
          rw [if_pos hc]
          simp [ascii]
        rw [hw] at ht
        cases hx : v.text with
        | nil => exact absurd hx hne
        | cons b r =>
          rw [hx] at ht hhead
          simp only [comment, quote, List.nil_append, if_true, ascii, List.cons_append] at ht
          exact (hhead (congrArg some (List.cons.inj ht).1)).elim
  have heq := toEmail_eq o v (by
    cases hc : o.comment with
    | allow => exact .inl rfl
    | disallow =>
      rw [hc] at ho
      exact .inr ⟨ho.resolve_left (by simp), denotes_comments o idna s v q0 t0 h0 tail0 hd0 hc⟩)
  have ht := hd.text
  rw [heq] at ht
  simp only [List.append_assoc] at ht
  have ht := List.append_cancel_left ht
  have hq : v.needQuoted = q := by
    cases q with
    | true =>
      cases hnq : v.needQuoted with
      | true => rfl
      | false =>
        rw [hnq] at ht
        cases hx : v.text with
        | nil => exact absurd hx hne
        | cons b r =>
          rw [hx] at ht hhead
          simp only [quote, ascii, List.cons_append, if_true, Bool.false_eq_true, if_false] at ht
          exact (hhead (congrArg some (List.cons.inj ht).1)).elim
    | false =>
      cases hnq : v.needQuoted with
      | false => rfl
      | true => exact absurd (hd.needQuoted.1 hnq).1 (by simp)
  rw [hq] at ht
  have ht := List.append_cancel_left (List.append_cancel_left (List.append_cancel_left ht))
  have hshort := hd.domainText.short
  refine ⟨ho, ?_, ?_, by rw [← ht] at hshort; simpa [Nat.add_assoc] using hshort, hd.short⟩
  · intro a ha
    have hdt := hd.domainText
    have hhost := hdt.host
    rw [hdt.text, ha, List.append_assoc] at ht
    have ht := List.append_cancel_left ht
    rw [ha] at hhost
    cases hhost with
    | domain h1 h2 h3 h4 h5 =>
      have hna : asc '(' ∉ a := fun k => absurd (laws.symbols _ _ h5 _ k) (by decide)
      obtain ⟨_, _, junk, hj, hj'⟩ := hdt.after
      rw [hj] at ht
      have : a = h := by
        cases hc : v.comment4 with
        | none =>
          rw [hc, hj' hc] at ht
          simpa [comment, showHost] using ht
        | some c =>
          rw [hc] at ht
          exact cut_unique (asc '(') _ _ (c ++ ascii ")") (c ++ ascii ")" ++ junk) hna h3 (by simpa [comment, showHost, ascii, asc] using ht)
      rw [this]
      exact h4
  · cases q with
    | true => exact .inl hq
    | false =>
      refine .inr ⟨(hd.localText.unquoted rfl).2, ?_⟩
      have := hd.comment2
      simpa [quote] using this

/-- The right side is within its limit when the text needs no quotation marks. -/
theorem right_short (o : Opts) (idna : Idna) (s : List UInt8) (v : Value) (q : Bool) (t h tail : List UInt8) (hd : Denotes o idna s v q t h tail) :
    (comment v.comment3 ++ showHost v.host ++ comment v.comment4).length ≤ if v.needQuoted = true then 257 else 255 := by
  have h1 := hd.domainText.printed
  have h2 := hd.domainText.short
  have h3 := hd.domainText.text
  obtain ⟨_, _, junk, h4, _⟩ := hd.domainText.after
  rw [h3, h4] at h2
  rw [h4] at h1
  simp only [List.length_append] at h1 h2 ⊢
  cases hnq : v.needQuoted <;> simp [hnq] at h1 ⊢ <;> omega

end Verif.Email
