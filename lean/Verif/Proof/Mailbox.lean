import Verif.Spec.Mailbox
import Verif.Proof.EmailShow

/-!
# Lemmas about the reader of mail addresses
-/

namespace Verif.Mailbox

open Verif.Spec.Email Verif.Spec.Mailbox Verif.Spec.Ip Verif.StdIp

/-! ### Comments -/

theorem skip_inside (c r : List UInt8) (h : ∀ b ∈ c, b ≠ asc '(' ∧ b ≠ asc ')' ∧ b ≠ asc '\\') :
    skip 1 false (c ++ asc ')' :: r) = skip 0 false r := by
  induction c with
  | nil => rw [List.nil_append, skip, if_neg (by decide), if_neg (by decide), if_pos rfl]
  | cons b c ih =>
    obtain ⟨h1, h2, h3⟩ := h b (by simp)
    rw [List.cons_append, skip, if_neg h3, if_neg h1, if_neg h2]
    exact ih fun x hx => h x (by simp [hx])

theorem skip_comment (c : Option (List UInt8)) (r : List UInt8) (h : Harmless c) (hc : Closed c) : skip 0 false (comment c ++ r) = skip 0 false r := by
  cases c with
  | none => rfl
  | some t =>
    have : comment (some t) ++ r = asc '(' :: (t ++ asc ')' :: r) := by simp [comment, ascii]
    rw [this, skip, if_pos rfl]
    refine skip_inside t r fun b hb => ⟨?_, ?_, ?_⟩
    · rintro rfl; exact (h t rfl).1 hb
    · rintro rfl; exact hc t rfl hb
    · rintro rfl; exact (h t rfl).2 hb

/-- A byte that is neither a blank nor the beginning of a comment. -/
def Solid (b : UInt8) : Prop := b ≠ asc '(' ∧ b ∉ ascii " \t"

theorem skip_solid (b : UInt8) (r : List UInt8) (h : Solid b) : skip 0 false (b :: r) = some (b :: r) := by
  rw [skip, if_neg h.1, if_neg h.2]

theorem skip_blanks (bl r : List UInt8) (h : ∀ b ∈ bl, b ∈ ascii " \t") : skip 0 false (bl ++ r) = skip 0 false r := by
  induction bl with
  | nil => rfl
  | cons b bl ih =>
    have hb := h b (by simp)
    rw [List.cons_append, skip, if_neg (by rintro rfl; revert hb; decide), if_pos hb]
    exact ih fun x hx => h x (by simp [hx])

/-! ### Quoted strings -/

theorem realEscape_snoc (p : List UInt8) (b : UInt8) : RealEscape (p ++ [b]) ↔ b = asc '\\' ∧ ¬ RealEscape p := by
  unfold RealEscape
  rw [List.reverse_append, List.reverse_singleton, List.singleton_append, List.takeWhile_cons]
  by_cases h : b = asc '\\'
  · simp only [h, decide_true, if_true, List.length_cons, true_and]
    omega
  · simp [h]

theorem not_realEscape_nil : ¬ RealEscape [] := by simp [RealEscape]

/-- Every quotation mark of `t` is escaped, when `p` precedes it. -/
def Inner (p t : List UInt8) : Prop := ∀ pre post, t = pre ++ asc '"' :: post → RealEscape (p ++ pre)

theorem inner_cons (p : List UInt8) (b : UInt8) (t : List UInt8) :
    Inner p (b :: t) ↔ (b = asc '"' → RealEscape p) ∧ Inner (p ++ [b]) t := by
  constructor
  · intro h
    refine ⟨fun hb => ?_, fun pre post e => ?_⟩
    · have := h [] t (by rw [hb]; rfl)
      rwa [List.append_nil] at this
    · have := h (b :: pre) post (by rw [e]; rfl)
      rwa [List.append_assoc]
  · rintro ⟨h1, h2⟩ pre post e
    cases pre with
    | nil =>
      rw [List.append_nil]
      exact h1 (by simpa using (List.cons.inj e).1)
    | cons c pre =>
      obtain ⟨rfl, e'⟩ := List.cons.inj e
      have := h2 pre post e'
      rwa [List.append_assoc] at this

theorem quoted_inner (p t r : List UInt8) (e : Bool) (he : e = true ↔ RealEscape p) (h : Inner p t) :
    ∃ e', (e' = true ↔ RealEscape (p ++ t)) ∧ quoted e (t ++ r) = (quoted e' r).map fun x => (t ++ x.1, x.2) := by
  induction t generalizing p e with
  | nil =>
    refine ⟨e, by rwa [List.append_nil], ?_⟩
    rw [List.nil_append]
    cases quoted e r <;> rfl
  | cons b t ih =>
    obtain ⟨h1, h2⟩ := (inner_cons p b t).1 h
    cases e with
    | true =>
      have hp := he.1 rfl
      obtain ⟨e', h3, h4⟩ := ih (p ++ [b]) false (by rw [realEscape_snoc]; simp [hp]) h2
      refine ⟨e', by simpa using h3, ?_⟩
      rw [List.cons_append, quoted, h4]
      cases quoted e' r <;> simp
    | false =>
      have hp : ¬ RealEscape p := fun k => by simpa using he.2 k
      have hb : b ≠ asc '"' := fun k => hp (h1 k)
      obtain ⟨e', h3, h4⟩ := ih (p ++ [b]) (b == asc '\\') (by rw [realEscape_snoc]; simp [hp]) h2
      refine ⟨e', by simpa using h3, ?_⟩
      rw [List.cons_append, quoted, if_neg hb, h4]
      cases quoted e' r <;> simp

theorem quoted_none (e : Bool) (r : List UInt8) (h : asc '"' ∉ r) : quoted e r = none := by
  induction r generalizing e with
  | nil => cases e <;> rfl
  | cons b r ih =>
    have h1 : b ≠ asc '"' := fun k => h (by simp [k])
    have h2 : asc '"' ∉ r := fun k => h (by simp [k])
    cases e with
    | true => rw [quoted, ih _ h2]; rfl
    | false => rw [quoted, if_neg h1, ih _ h2]; rfl

/-- Either all quotation marks are escaped, or there is a first one that is not. -/
theorem inner_or (p t : List UInt8) : Inner p t ∨ ∃ pre post, t = pre ++ asc '"' :: post ∧ ¬ RealEscape (p ++ pre) ∧ Inner p pre := by
  induction t generalizing p with
  | nil => exact .inl fun pre post e => by simp at e
  | cons b t ih =>
    by_cases hb : b = asc '"' ∧ ¬ RealEscape p
    · exact .inr ⟨[], t, by rw [hb.1]; rfl, by rw [List.append_nil]; exact hb.2, fun pre post e => by simp at e⟩
    · have hb' : b = asc '"' → RealEscape p := fun k => Classical.byContradiction fun hn => hb ⟨k, hn⟩
      rcases ih (p ++ [b]) with h | ⟨pre, post, rfl, h1, h2⟩
      · exact .inl ((inner_cons p b t).2 ⟨hb', h⟩)
      · exact .inr ⟨b :: pre, post, rfl, by simpa using h1, (inner_cons p b pre).2 ⟨hb', h2⟩⟩

/-- What is read of a text in quotation marks. -/
theorem quoted_cases (t r : List UInt8) :
    (Sealed t ∧ quoted false (t ++ asc '"' :: r) = some (t, r)) ∨
    (¬ Sealed t ∧ Inner [] t ∧ RealEscape t ∧ quoted false (t ++ asc '"' :: r) = (quoted false r).map fun x => (t ++ asc '"' :: x.1, x.2)) ∨
    (¬ Sealed t ∧ ∃ pre post, t = pre ++ asc '"' :: post ∧ quoted false (t ++ asc '"' :: r) = some (pre, post ++ asc '"' :: r)) := by
  have nil : (false = true ↔ RealEscape []) := by simp [not_realEscape_nil]
  rcases inner_or [] t with h | ⟨pre, post, rfl, h1, h2⟩
  · obtain ⟨e, h3, h4⟩ := quoted_inner [] t (asc '"' :: r) false nil h
    rw [List.nil_append] at h3
    cases e with
    | true =>
      refine .inr (.inl ⟨fun hs => hs.2 (h3.1 rfl), h, h3.1 rfl, ?_⟩)
      rw [h4, quoted]
      cases quoted false r <;> simp
    | false =>
      refine .inl ⟨⟨h, fun k => by simpa using h3.2 k⟩, ?_⟩
      rw [h4, quoted, if_pos rfl]
      simp
  · refine .inr (.inr ⟨fun hs => h1 (hs.1 pre post rfl), pre, post, rfl, ?_⟩)
    obtain ⟨e, h3, h4⟩ := quoted_inner [] pre (asc '"' :: (post ++ asc '"' :: r)) false nil h2
    have he : e = false := by
      cases e with
      | false => rfl
      | true => exact absurd (h3.1 rfl) h1
    rw [show pre ++ asc '"' :: post ++ asc '"' :: r = pre ++ asc '"' :: (post ++ asc '"' :: r) by simp, h4, he, quoted, if_pos rfl]
    simp

/-- After a quotation mark inside a local part comes nothing that a reader takes for `@`. -/
theorem after_quote (na : Allow) (pre post r : List UInt8) (h : Quoted Escape na (pre ++ asc '"' :: post)) :
    ∃ b u, skip 0 false (post ++ asc '"' :: r) = some (b :: u) ∧ b ≠ asc '@' := by
  generalize hbl : post.takeWhile (· ∈ ascii " \t") = bl
  have hb : ∀ b ∈ bl, b ∈ ascii " \t" := fun b hm => by
    rw [← hbl] at hm
    simpa using List.all_eq_true.1 (List.all_takeWhile (p := fun b => decide (b ∈ ascii " \t")) (l := post)) b hm
  have hp : post = bl ++ post.dropWhile (· ∈ ascii " \t") := by rw [← hbl]; exact (List.takeWhile_append_dropWhile ..).symm
  have hd : ∀ x ∈ (post.dropWhile (· ∈ ascii " \t")).head?, x ∉ ascii " \t" := fun x hx => by
    have := List.head?_dropWhile_not (· ∈ ascii " \t") post
    rw [Option.mem_def.1 hx] at this
    simpa using this
  generalize post.dropWhile (· ∈ ascii " \t") = rest at hp hd
  rw [hp, List.append_assoc, skip_blanks bl _ hb]
  cases rest with
  | nil => exact ⟨_, _, skip_solid _ _ ⟨by decide, by decide⟩, by decide⟩
  | cons x u =>
    have hx := hd x rfl
    have hx' : x ≠ asc '(' ∧ x ≠ asc '@' := by
      have key : x ∈ ascii "(@" → False := by
        intro hm
        have hne : ¬ Escape (pre ++ asc '"' :: bl) := by
          unfold Escape
          rw [List.reverse_append, List.reverse_cons, List.append_assoc, List.takeWhile_append_of_pos]
          · have e1 : (([asc '"'] ++ pre.reverse).takeWhile fun b => decide (b ∈ ascii "\\ \t")) = [] := by
              rw [List.singleton_append, List.takeWhile_cons, if_neg (by decide)]
            rw [e1, List.append_nil, List.count_eq_zero_of_not_mem]
            · decide
            · intro hm'
              exact absurd (hb _ (List.mem_reverse.1 hm')) (by decide)
          · intro b hm'
            have := hb b (List.mem_reverse.1 hm')
            exact decide_eq_true ((by decide : ∀ b ∈ ascii " \t", b ∈ ascii "\\ \t") b this)
        rcases h.2.1 (pre ++ asc '"' :: bl) x u (by rw [hp]; simp) with k | k | k | k
        · exact (by decide : ∀ b ∈ ascii "(@", b ∉ atext) x hm k
        · exact (by decide : ∀ b ∈ ascii "(@", b ∉ ascii ".\\ \t") x hm k
        · exact absurd k.2 (by have := (by decide : ∀ b ∈ ascii "(@", ¬ 128 ≤ b.toNat) x hm; exact this)
        · exact hne k.2
      exact ⟨fun k => key (by rw [k]; decide), fun k => key (by rw [k]; decide)⟩
    exact ⟨x, _, skip_solid _ _ ⟨hx'.1, hx⟩, hx'.2⟩

/-! ### Hosts -/

/-- A text that is read as a domain, also before a comment. -/
structure HostLike (h : List UInt8) : Prop where
  first : ∃ b u, h = b :: u ∧ Solid b
  whole : ∀ tail, (tail = [] ∨ ∃ r, tail = asc '(' :: r) → domain (h ++ tail) = some (h, tail)

theorem hostLike_literal (t : List UInt8) (ht : asc ']' ∉ t) : HostLike (ascii "[" ++ t ++ ascii "]") := by
  have e : ascii "[" ++ t ++ ascii "]" = asc '[' :: (t ++ [asc ']']) := by simp [ascii]
  rw [e]
  refine ⟨⟨_, _, rfl, by decide, by decide⟩, fun tail _ => ?_⟩
  have h1 : ∀ b ∈ t, (b != asc ']') = true := fun b hb => by
    simp only [bne_iff_ne, ne_eq]
    rintro rfl
    exact ht hb
  have e2 : (t ++ [asc ']'] ++ tail).dropWhile (· != asc ']') = asc ']' :: tail := by
    rw [List.append_assoc, List.dropWhile_append_of_pos h1]
    simp
  have e3 : (t ++ [asc ']'] ++ tail).takeWhile (· != asc ']') = t := by
    rw [List.append_assoc, List.takeWhile_append_of_pos h1]
    simp
  rw [List.cons_append, domain, if_pos rfl, e2]
  simp only [e3]
  simp [ascii]

theorem takeWhile_all {α : Type} (p : α → Bool) (s r : List α) (hs : ∀ b ∈ s, p b = true) (hr : r = [] ∨ ∃ b t, r = b :: t ∧ p b = false) :
    (s ++ r).takeWhile p = s ∧ (s ++ r).dropWhile p = r := by
  rw [List.takeWhile_append_of_pos hs, List.dropWhile_append_of_pos hs]
  rcases hr with rfl | ⟨b, t, rfl, hb⟩
  · simp
  · simp [hb]

theorem hostLike_name (h : List UInt8) (hn : h ≠ []) (hc : ∀ b ∈ h, atomChar b = true) : HostLike h := by
  cases h with
  | nil => exact absurd rfl hn
  | cons b u =>
    have hb := hc b (by simp)
    have hsolid : Solid b ∧ b ≠ asc '[' := by
      refine ⟨⟨?_, fun hm => ?_⟩, ?_⟩
      · rintro rfl; revert hb; decide
      · have := (by decide : ∀ b ∈ ascii " \t", atomChar b = false) b hm
        rw [this] at hb; cases hb
      · rintro rfl; revert hb; decide
    refine ⟨⟨b, u, rfl, hsolid.1⟩, fun tail ht => ?_⟩
    obtain ⟨h1, h2⟩ := takeWhile_all atomChar (b :: u) tail hc (by
      rcases ht with rfl | ⟨r, rfl⟩
      · exact .inl rfl
      · exact .inr ⟨_, _, rfl, by decide⟩)
    rw [List.cons_append] at h1 h2 ⊢
    rw [domain, if_neg hsolid.2]
    simp only [h1, h2]
    simp

theorem atomChar_wide (b : UInt8) (h : 128 ≤ b.toNat) : atomChar b = true := by simp [atomChar, h]

theorem hostLike_v4 (x : V4) : HostLike (ascii "[" ++ x.text ++ ascii "]") := by
  refine hostLike_literal _ fun hm => ?_
  rcases Ip.text_bytes x _ hm with h | h <;> revert h <;> decide

theorem hostLike_v6 (t : List UInt8) (segs : List Nat) (h : V6Text t segs) : HostLike (ascii "[IPv6:" ++ t ++ ascii "]") := by
  rw [show ascii "[IPv6:" ++ t ++ ascii "]" = ascii "[" ++ (ascii "IPv6:" ++ t) ++ ascii "]" by simp [ascii]]
  refine hostLike_literal _ fun hm => ?_
  rcases List.mem_append.1 hm with hm | hm
  · revert hm; decide
  · exact (Ip.v6Text_no_bracket t segs h).2 hm

theorem hostLike_text (idna : List UInt8 → Option (List UInt8)) (hi : Strict idna) (h : List UInt8) (x : Host.Host) (ht : HostText idna h x) :
    HostLike h := by
  cases ht with
  | ipv4 => exact hostLike_v4 _
  | ipv6 h => exact hostLike_v6 _ _ h
  | domain h1 h2 h3 h4 h5 =>
    refine hostLike_name h h1 fun b hb => ?_
    rcases hi _ _ h5 b hb with k | k
    · exact (by decide : ∀ b ∈ ascii "abcdefghijklmnopqrstuvwxyzABCDEFGHIJKLMNOPQRSTUVWXYZ0123456789-.", atomChar b = true) b k
    · exact atomChar_wide b k

theorem text_no_quote (idna : List UInt8 → Option (List UInt8)) (hi : Strict idna) (h : List UInt8) (x : Host.Host) (ht : HostText idna h x) :
    asc '"' ∉ h := by
  cases ht with
  | ipv4 =>
    intro hm
    simp only [List.mem_append] at hm
    rcases hm with (hm | hm) | hm
    · revert hm; decide
    · rcases Ip.text_bytes _ _ hm with h | h <;> revert h <;> decide
    · revert hm; decide
  | ipv6 h =>
    intro hm
    simp only [List.mem_append] at hm
    rcases hm with (hm | hm) | hm
    · revert hm; decide
    · rcases Ip.v6Text_bytes _ _ h _ hm with h | h | h <;> revert h <;> decide
    · revert hm; decide
  | domain h1 h2 h3 h4 h5 =>
    intro hm
    rcases hi _ _ h5 _ hm with k | k <;> revert k <;> decide

/-! ### Addresses -/

/-- An address with these parts. -/
def assembled (c1 : Option (List UInt8)) (q : Bool) (t : List UInt8) (c2 c3 : Option (List UInt8)) (h tail : List UInt8) : List UInt8 :=
  comment c1 ++ quote q t ++ comment c2 ++ ascii "@" ++ (comment c3 ++ h ++ tail)

/-- The end of the reading. -/
def finish (l h tail : List UInt8) : Option (List UInt8 × List UInt8) :=
  (skip 0 false tail).bind fun s => if s = [] then some (l, h) else none

/-- What is read after the local part. -/
def second (l s : List UInt8) : Option (List UInt8 × List UInt8) :=
  (skip 0 false s).bind fun s =>
    match s with
    | [] => none
    | b :: s =>
      if b = asc '@' then
        (skip 0 false s).bind fun s => (domain s).bind fun d => (skip 0 false d.2).bind fun s => if s = [] then some (l, d.1) else none
      else none

theorem read_eq (s : List UInt8) : Spec.Mailbox.read s = (skip 0 false s).bind fun s => (localPart s).bind fun x => second x.1 x.2 := rfl

structure Parts (na : Allow) (c1 : Option (List UInt8)) (q : Bool) (t : List UInt8) (c2 c3 : Option (List UInt8)) (h tail : List UInt8) : Prop where
  harmless1 : Harmless c1
  closed1 : Closed c1
  harmless2 : Harmless c2
  closed2 : Closed c2
  harmless3 : Harmless c3
  closed3 : Closed c3
  unquoted : q = false → Unquoted na t
  quoted : q = true → Quoted Escape na t
  host : HostLike h
  tail : tail = [] ∨ ∃ r, tail = asc '(' :: r

theorem second_eq (na : Allow) (c1 : Option (List UInt8)) (q : Bool) (t : List UInt8) (c2 c3 : Option (List UInt8)) (h tail : List UInt8)
    (p : Parts na c1 q t c2 c3 h tail) (l : List UInt8) :
    second l (comment c2 ++ ascii "@" ++ (comment c3 ++ h ++ tail)) = finish l h tail := by
  obtain ⟨b, u, hb, hsol⟩ := p.host.first
  unfold second
  rw [List.append_assoc, skip_comment c2 _ p.harmless2 p.closed2]
  rw [show ascii "@" ++ (comment c3 ++ h ++ tail) = asc '@' :: (comment c3 ++ (h ++ tail)) by simp [ascii], skip_solid _ _ ⟨by decide, by decide⟩]
  simp only [Option.bind_some, if_true]
  rw [skip_comment c3 _ p.harmless3 p.closed3]
  have : skip 0 false (h ++ tail) = some (h ++ tail) := by rw [hb]; exact skip_solid _ _ hsol
  rw [this, Option.bind_some, p.host.whole tail p.tail]
  rfl

theorem read_local (na : Allow) (c1 : Option (List UInt8)) (q : Bool) (t : List UInt8) (c2 c3 : Option (List UInt8)) (h tail : List UInt8)
    (p : Parts na c1 q t c2 c3 h tail) :
    Spec.Mailbox.read (assembled c1 q t c2 c3 h tail) =
      (localPart (quote q t ++ (comment c2 ++ ascii "@" ++ (comment c3 ++ h ++ tail)))).bind fun x => second x.1 x.2 := by
  rw [read_eq]
  have e : assembled c1 q t c2 c3 h tail = comment c1 ++ (quote q t ++ (comment c2 ++ ascii "@" ++ (comment c3 ++ h ++ tail))) := by
    simp [assembled]
  rw [e, skip_comment c1 _ p.harmless1 p.closed1]
  have key : ∃ b u, quote q t = b :: u ∧ Solid b := by
    cases q with
    | true => exact ⟨asc '"', _, rfl, by decide, by decide⟩
    | false =>
      obtain ⟨h1, _, h3, _⟩ := p.unquoted rfl
      cases t with
      | nil => exact absurd rfl h1
      | cons b u =>
        refine ⟨b, u, rfl, ?_⟩
        rcases h3 b (by simp) with k | rfl | k
        · constructor
          · rintro rfl; revert k; decide
          · intro hm; exact (by decide : ∀ b ∈ ascii " \t", b ∉ atext) b hm k
        · exact ⟨by decide, by decide⟩
        · constructor
          · rintro rfl; exact absurd k.2 (by decide)
          · intro hm; exact absurd k.2 ((by decide : ∀ b ∈ ascii " \t", ¬ 128 ≤ b.toNat) b hm)
  obtain ⟨b, u, hq, hs⟩ := key
  rw [hq, List.cons_append, skip_solid _ _ hs]
  rfl

theorem unquoted_atom (na : Allow) (t : List UInt8) (h : Unquoted na t) : ∀ b ∈ t, atomChar b = true := by
  intro b hb
  rcases h.2.2.1 b hb with k | rfl | k
  · simp [atomChar, k]
  · decide
  · exact atomChar_wide b k.2

/-- An address without quotation marks. -/
theorem read_unquoted (na : Allow) (c1 : Option (List UInt8)) (t : List UInt8) (c2 c3 : Option (List UInt8)) (h tail : List UInt8)
    (p : Parts na c1 false t c2 c3 h tail) :
    Spec.Mailbox.read (assembled c1 false t c2 c3 h tail) = if t.getLast? = some (asc '.') then none else finish t h tail := by
  rw [read_local na c1 false t c2 c3 h tail p]
  have hu := p.unquoted rfl
  have hch := unquoted_atom na t hu
  obtain ⟨h1, h2, -, h4⟩ := hu
  obtain ⟨e1, e2⟩ := takeWhile_all atomChar t (comment c2 ++ ascii "@" ++ (comment c3 ++ h ++ tail)) hch (by
    cases c2 with
    | none => exact .inr ⟨asc '@', _, rfl, by decide⟩
    | some c => exact .inr ⟨asc '(', c ++ ascii ")" ++ ascii "@" ++ (comment c3 ++ h ++ tail), by simp [comment, ascii], by decide⟩)
  have hq : quote false t = t := rfl
  rw [hq]
  have hloc : localPart (t ++ (comment c2 ++ ascii "@" ++ (comment c3 ++ h ++ tail))) =
      if DotAtom t then some (t, comment c2 ++ ascii "@" ++ (comment c3 ++ h ++ tail)) else none := by
    cases t with
    | nil => exact absurd rfl h1
    | cons b u =>
      rw [List.cons_append] at e1 e2 ⊢
      rw [localPart, if_neg (by rintro rfl; have := hch (asc '"') (by simp); revert this; decide)]
      simp only [e1, e2]
  rw [hloc]
  by_cases hl : t.getLast? = some (asc '.')
  · rw [if_neg (fun k : DotAtom t => k.2.2.1 hl), if_pos hl]; rfl
  · rw [if_pos (show DotAtom t from ⟨h1, h2, hl, h4⟩), if_neg hl, Option.bind_some]
    exact second_eq na c1 false t c2 c3 h tail p t

/-- An address with quotation marks. -/
theorem read_quoted (na : Allow) (c1 : Option (List UInt8)) (t : List UInt8) (c2 c3 : Option (List UInt8)) (h tail : List UInt8)
    (p : Parts na c1 true t c2 c3 h tail) :
    (Sealed t → Spec.Mailbox.read (assembled c1 true t c2 c3 h tail) = finish t h tail) ∧
    (¬ Sealed t → asc '"' ∉ comment c2 ++ ascii "@" ++ (comment c3 ++ h ++ tail) → Spec.Mailbox.read (assembled c1 true t c2 c3 h tail) = none) := by
  rw [read_local na c1 true t c2 c3 h tail p]
  have hq : quote true t ++ (comment c2 ++ ascii "@" ++ (comment c3 ++ h ++ tail)) =
      asc '"' :: (t ++ asc '"' :: (comment c2 ++ ascii "@" ++ (comment c3 ++ h ++ tail))) := by simp [quote, ascii]
  have h2 := second_eq na c1 true t c2 c3 h tail p
  rw [hq, localPart, if_pos rfl]
  generalize comment c2 ++ ascii "@" ++ (comment c3 ++ h ++ tail) = R at *
  rcases quoted_cases t R with ⟨hs, e⟩ | ⟨hs, -, -, e⟩ | ⟨hs, pre, post, rfl, e⟩
  · refine ⟨fun _ => ?_, fun k => absurd hs k⟩
    rw [e]; exact h2 t
  · refine ⟨fun k => absurd k hs, fun _ hR => ?_⟩
    rw [e, quoted_none false R hR]; rfl
  · refine ⟨fun k => absurd k hs, fun _ _ => ?_⟩
    obtain ⟨b, u, h3, h4⟩ := after_quote na pre post R (p.quoted rfl)
    rw [e]
    simp only [Option.bind_some, second, h3, if_neg h4]

end Verif.Mailbox
