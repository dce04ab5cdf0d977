import Verif.Props.BaseN
import Verif.Props.Line

/-!
# C98: reading a text in pieces
-/

namespace Verif.Props.Join

open _root_.Verif.BaseN
open Verif.Spec.BaseN Verif.Props.BaseN

theorem nopad_append {E : Encoding} {L : Notation} (C : Codec E L) (n : Nat) :
    ∀ (a b : List UInt8), a.length = L.block * n →
      E.decodeNopad (a ++ b) = (E.decodeNopad a).bind fun x => (E.decodeNopad b).map (x ++ ·) := by
  induction n with
  | zero =>
    intro a b h
    have : a = [] := List.length_eq_zero_iff.1 (by simpa using h)
    subst this
    have : E.decodeNopad [] = some [] := by simp [Encoding.decodeNopad, C.bit, C.bitPos, groups]
    rw [this]
    simp
  | succ n ih =>
    intro a b h
    rw [Nat.mul_succ] at h
    have h1 : (a.take L.block).length = L.block := by rw [List.length_take]; omega
    have h2 : (a.drop L.block).length = L.block * n := by rw [List.length_drop]; omega
    have ea : a.take L.block ++ a.drop L.block = a := List.take_append_drop _ _
    have e := decodeNopad_append C (a.take L.block) (a.drop L.block) h1
    have e' := decodeNopad_append C (a.take L.block) (a.drop L.block ++ b) h1
    rw [← List.append_assoc, ea, ih _ b h2] at e'
    rw [ea] at e
    rw [e, e']
    cases E.decodeNopad (a.take L.block) <;> simp
    cases E.decodeNopad (a.drop L.block) <;> simp
    cases E.decodeNopad b <;> simp

theorem pad_append {E : Encoding} {L : Notation} (C : Codec E L) (a b : List UInt8) (h : a.length % L.block = 0) :
    E.decodePad (a ++ b) = (E.decodePad a).bind fun x => (E.decodePad b).map (x ++ ·) := by
  cases ha : E.decodePad a with
  | some x => rw [decodePad_append C a b x ha]; rfl
  | none =>
    have hp := C.pos
    unfold Encoding.decodePad at ha ⊢
    rw [C.block] at ha ⊢
    rw [if_pos h] at ha
    simp only [Option.bind_none]
    split
    · rename_i hm
      have hlen : a.length = E.block * (a.length / L.block) := by
        have := Nat.div_add_mod a.length L.block
        rw [C.block]; omega
      have hb : (a ++ b).length / L.block = a.length / L.block + b.length / L.block := by
        rw [List.length_append]
        obtain ⟨q, hq⟩ := Nat.dvd_of_mod_eq_zero h
        rw [hq, Nat.mul_add_div hp, Nat.mul_div_cancel_left _ hp]
      rw [hb, decodeBlocks_append E _ _ a b hlen, ha]
    · rfl

theorem orDecode_ok (r : Option (List UInt8)) (d : List UInt8) : orDecode r = .ok d ↔ r = some d := by
  cases r <;> simp [orDecode]

/-- C98: a text whose first part consists of whole blocks is decoded part by part, with padding required or forbidden, and with
optional padding when the first part has none. -/
theorem C98_decoded (K : Kind) (pad : TriAllow) (a b : List UInt8) (ha : a ≠ []) (hb : b ≠ []) (hlen : a.length % K.spec.block = 0)
    (hp : pad = .allow → padByte ∉ a) (d : List UInt8) :
    decodedParse K.encoding pad (a ++ b) = .ok d ↔
      ∃ x y, decodedParse K.encoding pad a = .ok x ∧ decodedParse K.encoding pad b = .ok y ∧ d = x ++ y := by
  have C := K.codec
  have hn : K.encoding.decodeNopad (a ++ b) = (K.encoding.decodeNopad a).bind fun x => (K.encoding.decodeNopad b).map (x ++ ·) :=
    nopad_append C (a.length / K.spec.block) a b (by have := Nat.div_add_mod a.length K.spec.block; omega)
  have hq := pad_append C a b hlen
  have fin : ∀ (r s t : Option (List UInt8)), t = (r.bind fun x => s.map (x ++ ·)) →
      (orDecode t = .ok d ↔ ∃ x y, orDecode r = .ok x ∧ orDecode s = .ok y ∧ d = x ++ y) := by
    intro r s t ht
    subst ht
    simp only [orDecode_ok]
    cases r <;> cases s <;> simp [eq_comm]
  obtain ⟨la, hla⟩ : ∃ l, a.getLast? = some l := ⟨_, List.getLast?_eq_some_getLast ha⟩
  obtain ⟨lb, hlb⟩ : ∃ l, b.getLast? = some l := ⟨_, List.getLast?_eq_some_getLast hb⟩
  have hl : (a ++ b).getLast? = some lb := by rw [List.getLast?_append, hlb]; rfl
  unfold decodedParse
  rw [hl, hla, hlb]
  cases pad with
  | must => exact fin _ _ _ hq
  | disallow => exact fin _ _ _ hn
  | allow =>
    have hpa := hp rfl
    have hla' : la ≠ asc '=' := by
      intro e
      exact hpa (show padByte ∈ a from (show la = padByte from e) ▸ List.mem_of_getLast? hla)
    have he : K.encoding.decodePad a = K.encoding.decodeNopad a := by
      have := decodePad_eq C a 0 C.pos (by simpa using hlen) hpa
      simpa using this
    simp only [if_neg hla']
    split
    · exact fin _ _ _ (he ▸ hq)
    · exact fin _ _ _ hn

/-- C98: a text cut in any way into nonempty pieces of whole blocks decodes to the bytes of the pieces, one after the other. -/
theorem C98_pieces (K : Kind) (pad : TriAllow) (hpad : pad ≠ .allow) (parts : List (List UInt8)) (hne : parts ≠ [])
    (hp : ∀ a ∈ parts, a ≠ [] ∧ a.length % K.spec.block = 0) (d : List UInt8) :
    decodedParse K.encoding pad parts.flatten = .ok d ↔
      ∃ ds : List (List UInt8), parts.map (decodedParse K.encoding pad) = ds.map .ok ∧ d = ds.flatten := by
  induction parts generalizing d with
  | nil => exact absurd rfl hne
  | cons a rest ih =>
    cases rest with
    | nil =>
      simp only [List.flatten_cons, List.flatten_nil, List.append_nil]
      constructor
      · intro h
        exact ⟨[d], by simp [h], by simp⟩
      · rintro ⟨ds, h, rfl⟩
        match ds, h with
        | [x], h => simpa using h
        | _ :: _ :: _, h => simp at h
    | cons b rest =>
      have hb : (b :: rest).flatten ≠ [] := by
        have := (hp b (by simp)).1
        simp [this]
      have ha := hp a (by simp)
      rw [List.flatten_cons, C98_decoded K pad a _ ha.1 hb ha.2 (fun e => absurd e hpad)]
      constructor
      · rintro ⟨x, y, hx, hy, rfl⟩
        obtain ⟨ds, hf, rfl⟩ := (ih (by simp) (fun c hc => hp c (List.mem_cons_of_mem _ hc)) y).1 hy
        exact ⟨x :: ds, by simpa [hx] using hf, by simp⟩
      · rintro ⟨ds, hf, rfl⟩
        match ds, hf with
        | x :: ds, hf =>
          obtain ⟨hx, hf⟩ := List.cons.inj hf
          exact ⟨_, _, hx, (ih (by simp) (fun c hc => hp c (List.mem_cons_of_mem _ hc)) _).2 ⟨_, hf, rfl⟩, by simp⟩

/-- With optional padding a padded piece may not come first: both pieces are read, the whole is refused. -/
theorem C98_padded_piece_first : ∃ a b : List UInt8, a.length % Kind.base64.spec.block = 0 ∧
    decodedParse Kind.base64.encoding .allow a = .ok (ascii "A") ∧ decodedParse Kind.base64.encoding .allow b = .ok (ascii "ABC") ∧
    decodedParse Kind.base64.encoding .allow (a ++ b) = .err .decode :=
  ⟨ascii "QQ==", ascii "QUJD", by decide +kernel⟩

example : decodedParse Kind.base64.encoding .must (ascii "QUJDQQ==QUI=") = .ok (ascii "ABCAAB") ∧
    decodedParse Kind.base64.encoding .must (ascii "QUJDQQ==") = .ok (ascii "ABCA") ∧
    decodedParse Kind.base64.encoding .must (ascii "QUI=") = .ok (ascii "AB") ∧
    decodedParse Kind.base32.encoding .disallow (ascii "MZXW6YTBMY") = .ok (ascii "foobaf") ∧
    decodedParse Kind.base64Url.encoding .allow (ascii "QUJDQQ==") = .ok (ascii "ABCA") := by decide +kernel

/-- C98, validators of the text: whole blocks in front are accepted exactly when they are symbols, and the rest is judged on its own. -/
theorem C98_text (K : Kind) (pad : TriAllow) (a b : List UInt8) (hb : b ≠ []) (hlen : a.length % K.spec.block = 0) :
    (parseU8Slice K.variant pad (a ++ b)).IsOk ↔ (∀ x ∈ a, x ∈ K.spec.alphabet) ∧ (parseU8Slice K.variant pad b).IsOk := by
  rw [C01_parse_u8_slice_language, C01_parse_u8_slice_language]
  have hpos := K.codec.pos
  obtain ⟨q, hq⟩ := Nat.dvd_of_mod_eq_zero hlen
  have hmod : ∀ n, (a.length + n) % K.spec.block = n % K.spec.block := by intro n; rw [hq, Nat.mul_add_mod]
  have hbl : 0 < b.length := List.length_pos_iff.2 hb
  unfold Accepts
  constructor
  · rintro ⟨_, body, k, he, hs, hk⟩
    have hle : a.length ≤ body.length := by
      have hl := congrArg List.length he
      simp only [List.length_append, List.length_replicate] at hl
      rcases hk with ⟨rfl, _⟩ | ⟨_, h2, _, h4, _⟩
      · omega
      · rw [List.length_append, hmod] at h4
        have : K.spec.block ≤ b.length := Nat.le_of_dvd hbl (Nat.dvd_of_mod_eq_zero h4)
        omega
    obtain ⟨r, hr⟩ : ∃ r, body = a ++ r := by
      have := List.append_eq_append_iff.1 he
      rcases this with ⟨r, h1, h2⟩ | ⟨r, h1, h2⟩
      · exact ⟨r, h1⟩
      · have : r = [] := by
          have := congrArg List.length h1
          simp at this
          exact List.length_eq_zero_iff.1 (by omega)
        subst this
        exact ⟨[], by simpa using h1.symm⟩
    subst hr
    rw [List.append_assoc] at he
    have he' := List.append_cancel_left he
    refine ⟨fun x hx => hs x (by simp [hx]), hb, r, k, he', fun x hx => hs x (by simp [hx]), ?_⟩
    simp only [List.length_append, hmod] at hk
    exact hk
  · rintro ⟨hs, _, r, k, he, hr, hk⟩
    refine ⟨by simp [hb], a ++ r, k, by rw [he, List.append_assoc], ?_, ?_⟩
    · intro x hx
      rcases List.mem_append.1 hx with h | h
      · exact hs x h
      · exact hr x h
    · simp only [List.length_append, hmod]
      exact hk

example : (parseU8Slice Kind.base32.variant .must (ascii "MZXW6YTB" ++ ascii "MZXW6YQ=")).IsOk ∧
    (ascii "MZXW6YTB").length % Kind.base32.spec.block = 0 ∧ ¬ (parseU8Slice Kind.base32.variant .must (ascii "MZXW6YQ=" ++ ascii "MZXW6YTB")).IsOk := by
  decide +kernel

section Lines
open Verif.Line Verif.Spec.Line

theorem size_append (b : Bool) (s t : List Char) : size b (s ++ t) = size b s + size b t := by
  unfold size
  split <;> simp [strBytes]

theorem clean_append (k : Verif.Line.Kind) (s t : List Char) : Clean k (s ++ t) ↔ Clean k s ∧ Clean k t := by
  simp [Clean, or_imp, forall_and]

/-- C98, lines and texts without bounds: a text is accepted exactly when its parts are. -/
theorem C98_line (k : Verif.Line.Kind) (b : Bool) (s t : List Char) :
    (parseStr k b none none none (s ++ t)).IsOk ↔ (parseStr k b none none none s).IsOk ∧ (parseStr k b none none none t).IsOk := by
  have key : ∀ u, (parseStr k b none none none u).IsOk ↔ Clean k u := by
    intro u
    constructor
    · intro h
      cases e : parseStr k b none none none u with
      | ok v => exact ((Line.C23_language k b none none u v (fun _ h => nomatch h)).1 e).2.1
      | err x => rw [e] at h; exact absurd h (by simp)
      | panic => rw [e] at h; exact absurd h (by simp)
    · intro h
      rw [(Line.C23_language k b none none u u (fun _ h => nomatch h)).2 ⟨rfl, h, by simp [SizeOk]⟩]
      simp
  rw [key, key, key, clean_append]

/-- C98, with bounds: the bounds add up. -/
theorem C98_line_bounds (k : Verif.Line.Kind) (b : Bool) (m n m' n' : Nat) (hm : m ≤ n) (hm' : m' ≤ n') (s t : List Char)
    (hs : (parseStr k b (some m) none (some n) s) = .ok s) (ht : (parseStr k b (some m') none (some n') t) = .ok t) :
    parseStr k b (some (m + m')) none (some (n + n')) (s ++ t) = .ok (s ++ t) := by
  have o : ∀ m n : Nat, m ≤ n → Line.InOrder (some m) (some n) := by
    rintro m n h _ ⟨⟩ _ ⟨⟩; exact h
  rw [Line.C23_language _ _ _ _ _ _ (o _ _ hm)] at hs
  rw [Line.C23_language _ _ _ _ _ _ (o _ _ hm')] at ht
  rw [Line.C23_language _ _ _ _ _ _ (o _ _ (by omega))]
  obtain ⟨_, h1, h2, h3⟩ := hs
  obtain ⟨_, k1, k2, k3⟩ := ht
  refine ⟨rfl, (clean_append _ _ _).2 ⟨h1, k1⟩, ?_, ?_⟩
  · rintro _ ⟨⟩
    have := h2 _ rfl
    have := k2 _ rfl
    rw [size_append]; omega
  · rintro _ ⟨⟩
    have := h3 _ rfl
    have := k3 _ rfl
    rw [size_append]; omega

example : parseStr .line true (some 1) none (some 3) "a\té".toList = .err .tooLong ∧ parseStr .line true (some 1) none (some 4) "a\té".toList = .ok "a\té".toList ∧
    parseStr .line true (some 2) none (some 2) " b".toList = .ok " b".toList ∧
    parseStr .line true (some 3) none (some 6) "a\té b".toList = .ok "a\té b".toList := by decide +kernel

end Lines

end Verif.Props.Join
