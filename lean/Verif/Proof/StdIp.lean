import Verif.Proof.IpLocal
import Verif.Proof.Hex
import Verif.Proof.Int

/-! The standard IP parser accepts exactly the texts of the grammar, and printing gives such a text. -/

namespace Verif.StdIp

open Verif.Spec.Ip Verif.Spec

theorem segs_eq (x : V6) : x.segs = x.segments.map UInt16.toNat := rfl

/-! ## Numbers -/

/-- The number read by `readDigits`. -/
def numeral (radix : Nat) (acc : Nat) (ds : List UInt8) : Nat := ds.foldl (fun a b => a * radix + (toDigit radix b).getD 0) acc

def NoDigit (radix : Nat) (s : List UInt8) : Prop := ∀ b, s.head? = some b → toDigit radix b = none

theorem readDigits_sound (radix m : Nat) (s : List UInt8) (count acc c n : Nat) (rest : List UInt8)
    (h : readDigits radix m s count acc = some (c, n, rest)) :
    ∃ ds, s = ds ++ rest ∧ (∀ b ∈ ds, toDigit radix b ≠ none) ∧ NoDigit radix rest ∧ c = count + ds.length ∧
      (ds ≠ [] → c ≤ m) ∧ n = numeral radix acc ds := by
  induction s generalizing count acc with
  | nil =>
    simp only [readDigits, Option.some.injEq, Prod.mk.injEq] at h
    obtain ⟨rfl, rfl, rfl⟩ := h
    exact ⟨[], rfl, by simp, by simp [NoDigit], by simp, by simp, rfl⟩
  | cons b s ih =>
    simp only [readDigits] at h
    split at h
    · rename_i hd
      simp only [Option.some.injEq, Prod.mk.injEq] at h
      obtain ⟨rfl, rfl, rfl⟩ := h
      exact ⟨[], rfl, by simp, by simpa [NoDigit] using hd, by simp, by simp, rfl⟩
    · rename_i d hd
      split at h
      · cases h
      · rename_i hc
        obtain ⟨ds, rfl, h1, h2, h3, h4, h5⟩ := ih _ _ h
        refine ⟨b :: ds, rfl, ?_, h2, ?_, ?_, ?_⟩
        · intro x hx
          rcases List.mem_cons.1 hx with rfl | hx
          · simp [hd]
          · exact h1 x hx
        · simp; omega
        · intro _
          by_cases hds : ds = []
          · subst hds; simp at h3; omega
          · exact h4 hds
        · rw [h5]; simp [numeral, hd]

theorem readDigits_complete (radix m : Nat) (ds rest : List UInt8) (count acc : Nat)
    (h1 : ∀ b ∈ ds, toDigit radix b ≠ none) (h2 : NoDigit radix rest) (h3 : count + ds.length ≤ m) :
    readDigits radix m (ds ++ rest) count acc = some (count + ds.length, numeral radix acc ds, rest) := by
  induction ds generalizing count acc with
  | nil =>
    cases rest with
    | nil => simp [readDigits, numeral]
    | cons b r => simp [readDigits, numeral, h2 b rfl]
  | cons b ds ih =>
    simp only [List.cons_append, readDigits]
    have hb := h1 b (by simp)
    cases hd : toDigit radix b with
    | none => exact absurd hd hb
    | some d =>
      simp only [List.length_cons] at h3
      have : ¬ (count + 1 > m) := by omega
      simp only [this, if_false]
      rw [ih (count + 1) (acc * radix + d) (fun x hx => h1 x (List.mem_cons_of_mem _ hx)) (by omega)]
      simp [numeral, hd]; omega

theorem readNumber_iff (radix m : Nat) (z : Bool) (limit : Nat) (s : List UInt8) (n : Nat) (rest : List UInt8) :
    readNumber radix m z limit s = some (n, rest) ↔
      ∃ ds, s = ds ++ rest ∧ ds ≠ [] ∧ ds.length ≤ m ∧ (∀ b ∈ ds, toDigit radix b ≠ none) ∧ NoDigit radix rest ∧
        (z = false → ds.head? = some (asc '0') → ds.length = 1) ∧ n = numeral radix 0 ds ∧ n < limit := by
  constructor
  · intro h
    unfold readNumber at h
    simp only at h
    split at h
    · cases h
    · rename_i c n' rest' hr
      obtain ⟨ds, rfl, h1, h2, h3, h4, h5⟩ := readDigits_sound _ _ _ _ _ _ _ _ hr
      simp only [Nat.zero_add] at h3
      split at h
      · cases h
      · rename_i hc
        have hne : ds ≠ [] := by rintro rfl; simp at h3; omega
        split at h
        · cases h
        · rename_i hz
          split at h
          · rename_i hl
            simp only [Option.some.injEq, Prod.mk.injEq] at h
            obtain ⟨rfl, rfl⟩ := h
            refine ⟨ds, rfl, hne, by have := h4 hne; omega, h1, h2, ?_, h5, hl⟩
            intro hzf hh
            subst hzf
            have : (ds ++ rest').head? = some (asc '0') := by
              cases ds with
              | nil => exact absurd rfl hne
              | cons x xs => simpa using hh
            simp only [this, Bool.not_false, beq_self_eq_true, Bool.true_and, decide_eq_true_eq, Nat.not_lt] at hz
            have : ds.length ≠ 0 := by rw [← h3]; exact hc
            omega
          · cases h
  · rintro ⟨ds, rfl, hne, hm, h1, h2, hz, rfl, hl⟩
    unfold readNumber
    simp only
    rw [readDigits_complete radix m ds rest 0 0 h1 h2 (by omega)]
    simp only [Nat.zero_add]
    have hlen : ds.length ≠ 0 := by simpa using hne
    rw [if_neg hlen, if_neg, if_pos hl]
    intro hc
    simp only [Bool.and_eq_true, Bool.not_eq_true', beq_iff_eq, decide_eq_true_eq] at hc
    obtain ⟨⟨hzf, hh⟩, hgt⟩ := hc
    have : ds.head? = some (asc '0') := by
      cases ds with
      | nil => exact absurd rfl hne
      | cons x xs => simpa using hh
    have := hz hzf this
    omega

/-! ### Octets -/

theorem toDigit_dec (b : UInt8) : toDigit 10 b = if b ∈ IntV.decDigits then some (IntV.decDigits.idxOf b) else none := by
  show IntV.decDigit b = _
  exact IntV.decDigit_iff b

theorem toDigit_hex (b : UInt8) : toDigit 16 b = if b ∈ Hex.symbols .any then some (Hex.digitValue b) else none := by
  show Hex.digit .any b = _
  exact Hex.digit_eq .any b

/-- The ten digits by value. -/
theorem dec_digit (b : UInt8) (h : toDigit 10 b ≠ none) : ∃ d : Fin 10, b = (48 + d.val).toUInt8 := by
  revert b
  exact BaseN.forall_uint8 (by decide +kernel)

theorem dec_table : ∀ n : Fin 256, dec n ≠ [] ∧ (dec n).length ≤ 3 ∧ (∀ b ∈ dec n, toDigit 10 b ≠ none) ∧
    ((dec n).head? = some (asc '0') → (dec n).length = 1) ∧ numeral 10 0 (dec n) = n ∧ IntV.showNat n = dec n := by decide +kernel

theorem dec1 : ∀ a : Fin 10, dec (numeral 10 0 [(48 + a.val).toUInt8]) = [(48 + a.val).toUInt8] := by decide +kernel
theorem dec2 : ∀ a : Fin 10, ∀ b : Fin 10, a ≠ 0 → dec (numeral 10 0 [(48 + a.val).toUInt8, (48 + b.val).toUInt8]) =
    [(48 + a.val).toUInt8, (48 + b.val).toUInt8] := by decide +kernel
theorem dec3 : ∀ a : Fin 10, ∀ b : Fin 10, ∀ c : Fin 10, a ≠ 0 →
    dec (numeral 10 0 [(48 + a.val).toUInt8, (48 + b.val).toUInt8, (48 + c.val).toUInt8]) =
    [(48 + a.val).toUInt8, (48 + b.val).toUInt8, (48 + c.val).toUInt8] := by decide +kernel

theorem zero_digit (a : Fin 10) (h : (48 + a.val).toUInt8 ≠ asc '0') : a ≠ 0 := by
  rintro rfl; exact h (by decide)

theorem readOctet_iff (s : List UInt8) (n : Nat) (rest : List UInt8) :
    readOctet s = some (n, rest) ↔ n < 256 ∧ s = dec n ++ rest ∧ NoDigit 10 rest := by
  unfold readOctet
  rw [readNumber_iff]
  constructor
  · rintro ⟨ds, rfl, hne, hm, h1, h2, hz, rfl, hl⟩
    refine ⟨hl, ?_, h2⟩
    have hz := hz rfl
    congr 1
    match ds, hne, hm with
    | [x], _, _ =>
      obtain ⟨a, rfl⟩ := dec_digit x (h1 x (by simp))
      exact (dec1 a).symm
    | [x, y], _, _ =>
      obtain ⟨a, rfl⟩ := dec_digit x (h1 x (by simp))
      obtain ⟨b, rfl⟩ := dec_digit y (h1 y (by simp))
      exact (dec2 a b (zero_digit a fun h => by simp [h] at hz)).symm
    | [x, y, z], _, _ =>
      obtain ⟨a, rfl⟩ := dec_digit x (h1 x (by simp))
      obtain ⟨b, rfl⟩ := dec_digit y (h1 y (by simp))
      obtain ⟨c, rfl⟩ := dec_digit z (h1 z (by simp))
      exact (dec3 a b c (zero_digit a fun h => by simp [h] at hz)).symm
    | x :: y :: z :: w :: _, _, hm => simp at hm
  · rintro ⟨hl, rfl, h2⟩
    obtain ⟨t1, t2, t3, t4, t5, _⟩ := dec_table ⟨n, hl⟩
    exact ⟨dec n, rfl, t1, t2, t3, h2, fun _ => t4, t5.symm, hl⟩

/-! ### IPv4 -/

theorem asc_dot : ascii "." = [asc '.'] := rfl
theorem asc_colon : ascii ":" = [asc ':'] := rfl

theorem readSep0 {α : Type} (c : UInt8) (f : List UInt8 → Option (α × List UInt8)) (s : List UInt8) : readSeparator c 0 f s = f s := rfl

theorem readSepS {α : Type} (c : UInt8) (i : Nat) (f : List UInt8 → Option (α × List UInt8)) (s : List UInt8) (a : α) (rest : List UInt8) :
    readSeparator c (i + 1) f s = some (a, rest) ↔ ∃ s', s = c :: s' ∧ f s' = some (a, rest) := by
  unfold readSeparator
  simp only [Nat.succ_pos, if_true, gt_iff_lt]
  cases s with
  | nil => simp [readChar]
  | cons b s =>
    by_cases hb : b = c
    · subst hb; simp [readChar]
    · simp [readChar, hb]

theorem readSepS_none {α : Type} (c : UInt8) (i : Nat) (f : List UInt8 → Option (α × List UInt8)) (s : List UInt8)
    (h : ∀ s', s = c :: s' → f s' = none) : readSeparator c (i + 1) f s = none := by
  rcases hr : readSeparator c (i + 1) f s with _ | ⟨a, rest⟩
  · rfl
  · obtain ⟨s', h1, h2⟩ := (readSepS _ _ _ _ _ _).1 hr
    rw [h s' h1] at h2; cases h2

theorem noDigit_dot (s : List UInt8) : NoDigit 10 (asc '.' :: s) := by
  intro b hb
  simp only [List.head?_cons, Option.some.injEq] at hb
  subst hb; decide

theorem toUInt8_toNat (n : Nat) (h : n < 256) : n.toUInt8.toNat = n := by
  simp only [Nat.toUInt8_eq, UInt8.toNat_ofNat']; omega

theorem readV4_iff (s : List UInt8) (x : V4) (rest : List UInt8) :
    readV4 s = some (x, rest) ↔ s = x.text ++ rest ∧ NoDigit 10 rest := by
  unfold readV4
  simp only [Option.bind_eq_bind, Option.pure_def, Option.bind_eq_some_iff, readSep0, Prod.exists, Option.some.injEq, Prod.mk.injEq]
  constructor
  · rintro ⟨a, s1, h1, b, s2, h2, c, s3, h3, d, s4, h4, rfl, rfl⟩
    obtain ⟨ha, rfl, n1⟩ := (readOctet_iff _ _ _).1 h1
    obtain ⟨s1', rfl, h2⟩ := (readSepS _ _ _ _ _ _).1 h2
    obtain ⟨hb, rfl, n2⟩ := (readOctet_iff _ _ _).1 h2
    obtain ⟨s2', rfl, h3⟩ := (readSepS _ _ _ _ _ _).1 h3
    obtain ⟨hc, rfl, n3⟩ := (readOctet_iff _ _ _).1 h3
    obtain ⟨s3', rfl, h4⟩ := (readSepS _ _ _ _ _ _).1 h4
    obtain ⟨hd, rfl, n4⟩ := (readOctet_iff _ _ _).1 h4
    refine ⟨?_, n4⟩
    simp only [V4.text, dotted, toUInt8_toNat _ ha, toUInt8_toNat _ hb, toUInt8_toNat _ hc, toUInt8_toNat _ hd, asc_dot]
    simp
  · rintro ⟨rfl, hn⟩
    have ha := x.a.toNat_lt
    have hb := x.b.toNat_lt
    have hc := x.c.toNat_lt
    have hd := x.d.toNat_lt
    refine ⟨x.a.toNat, _, (readOctet_iff _ _ _).2 ⟨ha, ?_, ?_⟩, x.b.toNat, _, (readSepS _ _ _ _ _ _).2
      ⟨_, rfl, (readOctet_iff _ _ _).2 ⟨hb, rfl, ?_⟩⟩, x.c.toNat, _, (readSepS _ _ _ _ _ _).2
      ⟨_, rfl, (readOctet_iff _ _ _).2 ⟨hc, rfl, ?_⟩⟩, x.d.toNat, rest, (readSepS _ _ _ _ _ _).2
      ⟨_, rfl, (readOctet_iff _ _ _).2 ⟨hd, rfl, hn⟩⟩, ?_, rfl⟩
    · simp [V4.text, dotted, asc_dot]
    · exact noDigit_dot _
    · exact noDigit_dot _
    · exact noDigit_dot _
    · simp

theorem dec_length (n : Nat) (h : n < 256) : 1 ≤ (dec n).length ∧ (dec n).length ≤ 3 := by
  obtain ⟨t1, t2, _⟩ := dec_table ⟨n, h⟩
  exact ⟨List.length_pos_iff.2 t1, t2⟩

theorem text_length (x : V4) : x.text.length ≤ 15 := by
  have ha := dec_length _ x.a.toNat_lt
  have hb := dec_length _ x.b.toNat_lt
  have hc := dec_length _ x.c.toNat_lt
  have hd := dec_length _ x.d.toNat_lt
  simp only [V4.text, dotted, asc_dot, List.length_append, List.length_cons, List.length_nil]
  omega

theorem whole_iff {α : Type} (r : Option (α × List UInt8)) (a : α) : whole r = some a ↔ r = some (a, []) := by
  unfold whole
  split
  · simp
  · rename_i h
    simp only [reduceCtorEq, false_iff]
    intro hr; exact h a hr

theorem parseV4_iff (s : List UInt8) (x : V4) : parseV4 s = some x ↔ s = x.text := by
  unfold parseV4
  split
  · rename_i h
    simp only [reduceCtorEq, false_iff]
    rintro rfl
    have := text_length x
    omega
  · rw [whole_iff, readV4_iff]
    simp [NoDigit]

theorem showV4_eq (x : V4) : showV4 x = x.text := by
  have ha := (dec_table ⟨_, x.a.toNat_lt⟩).2.2.2.2.2
  have hb := (dec_table ⟨_, x.b.toNat_lt⟩).2.2.2.2.2
  have hc := (dec_table ⟨_, x.c.toNat_lt⟩).2.2.2.2.2
  have hd := (dec_table ⟨_, x.d.toNat_lt⟩).2.2.2.2.2
  simp only at ha hb hc hd
  simp [showV4, V4.text, dotted, ha, hb, hc, hd, asc_dot]

/-! ### Groups -/

theorem numeral_hex (acc : Nat) (ds : List UInt8) (h : ∀ b ∈ ds, b ∈ Hex.symbols .any) :
    numeral 16 acc ds = acc * 16 ^ ds.length + Hex.value ds := by
  induction ds generalizing acc with
  | nil => simp [numeral, Hex.value]
  | cons b ds ih =>
    have hb := h b (by simp)
    have := ih (acc * 16 + Hex.digitValue b) (fun x hx => h x (List.mem_cons_of_mem _ hx))
    have e : numeral 16 acc (b :: ds) = numeral 16 (acc * 16 + Hex.digitValue b) ds := by
      simp [numeral, toDigit_hex, hb]
    rw [e, this, Hex.value, List.length_cons, Nat.pow_succ, Nat.add_mul, Nat.mul_assoc, Nat.mul_comm 16 (16 ^ _)]
    omega

theorem value_lt (ds : List UInt8) (h : ∀ b ∈ ds, b ∈ Hex.symbols .any) : Hex.value ds < 16 ^ ds.length := by
  induction ds with
  | nil => simp [Hex.value]
  | cons b ds ih =>
    have hb := Hex.digitValue_lt .any b (h b (by simp))
    have := ih (fun x hx => h x (List.mem_cons_of_mem _ hx))
    rw [Hex.value, List.length_cons, Nat.pow_succ]
    have h2 : Hex.digitValue b * 16 ^ ds.length ≤ 15 * 16 ^ ds.length := Nat.mul_le_mul_right _ (by omega)
    omega

theorem group_lt (t : List UInt8) (g : Nat) (h : Group t g) : g < 65536 := by
  obtain ⟨_, h1, h2, rfl⟩ := h
  have := value_lt t h2
  have h3 : 16 ^ t.length ≤ 16 ^ 4 := Nat.pow_le_pow_right (by omega) h1
  omega

theorem hex_mem (b : UInt8) : toDigit 16 b ≠ none ↔ b ∈ Hex.symbols .any := by
  rw [toDigit_hex]
  by_cases h : b ∈ Hex.symbols .any <;> simp [h]

theorem readGroup_iff (s : List UInt8) (g : Nat) (rest : List UInt8) :
    readGroup s = some (g, rest) ↔ ∃ t, s = t ++ rest ∧ Group t g ∧ NoDigit 16 rest := by
  unfold readGroup
  rw [readNumber_iff]
  constructor
  · rintro ⟨ds, rfl, hne, hm, h1, h2, -, rfl, hl⟩
    have h1' : ∀ b ∈ ds, b ∈ Hex.symbols .any := fun b hb => (hex_mem b).1 (h1 b hb)
    exact ⟨ds, rfl, ⟨hne, hm, h1', by rw [numeral_hex 0 ds h1']; simp⟩, h2⟩
  · rintro ⟨t, rfl, hg, h2⟩
    have hl := group_lt t g hg
    obtain ⟨hne, hm, h1, hv⟩ := hg
    exact ⟨t, rfl, hne, hm, fun b hb => (hex_mem b).2 (h1 b hb), h2, by simp, by rw [numeral_hex 0 t h1]; simp [hv], hl⟩

/-! ## IPv6 -/

/-- Two ways to cut a list after its elements that satisfy `p` are the same. -/
theorem split_unique (p : UInt8 → Prop) (t rest u v : List UInt8) (h : t ++ rest = u ++ v) (ht : ∀ b ∈ t, p b) (hu : ∀ b ∈ u, p b)
    (hr : ∀ b, rest.head? = some b → ¬ p b) (hv : ∀ b, v.head? = some b → ¬ p b) : t = u ∧ rest = v := by
  induction t generalizing u with
  | nil =>
    cases u with
    | nil => exact ⟨rfl, h⟩
    | cons b u =>
      simp only [List.nil_append, List.cons_append] at h
      exact absurd (hu b (by simp)) (hr b (by simp [h]))
  | cons a t ih =>
    cases u with
    | nil =>
      simp only [List.nil_append, List.cons_append] at h
      exact absurd (ht a (by simp)) (hv a (by simp [← h]))
    | cons b u =>
      simp only [List.cons_append, List.cons.injEq] at h
      obtain ⟨rfl, h⟩ := h
      obtain ⟨rfl, h2⟩ := ih u h (fun x hx => ht x (by simp [hx])) (fun x hx => hu x (by simp [hx]))
      exact ⟨rfl, h2⟩

theorem dec_hex (n : Nat) (h : n < 256) : ∀ b ∈ dec n, b ∈ Hex.symbols .any := by
  have : ∀ n : Fin 256, ∀ b ∈ dec n, b ∈ Hex.symbols .any := by decide +kernel
  exact this ⟨n, h⟩

theorem text_split (x : V4) : ∃ r, x.text = dec x.a.toNat ++ asc '.' :: r := by
  exact ⟨_, by simp only [V4.text, dotted, asc_dot, List.append_assoc, List.singleton_append, List.cons_append]; rfl⟩

/-- What follows the groups: nothing, or two colons. -/
def Stop (s : List UInt8) : Prop := s = [] ∨ ∃ r, s = asc ':' :: asc ':' :: r

theorem colon_not_hex : asc ':' ∉ Hex.symbols .any := by decide
theorem dot_not_hex : asc '.' ∉ Hex.symbols .any := by decide

theorem readV4_group_none (t : List UInt8) (g : Nat) (rest : List UInt8) (ht : Group t g) (hr : rest = [] ∨ ∃ r, rest = asc ':' :: r) :
    readV4 (t ++ rest) = none := by
  rcases h : readV4 (t ++ rest) with _ | ⟨x, r⟩
  · rfl
  · exfalso
    obtain ⟨h, _⟩ := (readV4_iff _ _ _).1 h
    obtain ⟨r', hx⟩ := text_split x
    rw [hx, List.append_assoc] at h
    obtain ⟨_, h2⟩ := split_unique (· ∈ Hex.symbols .any) t rest _ _ h ht.2.2.1 (dec_hex _ x.a.toNat_lt)
      (by
        intro b hb
        rcases hr with rfl | ⟨r, rfl⟩
        · cases hb
        · simp only [List.head?_cons, Option.some.injEq] at hb
          subst hb; exact colon_not_hex)
      (by
        intro b hb
        simp only [List.cons_append, List.head?_cons, Option.some.injEq] at hb
        subst hb; exact dot_not_hex)
    rcases hr with rfl | ⟨r, rfl⟩
    · cases h2
    · simp only [List.cons_append, List.cons.injEq] at h2
      exact absurd h2.1 (by decide)

/-- The separator before the group of index `i`. -/
def pre (i : Nat) : List UInt8 := if i = 0 then [] else [asc ':']

theorem readSep_iff {α : Type} (i : Nat) (f : List UInt8 → Option (α × List UInt8)) (s : List UInt8) (a : α) (rest : List UInt8) :
    readSeparator (asc ':') i f s = some (a, rest) ↔ ∃ s', s = pre i ++ s' ∧ f s' = some (a, rest) := by
  cases i with
  | zero => simp [readSep0, pre]
  | succ i => rw [readSepS]; simp [pre]

theorem readSep_none {α : Type} (i : Nat) (f : List UInt8 → Option (α × List UInt8)) (s : List UInt8) (h : f s = none) :
    readSeparator (asc ':') i f (pre i ++ s) = none := by
  cases i with
  | zero => simpa [readSep0, pre] using h
  | succ i =>
    refine readSepS_none _ _ _ _ fun s' hs => ?_
    simp only [pre, Nat.succ_ne_zero, if_false, List.singleton_append, List.cons.injEq, true_and] at hs
    exact hs ▸ h

theorem stop_noDigit (s : List UInt8) (h : Stop s) : NoDigit 16 s := by
  intro b hb
  rcases h with rfl | ⟨r, rfl⟩
  · cases hb
  · simp only [List.head?_cons, Option.some.injEq] at hb
    subst hb; decide

theorem readGroup_colon (r : List UInt8) : readGroup (asc ':' :: r) = none := by
  rcases h : readGroup (asc ':' :: r) with _ | ⟨g, rest⟩
  · rfl
  · obtain ⟨t, h1, ⟨hne, _, h2, _⟩, _⟩ := (readGroup_iff _ _ _).1 h
    cases t with
    | nil => exact absurd rfl hne
    | cons b t =>
      simp only [List.cons_append, List.cons.injEq] at h1
      exact absurd (h1.1 ▸ h2 b (by simp)) colon_not_hex

theorem readGroup_nil : readGroup [] = none := by decide
theorem readV4_nil : readV4 [] = none := by decide

theorem readV4_colon (r : List UInt8) : readV4 (asc ':' :: r) = none := by
  rcases h : readV4 (asc ':' :: r) with _ | ⟨x, rest⟩
  · rfl
  · exfalso
    obtain ⟨h, _⟩ := (readV4_iff _ _ _).1 h
    obtain ⟨r', hx⟩ := text_split x
    rw [hx, List.append_assoc] at h
    obtain ⟨_, h2⟩ := split_unique (· ∈ Hex.symbols .any) [] (asc ':' :: r) _ _ h (by simp) (dec_hex _ x.a.toNat_lt)
      (by
        intro b hb
        simp only [List.head?_cons, Option.some.injEq] at hb
        subst hb; exact colon_not_hex)
      (by
        intro b hb
        simp only [List.cons_append, List.head?_cons, Option.some.injEq] at hb
        subst hb; exact dot_not_hex)
    simp only [List.cons_append, List.cons.injEq] at h2
    exact absurd h2.1 (by decide)

/-- A reader that reads nothing at the end and nothing before a colon reads nothing at a stop. -/
theorem readSep_stop {α : Type} (i : Nat) (f : List UInt8 → Option (α × List UInt8)) (s : List UInt8) (hs : Stop s)
    (hn : f [] = none) (hc : ∀ r, f (asc ':' :: r) = none) : readSeparator (asc ':') i f s = none := by
  rcases h : readSeparator (asc ':') i f s with _ | ⟨a, rest⟩
  · rfl
  · obtain ⟨s', rfl, h2⟩ := (readSep_iff _ _ _ _ _).1 h
    rcases hs with hs | ⟨r, hs⟩
    · simp only [List.append_eq_nil_iff] at hs
      rw [hs.2, hn] at h2; cases h2
    · by_cases hi : i = 0
      · simp only [pre, hi, if_true, List.nil_append] at hs
        rw [hs, hc] at h2; cases h2
      · simp only [pre, hi, if_false, List.singleton_append, List.cons.injEq, true_and] at hs
        rw [hs, hc] at h2; cases h2

theorem readGroups_stop (left i : Nat) (s : List UInt8) (hs : Stop s) : readGroups left i s = ([], false, s) := by
  cases left with
  | zero => rfl
  | succ left =>
    simp only [readGroups, readSep_stop i readV4 s hs readV4_nil readV4_colon, readSep_stop i readGroup s hs readGroup_nil readGroup_colon]
    simp

theorem u16_toNat (n : Nat) (h : n < 65536) : n.toUInt16.toNat = n := by
  simp only [Nat.toUInt16_eq, UInt16.toNat_ofNat']; omega

theorem v4_segs (x : V4) : x.segments.map UInt16.toNat = [x.a.toNat * 256 + x.b.toNat, x.c.toNat * 256 + x.d.toNat] := by
  have ha := x.a.toNat_lt
  have hb := x.b.toNat_lt
  have hc := x.c.toNat_lt
  have hd := x.d.toNat_lt
  simp only [V4.segments, List.map_cons, List.map_nil]
  rw [u16_toNat _ (by omega), u16_toNat _ (by omega)]

theorem groups_length (q : Bool) (t : List UInt8) (gs : List Nat) (h : Groups q t gs) : 1 ≤ gs.length ∧ (q = true → 2 ≤ gs.length) := by
  induction h with
  | group _ => simp
  | quad _ _ _ _ => simp
  | cons _ _ ih => simp; omega

theorem readGroups_complete (q : Bool) (t : List UInt8) (gs : List Nat) (h : Groups q t gs) : ∀ (left i : Nat) (rest : List UInt8),
    gs.length ≤ left → Stop rest → readGroups left i (pre i ++ (t ++ rest)) = (gs.map Nat.toUInt16, q, rest) := by
  induction h with
  | @group t g hg =>
    intro left i rest hl hs
    cases left with
    | zero => simp at hl
    | succ left =>
      have h1 : readSeparator (asc ':') i readV4 (pre i ++ (t ++ rest)) = none :=
        readSep_none i _ _ (readV4_group_none t g rest hg (hs.imp_right fun ⟨r, h⟩ => ⟨_, h⟩))
      have h2 : readSeparator (asc ':') i readGroup (pre i ++ (t ++ rest)) = some (g, rest) :=
        (readSep_iff _ _ _ _ _).2 ⟨_, rfl, (readGroup_iff _ _ _).2 ⟨t, rfl, hg, stop_noDigit rest hs⟩⟩
      simp only [readGroups, h1, h2, readGroups_stop left (i + 1) rest hs]
      simp
  | @quad a b c d ha hb hc hd =>
    intro left i rest hl hs
    cases left with
    | zero => simp at hl
    | succ left =>
      have hl' : left + 1 > 1 := by simp at hl; omega
      let x : V4 := ⟨a.toUInt8, b.toUInt8, c.toUInt8, d.toUInt8⟩
      have hx : x.text = dotted a b c d := by
        simp only [x, V4.text, toUInt8_toNat _ ha, toUInt8_toNat _ hb, toUInt8_toNat _ hc, toUInt8_toNat _ hd]
      have hn : NoDigit 10 rest := by
        intro b hb
        rcases hs with rfl | ⟨r, rfl⟩
        · cases hb
        · simp only [List.head?_cons, Option.some.injEq] at hb
          subst hb; decide
      have h1 : readSeparator (asc ':') i readV4 (pre i ++ (dotted a b c d ++ rest)) = some (x, rest) :=
        (readSep_iff _ _ _ _ _).2 ⟨_, rfl, (readV4_iff _ _ _).2 ⟨by rw [hx], hn⟩⟩
      simp only [readGroups, h1, hl', if_true]
      simp only [x, V4.segments, toUInt8_toNat _ ha, toUInt8_toNat _ hb, toUInt8_toNat _ hc, toUInt8_toNat _ hd]
      simp
  | @cons t g q r gs hg hr ih =>
    intro left i rest hl hs
    cases left with
    | zero => simp at hl
    | succ left =>
      have e : t ++ ascii ":" ++ r ++ rest = t ++ (pre (i + 1) ++ (r ++ rest)) := by simp [pre, asc_colon]
      rw [e]
      have h1 : readSeparator (asc ':') i readV4 (pre i ++ (t ++ (pre (i + 1) ++ (r ++ rest)))) = none :=
        readSep_none i _ _ (readV4_group_none t g _ hg (.inr ⟨_, by simp [pre]; rfl⟩))
      have h2 : readSeparator (asc ':') i readGroup (pre i ++ (t ++ (pre (i + 1) ++ (r ++ rest)))) = some (g, pre (i + 1) ++ (r ++ rest)) := by
        refine (readSep_iff _ _ _ _ _).2 ⟨_, rfl, (readGroup_iff _ _ _).2 ⟨t, rfl, hg, ?_⟩⟩
        intro b hb
        simp [pre] at hb
        subst hb; decide
      simp only [readGroups, h1, h2, ih left (i + 1) rest (by simp at hl; omega) hs]
      simp

theorem readGroups_sound (left i : Nat) (s : List UInt8) (gs : List UInt16) (q : Bool) (rest : List UInt8)
    (h : readGroups left i s = (gs, q, rest)) : gs.length ≤ left ∧
      ((gs = [] ∧ q = false ∧ rest = s) ∨ ∃ t, Groups q t (gs.map UInt16.toNat) ∧ s = pre i ++ (t ++ rest)) := by
  induction left generalizing i s gs q rest with
  | zero =>
    simp only [readGroups, Prod.mk.injEq] at h
    obtain ⟨rfl, rfl, rfl⟩ := h
    simp
  | succ left ih =>
    have grp : ∀ gs q rest, (match readSeparator (asc ':') i readGroup s with
      | some (g, s) => (g.toUInt16 :: (readGroups left (i + 1) s).1, (readGroups left (i + 1) s).2.1, (readGroups left (i + 1) s).2.2)
      | none => ([], false, s)) = (gs, q, rest) → gs.length ≤ left + 1 ∧
      ((gs = [] ∧ q = false ∧ rest = s) ∨ ∃ t, Groups q t (gs.map UInt16.toNat) ∧ s = pre i ++ (t ++ rest)) := by
      intro gs q rest hm
      split at hm
      · rename_i g s1 hr
        obtain ⟨s', rfl, hr'⟩ := (readSep_iff _ _ _ _ _).1 hr
        obtain ⟨t, rfl, hg, -⟩ := (readGroup_iff _ _ _).1 hr'
        obtain ⟨gs', q', rest', e⟩ : ∃ a b c, readGroups left (i + 1) s1 = (a, b, c) := ⟨_, _, _, rfl⟩
        rw [e] at hm
        simp only [Prod.mk.injEq] at hm
        obtain ⟨rfl, rfl, rfl⟩ := hm
        obtain ⟨hl, hh⟩ := ih _ _ _ _ _ e
        refine ⟨by simp; omega, .inr ?_⟩
        have e16 := u16_toNat g (group_lt t g hg)
        rcases hh with ⟨rfl, rfl, rfl⟩ | ⟨t', ht', rfl⟩
        · exact ⟨t, by simp only [List.map_cons, List.map_nil, e16]; exact .group hg, rfl⟩
        · refine ⟨t ++ ascii ":" ++ t', by simp only [List.map_cons, e16]; exact .cons hg ht', ?_⟩
          simp [pre, asc_colon]
      · simp only [Prod.mk.injEq] at hm
        obtain ⟨rfl, rfl, rfl⟩ := hm
        simp
    simp only [readGroups] at h
    split at h
    · rename_i hl
      split at h
      · rename_i a s1 hr
        simp only [Prod.mk.injEq] at h
        obtain ⟨rfl, rfl, rfl⟩ := h
        obtain ⟨s', rfl, hr'⟩ := (readSep_iff _ _ _ _ _).1 hr
        obtain ⟨rfl, -⟩ := (readV4_iff _ _ _).1 hr'
        refine ⟨by simp [V4.segments]; omega, .inr ⟨a.text, ?_, rfl⟩⟩
        rw [v4_segs]
        exact .quad a.a.toNat_lt a.b.toNat_lt a.c.toNat_lt a.d.toNat_lt
      · exact grp _ _ _ h
    · exact grp _ _ _ h

theorem ofSegments_segs (l : List UInt16) (h : l.length = 8) : (V6.ofSegments l).segments = l := by
  match l, h with
  | [a, b, c, d, e, f, g, i], _ => rfl

theorem segments_inj (x y : V6) (h : x.segs = y.segs) : x = y := by
  obtain ⟨x0, x1, x2, x3, x4, x5, x6, x7⟩ := x
  obtain ⟨y0, y1, y2, y3, y4, y5, y6, y7⟩ := y
  simp [segs_eq, V6.segments, UInt16.toNat_inj] at h
  simp [h]

theorem map_u16 (q : Bool) (t : List UInt8) (gs : List Nat) (h : Groups q t gs) : (gs.map Nat.toUInt16).map UInt16.toNat = gs := by
  induction h with
  | group hg => simp only [List.map_cons, List.map_nil, u16_toNat _ (group_lt _ _ hg)]
  | quad ha hb hc hd => simp only [List.map_cons, List.map_nil]; rw [u16_toNat _ (by omega), u16_toNat _ (by omega)]
  | cons hg _ ih => rw [List.map_cons, List.map_cons, ih, u16_toNat _ (group_lt _ _ hg)]

theorem map_u16_0 (q : Bool) (t : List UInt8) (gs : List Nat) (h : Groups0 q t gs) : (gs.map Nat.toUInt16).map UInt16.toNat = gs := by
  rcases h with ⟨_, rfl, _⟩ | h
  · rfl
  · exact map_u16 q t gs h

theorem readChar_iff (c : UInt8) (s r : List UInt8) : readChar c s = some r ↔ s = c :: r := by
  cases s with
  | nil => simp [readChar]
  | cons b s =>
    by_cases hb : b = c
    · subst hb; simp [readChar]
    · simp [readChar, hb]

theorem asc_colons : ascii "::" = [asc ':', asc ':'] := rfl

theorem parseV6_sound (s : List UInt8) (x : V6) (h : parseV6 s = some x) : V6Text s x.segs := by
  unfold parseV6 at h
  rw [whole_iff] at h
  unfold readV6 at h
  split at h
  rename_i hd hv s1 hr
  obtain ⟨hl, hh⟩ := readGroups_sound _ _ _ _ _ _ hr
  split at h
  · rename_i h8
    simp only [Option.some.injEq, Prod.mk.injEq] at h
    obtain ⟨rfl, rfl⟩ := h
    rcases hh with ⟨rfl, _⟩ | ⟨t, ht, rfl⟩
    · simp at h8
    · left
      refine ⟨hv, ?_, ?_⟩
      · simp only [pre, if_true, List.nil_append, List.append_nil, segs_eq, ofSegments_segs _ h8]; exact ht
      · simp [segs_eq, V6.segments]
  · rename_i h8
    split at h
    · cases h
    · rename_i hv4
      simp only [Bool.not_eq_true] at hv4
      subst hv4
      split at h
      · cases h
      · rename_i s2 hc1
        split at h
        · cases h
        · rename_i s3 hc2
          rw [readChar_iff] at hc1 hc2
          subst hc1 hc2
          split at h
          rename_i tl tq s4 hr2
          simp only [Option.some.injEq, Prod.mk.injEq] at h
          obtain ⟨rfl, rfl⟩ := h
          obtain ⟨hl2, hh2⟩ := readGroups_sound _ _ _ _ _ _ hr2
          right
          obtain ⟨ht, hht, hse⟩ : ∃ h, Groups0 false h (hd.map UInt16.toNat) ∧ s = h ++ ([asc ':', asc ':'] ++ s3) := by
            rcases hh with ⟨rfl, _, rfl⟩ | ⟨t, ht, rfl⟩
            · exact ⟨[], .inl ⟨rfl, rfl, rfl⟩, rfl⟩
            · exact ⟨t, .inr ht, by simp [pre]⟩
          obtain ⟨tt, htt, hse2⟩ : ∃ t, Groups0 tq t (tl.map UInt16.toNat) ∧ s3 = t := by
            rcases hh2 with ⟨rfl, rfl, rfl⟩ | ⟨t, ht, rfl⟩
            · exact ⟨[], .inl ⟨rfl, rfl, rfl⟩, rfl⟩
            · exact ⟨t, .inr ht, by simp [pre]⟩
          refine ⟨tq, ht, tt, hd.map UInt16.toNat, tl.map UInt16.toNat, ?_, hht, htt, ?_, ?_⟩
          · rw [hse, hse2, asc_colons]; simp
          · simp only [List.length_map]; omega
          · have hlen : (hd ++ List.replicate (8 - hd.length - tl.length) 0 ++ tl).length = 8 := by simp; omega
            simp only [segs_eq, ofSegments_segs _ hlen]
            simp

theorem parseV6_complete (s : List UInt8) (x : V6) (h : V6Text s x.segs) : parseV6 s = some x := by
  unfold parseV6
  rw [whole_iff]
  unfold readV6
  rcases h with ⟨q, hg, h8⟩ | ⟨q, h, t, hs, ts, rfl, hh, ht, hle, hseg⟩
  · have := readGroups_complete q s _ hg 8 0 [] (by omega) (.inl rfl)
    simp only [pre, if_true, List.nil_append, List.append_nil] at this
    rw [this]
    have e : (x.segs.map Nat.toUInt16).length = 8 := by simpa using h8
    simp only [e, if_true, Option.some.injEq, Prod.mk.injEq, and_true]
    apply segments_inj
    have := map_u16 q s _ hg
    rw [segs_eq, ofSegments_segs _ e, this]
  · have hstop : Stop (ascii "::" ++ t) := .inr ⟨t, rfl⟩
    have h1 : readGroups 8 0 (h ++ ascii "::" ++ t) = (hs.map Nat.toUInt16, false, ascii "::" ++ t) := by
      rcases hh with ⟨rfl, rfl, _⟩ | hh
      · rw [List.nil_append, readGroups_stop _ _ _ hstop]; rfl
      · have := readGroups_complete false h hs hh 8 0 (ascii "::" ++ t) (by omega) hstop
        simpa [pre] using this
    have h2 : readGroups (8 - ((hs.map Nat.toUInt16).length + 1)) 0 t = (ts.map Nat.toUInt16, q, []) := by
      rcases ht with ⟨rfl, rfl, rfl⟩ | ht
      · rw [readGroups_stop _ _ _ (.inl rfl)]; rfl
      · have := readGroups_complete q t ts ht (8 - ((hs.map Nat.toUInt16).length + 1)) 0 [] (by simp; omega) (.inl rfl)
        simpa [pre] using this
    rw [h1]
    have hne : (hs.map Nat.toUInt16).length ≠ 8 := by simp; omega
    simp only [hne, if_false, Bool.false_eq_true]
    have c1 : readChar (asc ':') (ascii "::" ++ t) = some (asc ':' :: t) := (readChar_iff _ _ _).2 rfl
    have c2 : readChar (asc ':') (asc ':' :: t) = some t := (readChar_iff _ _ _).2 rfl
    simp only [c1, c2, h2, Option.some.injEq, Prod.mk.injEq, and_true]
    apply segments_inj
    have hlen : (hs.map Nat.toUInt16 ++ List.replicate (8 - (hs.map Nat.toUInt16).length - (ts.map Nat.toUInt16).length) 0 ++
      ts.map Nat.toUInt16).length = 8 := by simp; omega
    rw [segs_eq, ofSegments_segs _ hlen, hseg, List.map_append, List.map_append, map_u16_0 _ _ _ hh, map_u16_0 _ _ _ ht]
    simp

theorem parseV6_iff (s : List UInt8) (x : V6) : parseV6 s = some x ↔ V6Text s x.segs :=
  ⟨parseV6_sound s x, parseV6_complete s x⟩

/-! ## Printing -/

theorem group_showSeg (x : UInt16) : Group (showSeg x) x.toNat := by
  have hx : x.toNat < 16 ^ 4 := x.toNat_lt
  have hl := Hex.revDigits_length 16 (by decide) 4 x.toNat 4 (by decide) hx
  have hv := Hex.value_revDigits false 4 x.toNat (by decide) hx
  refine ⟨?_, by simpa [showSeg] using hl, ?_, hv⟩
  · intro h
    simp [showSeg, Hex.revDigits] at h
    split at h <;> simp at h
  · intro b hb
    simp only [showSeg, List.mem_map, List.mem_reverse] at hb
    obtain ⟨d, hd, rfl⟩ := hb
    have := Hex.revDigits_lt 16 (by decide) 4 x.toNat d hd
    have := Hex.hexChar_mem .lower d this
    exact (by decide : ∀ b ∈ Hex.symbols .lower, b ∈ Hex.symbols .any) _ this

theorem groups_showSegs (l : List UInt16) (h : l ≠ []) : Groups false (showSegs l) (l.map UInt16.toNat) := by
  induction l with
  | nil => exact absurd rfl h
  | cons x l ih =>
    cases l with
    | nil => exact .group (group_showSeg x)
    | cons y l =>
      have := ih (by simp)
      have e : showSegs (x :: y :: l) = showSeg x ++ ascii ":" ++ showSegs (y :: l) := by simp [showSegs, asc_colon]
      rw [e, List.map_cons]
      exact .cons (group_showSeg x) this

theorem groups0_showSegs (l : List UInt16) : Groups0 false (showSegs l) (l.map UInt16.toNat) := by
  cases l with
  | nil => exact .inl ⟨rfl, rfl, rfl⟩
  | cons x l => exact .inr (groups_showSegs (x :: l) (by simp))

/-- The run found is a run of zeros. -/
theorem zeroRun_spec (l : List UInt16) : ∀ (p : List UInt16) (cs cl bs bl : Nat),
    (cl = 0 ∨ cs + cl = p.length) → (∀ k, cs ≤ k → k < cs + cl → p[k]? = some 0) → cs + cl ≤ p.length ∨ cl = 0 →
    bs + bl ≤ p.length → (∀ k, bs ≤ k → k < bs + bl → p[k]? = some 0) →
    (zeroRun p.length cs cl bs bl l).1 + (zeroRun p.length cs cl bs bl l).2 ≤ (p ++ l).length ∧
    ∀ k, (zeroRun p.length cs cl bs bl l).1 ≤ k → k < (zeroRun p.length cs cl bs bl l).1 + (zeroRun p.length cs cl bs bl l).2 →
      (p ++ l)[k]? = some 0 := by
  induction l with
  | nil =>
    intro p cs cl bs bl h1 h2 h3 h4 h5
    simpa [zeroRun] using ⟨h4, h5⟩
  | cons x l ih =>
    intro p cs cl bs bl h1 h2 h3 h4 h5
    have ih := ih (p ++ [x])
    simp only [List.length_append, List.length_cons, List.length_nil, Nat.zero_add, List.append_assoc, List.singleton_append] at ih
    have get : ∀ k : Nat, p[k]? = some 0 → (p ++ [x])[k]? = some 0 := by
      intro k hk
      have : k < p.length := (List.getElem?_eq_some_iff.1 hk).1
      rw [List.getElem?_append_left this, hk]
    unfold zeroRun
    simp only [List.length_append, List.length_cons]
    by_cases hx : x = 0
    · rw [if_pos hx]
      have hrun : ∀ cs' : Nat, cs' = (if cl = 0 then p.length else cs) → cs' + (cl + 1) = p.length + 1 ∧
          ∀ k, cs' ≤ k → k < cs' + (cl + 1) → (p ++ [x])[k]? = some (0 : UInt16) := by
        intro cs' hcs
        by_cases hcl : cl = 0
        · rw [if_pos hcl] at hcs
          subst hcs
          refine ⟨by omega, fun k hk1 hk2 => ?_⟩
          have : k = p.length := by omega
          subst this; simp [hx]
        · rw [if_neg hcl] at hcs
          subst hcs
          have hs : cs' + cl = p.length := h1.resolve_left hcl
          refine ⟨by omega, fun k hk1 hk2 => ?_⟩
          by_cases hk : k = p.length
          · subst hk; simp [hx]
          · exact get k (h2 k hk1 (by omega))
      obtain ⟨r1, r2⟩ := hrun _ rfl
      split
      · exact ih _ _ _ _ (.inr r1) r2 (.inl (by omega)) (by omega) r2
      · exact ih _ _ _ _ (.inr r1) r2 (.inl (by omega)) (by omega) (fun k h h' => get k (h5 k h h'))
    · rw [if_neg hx]
      exact ih _ _ _ _ (.inl rfl) (fun k h h' => by omega) (.inr rfl) (by omega) (fun k h h' => get k (h5 k h h'))

theorem cut_run (l : List UInt16) (a n : Nat) (h : a + n ≤ l.length) (hz : ∀ k, a ≤ k → k < a + n → l[k]? = some 0) :
    l = l.take a ++ List.replicate n 0 ++ l.drop (a + n) := by
  apply List.ext_getElem?
  intro k
  have ht : (l.take a).length = a := by simp; omega
  have ht2 : (l.take a ++ List.replicate n (0 : UInt16)).length = a + n := by simp; omega
  by_cases h1 : k < a
  · rw [List.append_assoc, List.getElem?_append_left (by omega), List.getElem?_take_of_lt h1]
  · by_cases h2 : k < a + n
    · rw [List.getElem?_append_left (by omega), List.getElem?_append_right (by omega), hz k (by omega) h2,
        List.getElem?_replicate, ht, if_pos (by omega)]
    · rw [List.getElem?_append_right (by omega), List.getElem?_drop, ht2]
      congr 1; omega

theorem mapped_text (x : V6) (a : V4) (h : x.toIpv4Mapped = some a) :
    x.segs = [0, 0, 0, 0, 0, 0xffff, a.a.toNat * 256 + a.b.toNat, a.c.toNat * 256 + a.d.toNat] := by
  unfold V6.toIpv4Mapped at h
  split at h
  · rename_i hz
    obtain ⟨h0, h1, h2, h3, h4, h5⟩ := hz
    have h6 := x.s6.toNat_lt
    have h7 := x.s7.toNat_lt
    cases h
    simp only [segs_eq, V6.segments, h0, h1, h2, h3, h4, h5, List.map_cons, List.map_nil]
    rw [toUInt8_toNat _ (by omega), toUInt8_toNat _ (by omega), toUInt8_toNat _ (by omega), toUInt8_toNat _ (by omega)]
    have e6 : x.s6.toNat / 256 * 256 + x.s6.toNat % 256 = x.s6.toNat := Nat.div_add_mod' _ _
    have e7 : x.s7.toNat / 256 * 256 + x.s7.toNat % 256 = x.s7.toNat := Nat.div_add_mod' _ _
    rw [e6, e7]
    rfl
  · cases h

theorem showV6_text (x : V6) : V6Text (showV6 x) x.segs := by
  unfold showV6
  split
  · rename_i a ha
    right
    refine ⟨true, [], ascii "ffff:" ++ a.text, [], 0xffff :: [a.a.toNat * 256 + a.b.toNat, a.c.toNat * 256 + a.d.toNat], ?_,
      .inl ⟨rfl, rfl, rfl⟩, .inr ?_, by simp, ?_⟩
    · rw [showV4_eq]; rfl
    · have : Group (ascii "ffff") 0xffff := by
        refine ⟨by decide, by decide, by decide, by decide +kernel⟩
      exact .cons this (.quad a.a.toNat_lt a.b.toNat_lt a.c.toNat_lt a.d.toNat_lt)
    · rw [mapped_text x a ha]; rfl
  · simp only
    have hrun := zeroRun_spec x.segments [] 0 0 0 0 (.inl rfl) (by simp) (.inr rfl) (by simp) (by simp)
    simp only [List.length_nil, List.nil_append] at hrun
    generalize zeroRun 0 0 0 0 0 x.segments = r at *
    have h8 : x.segments.length = 8 := rfl
    split
    · rename_i h2
      right
      refine ⟨false, _, _, _, _, rfl, groups0_showSegs _, groups0_showSegs _, ?_, ?_⟩
      · simp [h8]; omega
      · have := cut_run x.segments r.1 r.2 hrun.1 hrun.2
        have e : 8 - (x.segments.take r.1).length - (x.segments.drop (r.1 + r.2)).length = r.2 := by simp [h8]; omega
        simp only [segs_eq, List.length_map, e]
        exact (congrArg (List.map UInt16.toNat) this).trans (by simp)
    · left
      exact ⟨false, groups_showSegs _ (by simp [V6.segments]), by simp [segs_eq, V6.segments]⟩

end Verif.StdIp
