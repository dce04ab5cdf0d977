import Verif.Spec.Line
import Verif.Proof.Utf8
import Mathlib.Tactic.Tauto

/-! # Lemmas about `line` and `text` -/

namespace Verif.Line

open Verif.Spec.Line
open Verif.BaseN (strBytes)

theorem char_eq_iff (c d : Char) : c = d ↔ c.toNat = d.toNat := by
  constructor
  · rintro rfl; rfl
  · intro h
    apply Char.ext
    exact UInt32.toNat_inj.mp h

theorem bad_iff (k : Kind) (c : Char) : bad k c.toNat = true ↔ Forbidden k c := by
  have h1 : ('\t' : Char).toNat = 9 := by decide
  have h2 : ('\n' : Char).toNat = 10 := by decide
  have h3 : ('\x0B' : Char).toNat = 11 := by decide
  have h4 : ('\r' : Char).toNat = 13 := by decide
  cases k <;> simp only [bad, Forbidden, ne_eq, char_eq_iff, h1, h2, h3, h4, Bool.or_eq_true, Bool.and_eq_true,
    decide_eq_true_eq, reduceCtorEq, false_imp_iff, true_imp_iff, and_true] <;> omega

theorem lenUtf8_eq (c : Char) : lenUtf8 c = (String.utf8EncodeChar c).length := by
  unfold lenUtf8 String.utf8EncodeChar Char.toNat
  simp only
  by_cases h1 : c.val.toNat < 0x80
  · rw [if_pos h1, if_pos (by omega)]; rfl
  · rw [if_neg h1, if_neg (show ¬ c.val.toNat ≤ 127 by omega)]
    by_cases h2 : c.val.toNat < 0x800
    · rw [if_pos h2, if_pos (by omega)]; rfl
    · rw [if_neg h2, if_neg (show ¬ c.val.toNat ≤ 2047 by omega)]
      by_cases h3 : c.val.toNat < 0x10000
      · rw [if_pos h3, if_pos (by omega)]; rfl
      · rw [if_neg h3, if_neg (show ¬ c.val.toNat ≤ 65535 by omega)]; rfl

@[simp] theorem size_nil (b : Bool) : size b [] = 0 := by cases b <;> rfl

theorem size_cons (b : Bool) (c : Char) (cs : List Char) : size b (c :: cs) = step b c + size b cs := by
  cases b
  · simp [size, step]; omega
  · simp [size, step, strBytes, lenUtf8_eq]

theorem step_pos (b : Bool) (c : Char) : 0 < step b c := by
  cases b
  · simp [step]
  · simp only [step, lenUtf8, if_true]; repeat' split
    all_goals omega

theorem clean_cons (k : Kind) (c : Char) (cs : List Char) : Clean k (c :: cs) ↔ bad k c.toNat = false ∧ Clean k cs := by
  unfold Clean
  simp only [List.mem_cons, forall_eq_or_imp]
  rw [← bad_iff]
  simp

theorem clean_nil (k : Kind) : Clean k [] := by intro c hc; cases hc

/-! ## Trimming on the right -/

/-- The standard library's test finds the 25 characters. -/
theorem isWhitespace_eq (c : Char) : isWhitespace c = decide (c ∈ whiteSpace) := by
  have hc : ∀ d : Char, (c = d) = (c.toNat = d.toNat) := fun d => propext ⟨fun h => h ▸ rfl, fun h => Char.toNat_inj.1 h⟩
  rw [Bool.eq_iff_iff]
  simp only [isWhitespace, whiteSpace, Bool.or_eq_true, Bool.and_eq_true, decide_eq_true_eq, beq_iff_eq, List.mem_cons, List.not_mem_nil,
    or_false, hc, Char.reduceToNat]
  omega

theorem whiteSpace_fun : (fun c => decide (c ∈ whiteSpace)) = isWhitespace := funext fun c => (isWhitespace_eq c).symm

/-- The string without trailing white space. -/
def rtrim (s : List Char) : List Char := (s.reverse.dropWhile isWhitespace).reverse

theorem rtrim_nil : rtrim [] = [] := rfl

theorem rtrim_cons (c : Char) (cs : List Char) :
    rtrim (c :: cs) = if rtrim cs = [] ∧ isWhitespace c = true then [] else c :: rtrim cs := by
  unfold rtrim
  rw [List.reverse_cons, List.dropWhile_append]
  by_cases h : List.dropWhile isWhitespace cs.reverse = []
  · rw [h]
    by_cases hc : isWhitespace c = true <;> simp [hc, List.dropWhile_cons]
  · have : (List.dropWhile isWhitespace cs.reverse).isEmpty = false := by
      cases hh : List.dropWhile isWhitespace cs.reverse <;> simp_all
    rw [this]
    simp [h]

theorem trim_eq (s : List Char) : trim s = rtrim (trimStart s) := by
  simp only [trim, rtrim, whiteSpace_fun]

/-! ## The loops -/

theorem checkBytes_append (k : Kind) (a b : List UInt8) :
    checkBytes k (a ++ b) = (checkBytes k a).bind fun _ => checkBytes k b := by
  induction a with
  | nil => rfl
  | cons e a ih =>
    simp only [List.cons_append, checkBytes]
    split <;> simp [ih]

theorem bad_large (k : Kind) (n : Nat) (h : 128 ≤ n) : bad k n = false := by
  cases k <;> simp [bad] <;> omega

theorem checkBytes_large (k : Kind) (a : List UInt8) (h : ∀ x ∈ a, 128 ≤ x.toNat) : checkBytes k a = .ok () := by
  induction a with
  | nil => rfl
  | cons e a ih =>
    rw [checkBytes, bad_large k _ (h e (by simp))]
    simp only [Bool.false_eq_true, if_false]
    exact ih fun x hx => h x (by simp [hx])

theorem checkBytes_char (k : Kind) (c : Char) :
    checkBytes k (String.utf8EncodeChar c) = if bad k c.toNat then .err .invalid else .ok () := by
  by_cases h : c.toNat < 128
  · rw [Utf8.encode_ascii h]
    have : (asc c).toNat = c.toNat := by unfold asc; simp; omega
    simp [checkBytes, this]
  · obtain ⟨b, t, e, hb, -, ht⟩ := Utf8.encode_wide (c := c) (by omega)
    rw [e, checkBytes_large k, bad_large k _ (by omega)]
    · rfl
    · intro x hx
      rcases List.mem_cons.mp hx with rfl | hx
      · omega
      · exact (ht x hx).1

theorem checkBytes_spec (k : Kind) (s : List Char) :
    (Clean k s → checkBytes k (strBytes s) = .ok ()) ∧ (¬ Clean k s → checkBytes k (strBytes s) = .err .invalid) := by
  induction s with
  | nil => exact ⟨fun _ => rfl, fun h => absurd (clean_nil k) h⟩
  | cons c cs ih =>
    have e : strBytes (c :: cs) = String.utf8EncodeChar c ++ strBytes cs := rfl
    rw [e, checkBytes_append, checkBytes_char, clean_cons]
    cases hb : bad k c.toNat
    · simpa using ih
    · simp

theorem countChars_spec (k : Kind) (s : List Char) (n : Nat) :
    (Clean k s → countChars k s n = .ok (n + s.length)) ∧ (¬ Clean k s → countChars k s n = .err .invalid) := by
  induction s generalizing n with
  | nil => exact ⟨fun _ => rfl, fun h => absurd (clean_nil k) h⟩
  | cons c cs ih =>
    rw [clean_cons, countChars]
    cases hb : bad k c.toNat
    · simp only [true_and, Bool.false_eq_true, if_false, List.length_cons]
      have := ih (n + 1)
      rw [show n + 1 + cs.length = n + (cs.length + 1) by omega] at this
      exact this
    · simp

/-- What the inner loop can return. -/
def InnerOk (k : Kind) (b : Bool) (early : Option Nat) (cs : List Char) (counter trimmed temp : Nat) :
    Out LineError (Nat × Nat) → Prop
  | .ok p => Clean k cs ∧ tooLong early (counter + size b cs) = false ∧ p.1 = counter + size b cs ∧
      p.2 = trimmed + (if rtrim cs = [] then 0 else temp + size b (rtrim cs))
  | .err .invalid => ¬ Clean k cs
  | .err .tooLong => tooLong early (counter + size b cs) = true
  | .err .tooShort => False
  | .panic => False

theorem tooLong_mono {early : Option Nat} {m n : Nat} (h : m ≤ n) (ht : tooLong early m = true) : tooLong early n = true := by
  cases early with
  | none => simp [tooLong] at ht
  | some x => simp only [tooLong, decide_eq_true_eq] at ht ⊢; omega

theorem inner_spec (k : Kind) (b : Bool) (early : Option Nat) (cs : List Char) (counter trimmed temp : Nat)
    (h0 : tooLong early counter = false) :
    InnerOk k b early cs counter trimmed temp (inner k b early cs counter trimmed temp) := by
  induction cs generalizing counter trimmed temp with
  | nil => simp [inner, InnerOk, clean_nil, h0, rtrim_nil]
  | cons c cs ih =>
    unfold inner
    by_cases hb : bad k c.toNat = true
    · simp only [hb, if_true, InnerOk, clean_cons]; simp
    · have hb' : bad k c.toNat = false := by simpa using hb
      simp only [hb', Bool.false_eq_true, if_false]
      by_cases ht : tooLong early (counter + step b c) = true
      · simp only [ht, if_true, InnerOk, size_cons]
        exact tooLong_mono (by omega) ht
      · have ht' : tooLong early (counter + step b c) = false := by simpa using ht
        simp only [ht', Bool.false_eq_true, if_false]
        by_cases hw : isWhitespace c = true
        · simp only [hw, if_true]
          have := ih (counter + step b c) trimmed (temp + step b c) ht'
          revert this
          generalize inner k b early cs (counter + step b c) trimmed (temp + step b c) = r
          intro this
          cases r with
          | ok p =>
            obtain ⟨h1, h2, h3, h4⟩ := this
            refine ⟨(clean_cons k c cs).mpr ⟨hb', h1⟩, ?_, ?_, ?_⟩
            · rw [size_cons, ← Nat.add_assoc]; exact h2
            · rw [size_cons, ← Nat.add_assoc]; exact h3
            · rw [h4, rtrim_cons]
              by_cases he : rtrim cs = []
              · simp [he, hw]
              · simp only [he, false_and, if_false, size_cons, reduceCtorEq]; omega
          | err e =>
            cases e with
            | invalid => simp only [InnerOk] at this ⊢; rw [clean_cons]; tauto
            | tooLong => simp only [InnerOk] at this ⊢; rw [size_cons, ← Nat.add_assoc]; exact this
            | tooShort => exact this
          | panic => exact this
        · simp only [hw, Bool.false_eq_true, if_false]
          have := ih (counter + step b c) (trimmed + (temp + step b c)) 0 ht'
          revert this
          generalize inner k b early cs (counter + step b c) (trimmed + (temp + step b c)) 0 = r
          intro this
          cases r with
          | ok p =>
            obtain ⟨h1, h2, h3, h4⟩ := this
            refine ⟨(clean_cons k c cs).mpr ⟨hb', h1⟩, ?_, ?_, ?_⟩
            · rw [size_cons, ← Nat.add_assoc]; exact h2
            · rw [size_cons, ← Nat.add_assoc]; exact h3
            · rw [h4, rtrim_cons]
              by_cases he : rtrim cs = []
              · simp [he, hw, size_cons]
              · simp only [he, false_and, if_false, size_cons, reduceCtorEq]; omega
          | err e =>
            cases e with
            | invalid => simp only [InnerOk] at this ⊢; rw [clean_cons]; tauto
            | tooLong => simp only [InnerOk] at this ⊢; rw [size_cons, ← Nat.add_assoc]; exact this
            | tooShort => exact this
          | panic => exact this

/-- What the outer loop can return. -/
def OuterOk (k : Kind) (b : Bool) (eo ei : Option Nat) (s : List Char) (counter : Nat) :
    Out LineError (Nat × Option Nat) → Prop
  | .ok (n, some t) => Clean k (trimStart s) ∧ n = counter + size b s ∧ t = size b (trim s) ∧ tooLong ei n = false
  | .ok (n, none) => trimStart s = [] ∧ n = counter + size b s ∧ tooLong eo n = false
  | .err .invalid => ¬ Clean k (trimStart s)
  | .err .tooLong => tooLong eo (counter + size b s) = true
  | .err .tooShort => False
  | .panic => False

theorem trimStart_ws {c : Char} {cs : List Char} (h : isWhitespace c = true) : trimStart (c :: cs) = trimStart cs := by
  simp [trimStart, whiteSpace_fun, List.dropWhile_cons, h]

theorem trimStart_nws {c : Char} {cs : List Char} (h : ¬ isWhitespace c = true) : trimStart (c :: cs) = c :: cs := by
  simp [trimStart, whiteSpace_fun, List.dropWhile_cons, h]

theorem outer_spec (k : Kind) (b : Bool) (eo ei : Option Nat) (hei : ei = none ∨ ei = eo) (s : List Char) (counter : Nat)
    (h0 : tooLong eo counter = false) : OuterOk k b eo ei s counter (outer k b eo ei s counter) := by
  induction s generalizing counter with
  | nil => simp [outer, OuterOk, trimStart, h0]
  | cons c cs ih =>
    unfold outer
    by_cases ht : tooLong eo (counter + step b c) = true
    · simp only [ht, if_true, OuterOk, size_cons]
      exact tooLong_mono (by omega) ht
    · have ht' : tooLong eo (counter + step b c) = false := by simpa using ht
      simp only [ht', Bool.false_eq_true, if_false]
      by_cases hw : isWhitespace c = true
      · simp only [hw, if_true]
        have := ih (counter + step b c) ht'
        revert this
        generalize outer k b eo ei cs (counter + step b c) = r
        intro this
        have ha : counter + size b (c :: cs) = counter + step b c + size b cs := by rw [size_cons]; omega
        rcases r with ⟨n, _ | t⟩ | e | _
        · simpa only [OuterOk, ha, trimStart_ws hw] using this
        · simp only [OuterOk, ha, trim_eq, trimStart_ws hw] at this ⊢; exact this
        · cases e <;> simp only [OuterOk, ha, trimStart_ws hw] at this ⊢ <;> exact this
        · exact this
      · simp only [hw, Bool.false_eq_true, if_false]
        by_cases hb : bad k c.toNat = true
        · simp only [hb, if_true, OuterOk, trimStart_nws hw, clean_cons]; simp
        · have hb' : bad k c.toNat = false := by simpa using hb
          simp only [hb', Bool.false_eq_true, if_false]
          have hi : tooLong ei (counter + step b c) = false := by
            rcases hei with rfl | rfl
            · rfl
            · exact ht'
          have := inner_spec k b ei cs (counter + step b c) (step b c) 0 hi
          revert this
          generalize inner k b ei cs (counter + step b c) (step b c) 0 = r
          intro this
          have ha : counter + size b (c :: cs) = counter + step b c + size b cs := by rw [size_cons]; omega
          cases r with
          | ok p =>
            obtain ⟨h1, h2, h3, h4⟩ := this
            simp only [Out.map_ok, OuterOk, trimStart_nws hw, trim_eq, ha]
            refine ⟨(clean_cons k c cs).mpr ⟨hb', h1⟩, h3, ?_, by rw [h3]; exact h2⟩
            rw [h4, rtrim_cons]
            by_cases he : rtrim cs = []
            · simp [he, hw, size_cons]
            · simp only [he, false_and, if_false, size_cons]; omega
          | err e =>
            cases e with
            | invalid => simp only [Out.map_err, InnerOk, OuterOk, trimStart_nws hw, clean_cons] at this ⊢; tauto
            | tooLong =>
              simp only [Out.map_err, InnerOk, OuterOk, ha] at this ⊢
              rcases hei with rfl | rfl
              · simp [tooLong] at this
              · exact this
            | tooShort => exact this
          | panic => exact this

/-! ## Truncation to `max + 1` characters -/

theorem trimStart_take_prefix (n : Nat) (s : List Char) : trimStart (s.take n) <+: trimStart s := by
  induction s generalizing n with
  | nil => simp [trimStart]
  | cons c cs ih =>
    cases n with
    | zero => simp [trimStart]
    | succ n =>
      rw [List.take_succ_cons]
      by_cases hw : isWhitespace c = true
      · rw [trimStart_ws hw, trimStart_ws hw]; exact ih n
      · rw [trimStart_nws hw, trimStart_nws hw]
        exact List.cons_prefix_cons.mpr ⟨rfl, List.take_prefix n cs⟩

theorem clean_prefix {k : Kind} {a b : List Char} (h : a <+: b) (hb : Clean k b) : Clean k a :=
  fun c hc => hb c (h.subset hc)

theorem trim_nil_of {s : List Char} (h : trimStart s = []) : trim s = [] := by rw [trim_eq, h]; rfl

theorem size_false (s : List Char) : size false s = s.length := rfl

end Verif.Line

namespace Verif.Line

open Verif.Spec.Line
open Verif.BaseN (strBytes)

/-- The part of the string whose characters are checked. -/
def checked (trimmedMin : Option Nat) (s : List Char) : List Char :=
  match trimmedMin with
  | none => s
  | some _ => trimStart s

/-- What the whole check can return. -/
def CheckOk (k : Kind) (b : Bool) (min trimmedMin max : Option Nat) (s : List Char) : Out LineError Unit → Prop
  | .ok _ => Clean k (checked trimmedMin s) ∧ SizeOk b min max s ∧ TrimmedOk b trimmedMin s
  | .err .invalid => ¬ Clean k (checked trimmedMin s)
  | .err .tooLong => ∃ m, max = some m ∧ m < size b s
  | .err .tooShort => (∃ m, min = some m ∧ size b s < m) ∨ (∃ m, trimmedMin = some m ∧ size b (trim s) < m) ∨
      (b = false ∧ trimmedMin ≠ none ∧ ∃ m, max = some m ∧ m < size b s)
  | .panic => False

theorem length_take_eq {max : Nat} {s : List Char} (h : ¬ s.length ≤ max) : (s.take (max + 1)).length = max + 1 := by
  rw [List.length_take]; omega

theorem check_spec (k : Kind) (b : Bool) (min trimmedMin max : Option Nat) (s : List Char)
    (hord : ∀ m, min = some m → ∀ n, max = some n → m ≤ n) :
    CheckOk k b min trimmedMin max s (check k b min trimmedMin max s) := by
  unfold check
  cases max with
  | some max =>
    cases min with
    | some min =>
      have hord' : min ≤ max := hord min rfl max rfl
      cases trimmedMin with
      | some t =>
        cases b
        · simp only [Bool.false_eq_true, if_false]
          by_cases hs : s.length ≤ max
          · rw [List.take_of_length_le (by omega)]
            have := outer_spec k false none none (.inl rfl) s 0 rfl
            revert this
            generalize outer k false none none s 0 = r
            intro this
            rcases r with ⟨n, _ | u⟩ | e | _
            · obtain ⟨h1, h2, -⟩ := this
              rw [Nat.zero_add] at h2
              simp only [Out.bind_ok]
              have := trim_nil_of h1
              subst h2
              rw [size_false]
              split
              · split
                · left; exact ⟨_, rfl, by rwa [size_false]⟩
                · split
                  · omega
                  · refine ⟨by simp only [checked, h1]; exact clean_nil k, ⟨?_, ?_⟩, ?_⟩ <;>
                      (rintro _ ⟨⟩; simp only [size_false]; omega)
              · right; left; refine ⟨_, rfl, ?_⟩; rw [this, size_nil]; omega
            · obtain ⟨h1, h2, h3, -⟩ := this
              rw [Nat.zero_add] at h2
              simp only [Out.bind_ok]
              subst h2 h3
              split
              · rename_i hc
                rw [if_pos (by rw [size_false]; omega)]
                refine ⟨h1, ⟨?_, ?_⟩, ?_⟩
                · rintro _ ⟨⟩; exact hc.2
                · rintro _ ⟨⟩; exact hs
                · rintro _ ⟨⟩; exact hc.1
              · rename_i hc
                simp only [not_and_or, ge_iff_le, Nat.not_le] at hc
                rcases hc with hc | hc
                · right; left; exact ⟨_, rfl, hc⟩
                · left; exact ⟨_, rfl, hc⟩
            · cases e <;> simp [OuterOk, tooLong] at this
              exact this
            · exact this
          · have hl := length_take_eq hs
            have hlong : ∃ m, some max = some m ∧ m < size false s := ⟨max, rfl, by rw [size_false]; omega⟩
            have := outer_spec k false none none (.inl rfl) (s.take (max + 1)) 0 rfl
            revert this
            generalize outer k false none none (s.take (max + 1)) 0 = r
            intro this
            rcases r with ⟨n, _ | u⟩ | e | _
            · obtain ⟨h1, h2, -⟩ := this
              rw [Nat.zero_add, size_false, hl] at h2
              simp only [Out.bind_ok]
              subst h2
              split
              · rw [if_neg (by omega), if_pos (by omega)]; exact hlong
              · right; right; exact ⟨rfl, by simp, hlong⟩
            · obtain ⟨h1, h2, h3, -⟩ := this
              rw [Nat.zero_add, size_false, hl] at h2
              simp only [Out.bind_ok]
              subst h2
              split
              · rw [if_neg (by omega)]; exact hlong
              · right; right; exact ⟨rfl, by simp, hlong⟩
            · cases e <;> simp [OuterOk, tooLong] at this
              exact fun h => this (clean_prefix (trimStart_take_prefix _ _) h)
            · exact this
        · simp only [if_true]
          have := outer_spec k true (some max) (some max) (.inr rfl) s 0 (by simp [tooLong])
          revert this
          generalize outer k true (some max) (some max) s 0 = r
          intro this
          rcases r with ⟨n, _ | u⟩ | e | _
          · obtain ⟨h1, h2, h3⟩ := this
            rw [Nat.zero_add] at h2
            subst h2
            simp only [Out.bind_ok]
            simp only [tooLong, decide_eq_false_iff_not] at h3
            have := trim_nil_of h1
            split
            · split
              · left; exact ⟨_, rfl, by assumption⟩
              · refine ⟨by simp only [checked, h1]; exact clean_nil k, ⟨?_, ?_⟩, ?_⟩ <;>
                  (rintro _ ⟨⟩; omega)
            · right; left; refine ⟨_, rfl, ?_⟩; rw [this, size_nil]; omega
          · obtain ⟨h1, h2, h3, h4⟩ := this
            rw [Nat.zero_add] at h2
            subst h2 h3
            simp only [Out.bind_ok]
            simp only [tooLong, decide_eq_false_iff_not] at h4
            split
            · rename_i hc
              rw [if_pos (by omega)]
              refine ⟨h1, ⟨?_, ?_⟩, ?_⟩
              · rintro _ ⟨⟩; exact hc.2
              · rintro _ ⟨⟩; omega
              · rintro _ ⟨⟩; exact hc.1
            · rename_i hc
              simp only [not_and_or, ge_iff_le, Nat.not_le] at hc
              rcases hc with hc | hc
              · right; left; exact ⟨_, rfl, hc⟩
              · left; exact ⟨_, rfl, hc⟩
          · cases e <;> simp [OuterOk, tooLong] at this
            · exact this
            · exact ⟨max, rfl, this⟩
          · exact this
      | none =>
        cases b
        · simp only [Bool.false_eq_true, if_false]
          by_cases hs : s.length ≤ max
          · rw [List.take_of_length_le (by omega)]
            obtain ⟨h1, h2⟩ := countChars_spec k s 0
            by_cases hc : Clean k s
            · rw [h1 hc, Nat.zero_add]
              simp only [Out.bind_ok]
              split
              · left; exact ⟨_, rfl, by assumption⟩
              · rw [if_neg (by omega)]
                refine ⟨hc, ⟨?_, ?_⟩, ?_⟩ <;> (rintro _ ⟨⟩; try simp only [size_false]; omega)
            · rw [h2 hc]; exact hc
          · have hl := length_take_eq hs
            have hlong : ∃ m, some max = some m ∧ m < size false s := ⟨max, rfl, by rw [size_false]; omega⟩
            obtain ⟨h1, h2⟩ := countChars_spec k (s.take (max + 1)) 0
            by_cases hc : Clean k (s.take (max + 1))
            · rw [h1 hc, Nat.zero_add, hl]
              simp only [Out.bind_ok]
              rw [if_neg (by omega), if_pos (by omega)]
              exact hlong
            · rw [h2 hc]
              exact fun h => hc (clean_prefix (List.take_prefix _ _) h)
        · simp only [if_true]
          split
          · exact ⟨max, rfl, by assumption⟩
          · split
            · left; exact ⟨min, rfl, by assumption⟩
            · obtain ⟨h1, h2⟩ := checkBytes_spec k s
              by_cases hc : Clean k s
              · rw [h1 hc]
                have e : size true s = (strBytes s).length := rfl
                refine ⟨hc, ⟨?_, ?_⟩, ?_⟩ <;> (rintro _ ⟨⟩; try omega)
              · rw [h2 hc]; exact hc
    | none =>
      cases trimmedMin with
      | some t =>
        cases b
        · simp only [Bool.false_eq_true, if_false]
          by_cases hs : s.length ≤ max
          · rw [List.take_of_length_le (by omega)]
            have := outer_spec k false none none (.inl rfl) s 0 rfl
            revert this
            generalize outer k false none none s 0 = r
            intro this
            rcases r with ⟨n, _ | u⟩ | e | _
            · obtain ⟨h1, h2, -⟩ := this
              rw [Nat.zero_add] at h2
              simp only [Out.bind_ok]
              have := trim_nil_of h1
              subst h2
              rw [size_false, if_pos hs]
              split
              · refine ⟨by simp only [checked, h1]; exact clean_nil k, ⟨?_, ?_⟩, ?_⟩ <;>
                      (rintro _ ⟨⟩; try simp only [size_false]; try omega)
              · right; left; refine ⟨_, rfl, ?_⟩; rw [this, size_nil]; omega
            · obtain ⟨h1, h2, h3, -⟩ := this
              rw [Nat.zero_add] at h2
              simp only [Out.bind_ok]
              subst h2 h3
              split
              · rename_i hc
                rw [if_pos (by rw [size_false]; omega)]
                refine ⟨h1, ⟨?_, ?_⟩, ?_⟩
                · rintro _ ⟨⟩
                · rintro _ ⟨⟩; exact hs
                · rintro _ ⟨⟩; exact hc
              · rename_i hc
                right; left; exact ⟨_, rfl, by omega⟩
            · cases e <;> simp [OuterOk, tooLong] at this
              exact this
            · exact this
          · have hl := length_take_eq hs
            have hlong : ∃ m, some max = some m ∧ m < size false s := ⟨max, rfl, by rw [size_false]; omega⟩
            have := outer_spec k false none none (.inl rfl) (s.take (max + 1)) 0 rfl
            revert this
            generalize outer k false none none (s.take (max + 1)) 0 = r
            intro this
            rcases r with ⟨n, _ | u⟩ | e | _
            · obtain ⟨h1, h2, -⟩ := this
              rw [Nat.zero_add, size_false, hl] at h2
              simp only [Out.bind_ok]
              subst h2
              split
              · rw [if_neg (by omega)]; exact hlong
              · right; right; exact ⟨rfl, by simp, hlong⟩
            · obtain ⟨h1, h2, h3, -⟩ := this
              rw [Nat.zero_add, size_false, hl] at h2
              simp only [Out.bind_ok]
              subst h2
              split
              · rw [if_neg (by omega)]; exact hlong
              · right; right; exact ⟨rfl, by simp, hlong⟩
            · cases e <;> simp [OuterOk, tooLong] at this
              exact fun h => this (clean_prefix (trimStart_take_prefix _ _) h)
            · exact this
        · simp only [if_true]
          have := outer_spec k true (some max) none (.inl rfl) s 0 (by simp [tooLong])
          revert this
          generalize outer k true (some max) none s 0 = r
          intro this
          rcases r with ⟨n, _ | u⟩ | e | _
          · obtain ⟨h1, h2, h3⟩ := this
            rw [Nat.zero_add] at h2
            subst h2
            simp only [Out.bind_ok]
            simp only [tooLong, decide_eq_false_iff_not] at h3
            have := trim_nil_of h1
            split
            · refine ⟨by simp only [checked, h1]; exact clean_nil k, ⟨?_, ?_⟩, ?_⟩ <;>
                  (rintro _ ⟨⟩; try omega)
            · right; left; refine ⟨_, rfl, ?_⟩; rw [this, size_nil]; omega
          · obtain ⟨h1, h2, h3, -⟩ := this
            rw [Nat.zero_add] at h2
            subst h2 h3
            simp only [Out.bind_ok]
            split
            · rename_i hc
              split
              · refine ⟨h1, ⟨?_, ?_⟩, ?_⟩
                · rintro _ ⟨⟩
                · rintro _ ⟨⟩; assumption
                · rintro _ ⟨⟩; exact hc
              · exact ⟨max, rfl, by omega⟩
            · right; left; exact ⟨_, rfl, by omega⟩
          · cases e <;> simp [OuterOk, tooLong] at this
            · exact this
            · exact ⟨max, rfl, this⟩
          · exact this
      | none =>
        cases b
        · simp only [Bool.false_eq_true, if_false]
          by_cases hs : s.length ≤ max
          · rw [List.take_of_length_le (by omega)]
            obtain ⟨h1, h2⟩ := countChars_spec k s 0
            by_cases hc : Clean k s
            · rw [h1 hc, Nat.zero_add]
              simp only [Out.bind_ok]
              rw [if_pos hs]
              refine ⟨hc, ⟨?_, ?_⟩, ?_⟩ <;> (rintro _ ⟨⟩; try simp only [size_false]; try omega)
            · rw [h2 hc]; exact hc
          · have hl := length_take_eq hs
            have hlong : ∃ m, some max = some m ∧ m < size false s := ⟨max, rfl, by rw [size_false]; omega⟩
            obtain ⟨h1, h2⟩ := countChars_spec k (s.take (max + 1)) 0
            by_cases hc : Clean k (s.take (max + 1))
            · rw [h1 hc, Nat.zero_add, hl]
              simp only [Out.bind_ok]
              rw [if_neg (by omega)]
              exact hlong
            · rw [h2 hc]
              exact fun h => hc (clean_prefix (List.take_prefix _ _) h)
        · simp only [if_true]
          split
          · exact ⟨max, rfl, by assumption⟩
          · obtain ⟨h1, h2⟩ := checkBytes_spec k s
            by_cases hc : Clean k s
            · rw [h1 hc]
              have e : size true s = (strBytes s).length := rfl
              refine ⟨hc, ⟨?_, ?_⟩, ?_⟩ <;> (rintro _ ⟨⟩; try omega)
            · rw [h2 hc]; exact hc
  | none =>
    cases min with
    | some min =>
      cases trimmedMin with
      | some t =>
        have := outer_spec k b none none (.inl rfl) s 0 rfl
        revert this
        simp only
        generalize outer k b none none s 0 = r
        intro this
        rcases r with ⟨n, _ | u⟩ | e | _
        · obtain ⟨h1, h2, -⟩ := this
          rw [Nat.zero_add] at h2
          simp only [Out.bind_ok]
          have := trim_nil_of h1
          subst h2
          split
          · split
            · refine ⟨by simp only [checked, h1]; exact clean_nil k, ⟨?_, ?_⟩, ?_⟩ <;>
                    (rintro _ ⟨⟩; try omega)
            · left; exact ⟨_, rfl, by omega⟩
          · right; left; refine ⟨_, rfl, ?_⟩; rw [this, size_nil]; omega
        · obtain ⟨h1, h2, h3, -⟩ := this
          rw [Nat.zero_add] at h2
          simp only [Out.bind_ok]
          subst h2 h3
          split
          · rename_i hc
            refine ⟨h1, ⟨?_, ?_⟩, ?_⟩
            · rintro _ ⟨⟩; exact hc.2
            · rintro _ ⟨⟩
            · rintro _ ⟨⟩; exact hc.1
          · rename_i hc
            simp only [not_and_or, ge_iff_le, Nat.not_le] at hc
            rcases hc with hc | hc
            · right; left; exact ⟨_, rfl, hc⟩
            · left; exact ⟨_, rfl, hc⟩
        · cases e <;> simp [OuterOk, tooLong] at this
          exact this
        · exact this
      | none =>
        cases b
        · simp only [Bool.false_eq_true, if_false]
          obtain ⟨h1, h2⟩ := countChars_spec k s 0
          by_cases hc : Clean k s
          · rw [h1 hc, Nat.zero_add]
            simp only [Out.bind_ok]
            split
            · refine ⟨hc, ⟨?_, ?_⟩, ?_⟩ <;> (rintro _ ⟨⟩; try simpa only [size_false])
            · left; exact ⟨_, rfl, by rw [size_false]; omega⟩
          · rw [h2 hc]; exact hc
        · simp only [if_true]
          split
          · left; exact ⟨min, rfl, by assumption⟩
          · obtain ⟨h1, h2⟩ := checkBytes_spec k s
            by_cases hc : Clean k s
            · rw [h1 hc]
              have e : size true s = (strBytes s).length := rfl
              refine ⟨hc, ⟨?_, ?_⟩, ?_⟩ <;> (rintro _ ⟨⟩; try omega)
            · rw [h2 hc]; exact hc
    | none =>
      cases trimmedMin with
      | some t =>
        have := outer_spec k b none none (.inl rfl) s 0 rfl
        revert this
        simp only
        generalize outer k b none none s 0 = r
        intro this
        rcases r with ⟨n, _ | u⟩ | e | _
        · obtain ⟨h1, h2, -⟩ := this
          simp only [Out.bind_ok]
          have := trim_nil_of h1
          split
          · refine ⟨by simp only [checked, h1]; exact clean_nil k, ⟨?_, ?_⟩, ?_⟩ <;>
                    (rintro _ ⟨⟩; try omega)
          · right; left; refine ⟨_, rfl, ?_⟩; rw [this, size_nil]; omega
        · obtain ⟨h1, h2, h3, -⟩ := this
          simp only [Out.bind_ok]
          subst h3
          split
          · rename_i hc
            refine ⟨h1, ⟨?_, ?_⟩, ?_⟩
            · rintro _ ⟨⟩
            · rintro _ ⟨⟩
            · rintro _ ⟨⟩; exact hc
          · right; left; exact ⟨_, rfl, by omega⟩
        · cases e <;> simp [OuterOk, tooLong] at this
          exact this
        · exact this
      | none =>
        obtain ⟨h1, h2⟩ := checkBytes_spec k s
        by_cases hc : Clean k s
        · simp only [h1 hc]
          refine ⟨hc, ⟨?_, ?_⟩, ?_⟩ <;> (rintro _ ⟨⟩)
        · simp only [h2 hc]; exact hc

end Verif.Line
