import Verif.Proof.LineMax
import Verif.Props.Line

/-!
# Property C73: a maximum that no string exceeds

`top` is the largest value of `usize`, `o` says what an overflowing addition does.
-/

namespace Verif.Props.LineMax

open Verif.Line Verif.Spec.Line

/-- C73, full statement for one string: a maximum that the string does not exceed is as good as no maximum. -/
def C73 (o : Overflow) (top : Nat) (k : Kind) (b : Bool) (min trimmedMin : Option Nat) (m : Nat) (s : List Char) : Prop :=
  size b s ≤ m → parseAt o top k b min trimmedMin (some m) s = parseAt o top k b min trimmedMin none s

theorem checkAt_eq (o : Overflow) (top : Nat) (k : Kind) (b : Bool) (min trimmedMin max : Option Nat) (s : List Char)
    (h : b = true ∨ ∀ m, max = some m → m < top) :
    checkAt o top k b min trimmedMin max s = check k b min trimmedMin max s := by
  cases b with
  | true => rfl
  | false =>
    cases max with
    | none => rfl
    | some m =>
      have hm : m < top := (h.resolve_left (by decide)) m rfl
      simp only [checkAt, plusOne, hm, if_true, Out.bind_ok]
      exact check_take ..

/-- C73: bytes with any maximum, characters with any maximum but the largest `usize`; the same error too. Missing for the
full property: characters with the largest `usize` as maximum. -/
theorem C73_no_effect_partial (o : Overflow) (top : Nat) (k : Kind) (b : Bool) (min trimmedMin : Option Nat) (m : Nat)
    (s : List Char) (h : b = true ∨ m < top) : C73 o top k b min trimmedMin m s := by
  intro hs
  unfold parseAt
  rw [checkAt_eq _ _ _ _ _ _ _ _ (h.imp_right fun h => by rintro _ ⟨⟩; exact h),
    checkAt_eq _ _ _ _ _ _ _ _ (.inr (by rintro _ ⟨⟩)), check_max k b min trimmedMin m s hs]

/-- With such a maximum the code is that of C23, C24 and C25, whatever an overflow does. -/
theorem C73_below (o : Overflow) (top : Nat) (k : Kind) (b : Bool) (min trimmedMin max : Option Nat) (s : List Char)
    (h : b = true ∨ ∀ m, max = some m → m < top) :
    parseAt o top k b min trimmedMin max s = parseStr k b min trimmedMin max s ∧
    validateAt o top k b min trimmedMin max s = validateStr k b min trimmedMin max s := by
  unfold parseAt validateAt parseStr validateStr
  rw [checkAt_eq _ _ _ _ _ _ _ _ h]
  exact ⟨rfl, rfl⟩

/-- `validate_str` agrees with `parse_str`, with every maximum. -/
theorem C73_validate_agrees (o : Overflow) (top : Nat) (k : Kind) (b : Bool) (min trimmedMin max : Option Nat) (s : List Char) :
    validateAt o top k b min trimmedMin max s = (parseAt o top k b min trimmedMin max s).void := by
  unfold validateAt parseAt
  cases checkAt o top k b min trimmedMin max s <;> rfl

/-- The largest `usize` as maximum of characters, overflow checks on: every string makes the validator panic. -/
theorem C73_panics (top : Nat) (k : Kind) (min trimmedMin : Option Nat) (s : List Char) :
    parseAt .panics top k false min trimmedMin (some top) s = .panic := by
  simp [parseAt, checkAt, plusOne]

/-- The largest `usize` as maximum of characters, overflow checks off: no character is read, so that every string is
accepted, forbidden characters and all, if the two minima are absent or 0, and every string is too short otherwise. -/
theorem C73_wraps (top : Nat) (k : Kind) (min trimmedMin : Option Nat) (s : List Char) :
    parseAt .wraps top k false min trimmedMin (some top) s =
      if (∀ m, min = some m → m = 0) ∧ (∀ m, trimmedMin = some m → m = 0) then .ok s else .err .tooShort := by
  cases min with
  | none =>
    cases trimmedMin with
    | none => simp [parseAt, checkAt, plusOne, check, countChars]
    | some t => by_cases ht : t = 0 <;> simp [parseAt, checkAt, plusOne, check, outer, ht]
  | some m =>
    cases trimmedMin with
    | none => by_cases hm : m = 0 <;> simp [parseAt, checkAt, plusOne, check, countChars, hm, Nat.pos_of_ne_zero]
    | some t =>
      by_cases hm : m = 0 <;> by_cases ht : t = 0 <;> simp [parseAt, checkAt, plusOne, check, outer, ht, hm, Nat.pos_of_ne_zero]

/-- C73 is false of the code, for all sizes of `usize` and either meaning of an overflow: one string panics, or one with a
forbidden character is accepted. -/
theorem C73_violated (o : Overflow) (top : Nat) (h : 1 ≤ top) : ¬ C73 o top .line false none none top ['\n'] := by
  intro hc
  have hc := hc (by simpa [size] using h)
  have hn : parseAt o top .line false none none none ['\n'] = .err .invalid := by
    have e : parseAt o top .line false none none none ['\n'] = parseStr .line false none none none ['\n'] := rfl
    rw [e]
    decide
  rw [hn] at hc
  cases o with
  | panics => rw [C73_panics] at hc; cases hc
  | wraps => rw [C73_wraps] at hc; simp at hc

/-- Nothing else panics. -/
theorem C73_no_panic (o : Overflow) (top : Nat) (k : Kind) (b : Bool) (min trimmedMin max : Option Nat) (s : List Char)
    (ho : Line.InOrder min max) (ht : ∀ m, max = some m → m ≤ top) :
    parseAt o top k b min trimmedMin max s = .panic ↔ o = .panics ∧ b = false ∧ max = some top := by
  constructor
  · intro hp
    by_cases h : b = true ∨ ∀ m, max = some m → m < top
    · rw [(C73_below o top k b min trimmedMin max s h).1] at hp
      exact absurd hp (Line.C23_no_panic k b min trimmedMin max s ho)
    · have hb : b = false := by
        cases b
        · rfl
        · exact absurd (.inl rfl) h
      have hm : max = some top := by
        cases max with
        | none => exact absurd (.inr (by rintro _ ⟨⟩)) h
        | some m =>
          have h1 := ht m rfl
          by_cases h2 : m < top
          · exact absurd (.inr (by rintro _ ⟨⟩; exact h2)) h
          · exact congrArg some (by omega)
      refine ⟨?_, hb, hm⟩
      cases o with
      | panics => rfl
      | wraps =>
        subst hb hm
        rw [C73_wraps] at hp
        split at hp <;> cases hp
  · rintro ⟨rfl, rfl, rfl⟩
    exact C73_panics ..

example : parseAt .panics (2 ^ 64 - 1) .line false none none (some 5) ['a', 'b'] = .ok ['a', 'b'] ∧
    parseAt .wraps (2 ^ 64 - 1) .text false (some 1) none (some (2 ^ 64 - 1)) ['a', 'b'] = .err .tooShort ∧
    parseAt .wraps (2 ^ 64 - 1) .text false none none (some (2 ^ 64 - 1)) ['\x00'] = .ok ['\x00'] ∧
    parseAt .wraps (2 ^ 64 - 1) .text true none none (some (2 ^ 64 - 1)) ['\x00'] = .err .invalid := by decide

example : size false ['a', 'b'] ≤ 5 ∧ 5 < 2 ^ 64 - 1 := by decide

end Verif.Props.LineMax
