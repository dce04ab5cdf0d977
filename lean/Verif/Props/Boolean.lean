import Verif.Proof.Boolean

/-!
# Property C22: `boolean`
-/

namespace Verif.Props.Boolean

open Verif.Boolean Verif.Spec.Boolean

/-- C22: the words for true are accepted as true, the words for false as false, ignoring case; every other string is
rejected. -/
theorem C22_words (s : List UInt8) :
    (parseStr s = .ok true ↔ s.map lower ∈ trueWords) ∧ (parseStr s = .ok false ↔ s.map lower ∈ falseWords) ∧
    (parseStr s = .err () ↔ s.map lower ∉ trueWords ∧ s.map lower ∉ falseWords) ∧ parseStr s ≠ .panic := words s

/-- C22: `validate_str` accepts exactly what `parse_str` accepts. -/
theorem C22_validate (s : List UInt8) : (validateStr s).IsOk ↔ (parseStr s).IsOk := by
  unfold validateStr
  cases parseStr s <;> simp [Out.void]

/-- C22: `parse_char` agrees with `parse_str` on the one-character string, for every character. -/
theorem C22_char (c : Char) : parseChar c = parseStr (BaseN.strBytes [c]) := char_agrees c

/-- C22: integers are accepted exactly for 0 and 1. -/
theorem C22_int (i : Int) : (parseInt i = .ok true ↔ i = 1) ∧ (parseInt i = .ok false ↔ i = 0) ∧
    (parseInt i = .err () ↔ i ≠ 0 ∧ i ≠ 1) := by
  unfold parseInt
  split
  · rename_i h; subst h; simp
  · split
    · rename_i h; subst h; simp
    · rename_i h1 h2; simp [h1, h2]

/-- C22: a boolean is kept. -/
theorem C22_bool (b : Bool) : parseBool b = .ok b := rfl

example : parseStr (ascii "tRuE") = .ok true ∧ parseStr (ascii "OFF") = .ok false ∧ parseStr (ascii "yess") = .err () ∧
    (ascii "tRuE").map lower ∈ trueWords := by decide

end Verif.Props.Boolean
