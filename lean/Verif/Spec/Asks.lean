import Verif.Model.Basic

/-!
# Specification of the names in an email
-/

namespace Verif.Spec.Asks

/-- `d` is a name after the `@` of `s`: after it and perhaps a comment, up to a parenthesis or to the end. -/
def NameIn (s d : List UInt8) : Prop :=
  ∃ pre mid post, s = pre ++ asc '@' :: (mid ++ (d ++ post)) ∧ (mid = [] ∨ ∃ c, mid = ascii "(" ++ c ++ ascii ")") ∧
    (post = [] ∨ post.head? = some (asc '(')) ∧ d ≠ [] ∧ (mid ++ d).length ≤ 255 ∧ asc '(' ∉ d ∧ d.head? ≠ some (asc '[') ∧ ¬ ∃ c, d = c ++ ascii "."

end Verif.Spec.Asks
