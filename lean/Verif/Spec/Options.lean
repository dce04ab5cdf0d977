import Verif.Model.Basic

/-!
# Specification of what an option does

`f` is a validator applied to one input, as a function of one of its options. `core` is the part of the value that does not
depend on the option.
-/

namespace Verif.Spec.Options

variable {ε α β : Type}

/-- The input is accepted and the value is `x` as far as `core` tells. -/
def Gives (r : Out ε α) (core : α → β) (x : β) : Prop := ∃ v, r = .ok v ∧ core v = x

/-- `Allow` accepts what `Must` or `Disallow` accepts, with the same value, and nothing else. -/
def Covers (f : TriAllow → Out ε α) (core : α → β) : Prop :=
  ∀ x, Gives (f .allow) core x ↔ Gives (f .must) core x ∨ Gives (f .disallow) core x

/-- `Must` and `Disallow` never accept the same input. -/
def Excludes (f : TriAllow → Out ε α) : Prop := ¬ ((f .must).IsOk ∧ (f .disallow).IsOk)

/-- Both. -/
def Splits (f : TriAllow → Out ε α) (core : α → β) : Prop := Covers f core ∧ Excludes f

end Verif.Spec.Options
