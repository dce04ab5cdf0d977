import Verif.Model.Constants
import Verif.Model.Traits
import Verif.Model.Expect
import Verif.Spec.Generated

/-!
# Two compilations of the same item

The compiler runs the macro again: the source, the features, the dependencies and the machine are the same, but a `HashSet` gives its
elements in another order.
-/

namespace Verif.Spec.Reproducible

open Verif Verif.Attr Verif.Derive Verif.Constants

variable {E A φ κ : Type}

/-- Two runs agree: values that are alike, the same error, or both panic. -/
def Agree (R : A → A → Prop) : Out E A → Out E A → Prop
  | .ok a, .ok b => R a b
  | .err e, .err f => e = f
  | .panic, .panic => True
  | _, _ => False

/-- Both are missing, or both are there and alike. -/
def Both (R : A → A → Prop) : Option A → Option A → Prop
  | none, none => True
  | some a, some b => R a b
  | _, _ => False

/-- Two lists of the same length whose elements are alike, each with the one at its place. -/
def Pointwise (R : A → A → Prop) : List A → List A → Prop
  | [], [] => True
  | a :: as, b :: bs => R a b ∧ Pointwise R as bs
  | _, _ => False

/-- What the code is generated from is the same, but for the order of two or more countries of `phone`. -/
def Alike (p q : Plan φ κ) : Prop :=
  p = q ∨ ∃ cs ds serde rocket, p = .phone ⟨cs, serde, rocket⟩ ∧ q = .phone ⟨ds, serde, rocket⟩ ∧ 2 ≤ cs.length ∧ cs.Perm ds

/-- The same constant: name, type, and value up to the order of countries. -/
def SameConstant (c d : Constant φ κ) : Prop :=
  c.name = d.name ∧ c.ty = d.ty ∧ (c.value = d.value ∨ ∃ cs ds, c.value = .countries cs ∧ d.value = .countries ds ∧ cs.Perm ds)

/-- The same piece of a text, up to the order of countries. -/
def SamePiece (c d : Expect.Piece φ κ) : Prop := c = d ∨ ∃ cs ds, c = .countries cs ∧ d = .countries ds ∧ cs.Perm ds

end Verif.Spec.Reproducible
