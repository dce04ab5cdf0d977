import Verif.Model.Phone

/-!
# Specification of the `phone` validator
-/

namespace Verif.Spec.Phone

open Verif.Phone

variable {C N : Type}

/-- Read for country `c`, the text is the number `n`, which is a valid number of that country. -/
def NumberOf (lib : Lib C N) (c : C) (s : List UInt8) (n : N) : Prop :=
  lib.parse (some c) s = some n ∧ lib.country n = some c ∧ lib.isValid n = true

/-- The entries of the map are exactly the pairs of a configured country and the number the text is for it. -/
def MapsExactly (lib : Lib C N) (cs : List C) (s : List UInt8) (m : Map C N) : Prop :=
  ∀ c n, (c, n) ∈ m ↔ c ∈ cs ∧ NumberOf lib c s n

/-- The text can be read for country `c`. -/
def Readable (lib : Lib C N) (c : C) (s : List UInt8) : Prop := ∃ n, lib.parse (some c) s = some n

end Verif.Spec.Phone
