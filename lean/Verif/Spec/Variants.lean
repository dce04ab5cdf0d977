import Verif.Spec.IpAddr

/-!
# Specification: the ways to write a number or an address
-/

namespace Verif.Spec.Variants

open Verif.StdIp Verif.Spec.Ip

/-- Any number of zeros. -/
def zeros (k : Nat) : List UInt8 := List.replicate k (asc '0')

/-- The ways to write the integer `i` in decimal: its digits, after any number of zeros, after a sign. The sign `+` can be left out,
the sign `-` is for signed types; zero can have either sign. -/
def Writes (signed : Bool) (i : Int) (t : List UInt8) : Prop :=
  ∃ k, 0 ≤ i ∧ (t = zeros k ++ dec i.natAbs ∨ t = ascii "+" ++ zeros k ++ dec i.natAbs) ∨
    signed = true ∧ i ≤ 0 ∧ t = ascii "-" ++ zeros k ++ dec i.natAbs

/-- The ways to write a port after an address: none, or a colon and the number. -/
def WritesPort : Option Nat → List UInt8 → Prop
  | none, t => t = []
  | some n, t => ∃ u, t = ascii ":" ++ u ∧ Writes false n u

end Verif.Spec.Variants
