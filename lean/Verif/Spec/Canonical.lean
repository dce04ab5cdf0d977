import Verif.Spec.Ip

/-!
# Specification: the recommended text of an IPv6 address (RFC 5952)
-/

namespace Verif.Spec.Canonical

open Verif.Spec.Ip (dotted)

/-- A number in hexadecimal, in lower case and without leading zeros: §4.1, §4.3. -/
def hex (n : Nat) : List UInt8 := (Nat.toDigits 16 n).map asc

/-- Segments with `:` between two of them. -/
def joined : List Nat → List UInt8
  | [] => []
  | [x] => hex x
  | x :: y :: rest => hex x ++ ascii ":" ++ joined (y :: rest)

/-- What follows an address with this port. -/
def portText : Option Nat → List UInt8
  | none => []
  | some n => ascii ":" ++ Ip.dec n

/-- From place `i` there are `n` zero segments. -/
def Zeros (segs : List Nat) (i n : Nat) : Prop := i + n ≤ segs.length ∧ ∀ k, i ≤ k → k < i + n → segs[k]? = some 0

/-- `t` is the recommended text of the address with these segments. §5: an address of the block `::ffff:0:0/96` ends in a dotted
quad. §4.2: of the others, one run of zero segments is written as `::`, but not a single zero (§4.2.2); it is the longest run, and
the first of several longest ones (§4.2.3). If there are no two zeros in a row, all segments are written. -/
def Recommended (segs : List Nat) (t : List UInt8) : Prop :=
  (∃ a b c d, a < 256 ∧ b < 256 ∧ c < 256 ∧ d < 256 ∧ segs = [0, 0, 0, 0, 0, 0xffff, a * 256 + b, c * 256 + d] ∧
    t = ascii "::ffff:" ++ dotted a b c d) ∨
  (∀ a b, segs ≠ [0, 0, 0, 0, 0, 0xffff, a, b]) ∧
    ((∀ i, ¬ Zeros segs i 2) ∧ t = joined segs ∨
      ∃ i n, 2 ≤ n ∧ Zeros segs i n ∧ (∀ j m, Zeros segs j m → m ≤ n) ∧ (∀ j, Zeros segs j n → i ≤ j) ∧
        t = joined (segs.take i) ++ ascii "::" ++ joined (segs.drop (i + n)))

end Verif.Spec.Canonical
