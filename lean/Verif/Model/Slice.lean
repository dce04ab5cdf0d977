import Verif.Model.Basic

/-!
# Indexing and slicing

Rust's panicking access to `&[u8]`.
-/

namespace Verif

variable {ε : Type}

/-- Rust's `bytes[i]`: panics when `i >= bytes.len()`. -/
def idx (bytes : List UInt8) (i : Nat) : Out ε UInt8 :=
  match bytes[i]? with
  | some b => .ok b
  | none => .panic

/-- Rust's `&bytes[a..b]`: panics when `a > b` or `b > bytes.len()`. -/
def slice (bytes : List UInt8) (a b : Nat) : Out ε (List UInt8) :=
  if a ≤ b ∧ b ≤ bytes.length then .ok ((bytes.drop a).take (b - a)) else .panic

/-- Rust's `&bytes[a..]`: panics when `a > bytes.len()`. -/
def sliceFrom (bytes : List UInt8) (a : Nat) : Out ε (List UInt8) :=
  if a ≤ bytes.length then .ok (bytes.drop a) else .panic

end Verif
