import Verif.Model.Line

/-!
# `line` and `text` at the end of the range of `usize`

The templates that count characters and have a maximum read the string through `s.chars().take(#max + 1)` only (L173, L246,
L356, L427 of `line/mod.rs` and `text/mod.rs`). The literal is a `usize`. `Model/Line.lean` has `max + 1` without overflow;
here the addition is that of the type.
-/

namespace Verif.Line

/-- The two meanings of an addition that overflows: a panic (overflow checks on, the default of debug builds) or the value
modulo the size of the type (the default of release builds). -/
inductive Overflow where
  | panics
  | wraps
  deriving DecidableEq, Repr

/-- `#max + 1` on a `usize` whose largest value is `top`. -/
def plusOne (o : Overflow) (top max : Nat) : Out LineError Nat :=
  if max < top then .ok (max + 1) else match o with
    | .panics => .panic
    | .wraps => .ok 0

/-- `v_parse_str` with the addition of `usize`: `line/mod.rs` and `text/mod.rs` L155-222, L244-266, L340-405, L425-445; the
other templates do not add to `max`. `check` on `s.take n` with `n ≤ max + 1` is the template on `s.chars().take(n)`, as
taking `max + 1` of that changes nothing. -/
def checkAt (o : Overflow) (top : Nat) (k : Kind) (byteLength : Bool) (min trimmedMin max : Option Nat) (s : List Char) :
    Out LineError Unit :=
  match byteLength, max with
  | false, some m => (plusOne o top m).bind fun n => check k false min trimmedMin (some m) (s.take n)
  | _, _ => check k byteLength min trimmedMin max s

/-- `parse_string` and `parse_str`: L736-754. -/
def parseAt (o : Overflow) (top : Nat) (k : Kind) (byteLength : Bool) (min trimmedMin max : Option Nat) (s : List Char) :
    Out LineError (List Char) :=
  (checkAt o top k byteLength min trimmedMin max s).bind fun _ => .ok s

/-- `validate_str`: L756-761. -/
def validateAt (o : Overflow) (top : Nat) (k : Kind) (byteLength : Bool) (min trimmedMin max : Option Nat) (s : List Char) :
    Out LineError Unit :=
  (checkAt o top k byteLength min trimmedMin max s).bind fun _ => .ok ()

end Verif.Line
