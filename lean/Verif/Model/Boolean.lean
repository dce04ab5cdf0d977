import Verif.Model.Basic

/-!
# The `boolean` handler
-/

namespace Verif.Boolean

/-- `v_parse_str`: `boolean/mod.rs` L36-180. The nested `iter.next()` matches are nested matches here; every path that
does not return falls through to `Err` (L180). The error type has one value: `validators/src/errors/boolean.rs`. -/
def parseStr (s : List UInt8) : Out Unit Bool :=
  match s with
  | [] => .err ()
  | e :: s =>
    if e = asc 'y' ∨ e = asc 'Y' then
      match s with
      | [] => .ok true
      | e :: s =>
        if e = asc 'e' ∨ e = asc 'E' then
          match s with
          | [] => .err ()
          | e :: s => if e = asc 's' ∨ e = asc 'S' then (if s = [] then .ok true else .err ()) else .err ()
        else .err ()
    else if e = asc 't' ∨ e = asc 'T' then
      match s with
      | [] => .ok true
      | e :: s =>
        if e = asc 'r' ∨ e = asc 'R' then
          match s with
          | [] => .err ()
          | e :: s =>
            if e = asc 'u' ∨ e = asc 'U' then
              match s with
              | [] => .err ()
              | e :: s => if e = asc 'e' ∨ e = asc 'E' then (if s = [] then .ok true else .err ()) else .err ()
            else .err ()
        else .err ()
    else if e = asc '1' then (if s = [] then .ok true else .err ())
    else if e = asc 'o' ∨ e = asc 'O' then
      match s with
      | [] => .err ()
      | e :: s =>
        if e = asc 'n' ∨ e = asc 'N' then (if s = [] then .ok true else .err ())
        else if e = asc 'f' ∨ e = asc 'F' then
          match s with
          | [] => .err ()
          | e :: s => if e = asc 'f' ∨ e = asc 'F' then (if s = [] then .ok false else .err ()) else .err ()
        else .err ()
    else if e = asc 'n' ∨ e = asc 'N' then
      match s with
      | [] => .ok false
      | e :: s => if e = asc 'o' ∨ e = asc 'O' then (if s = [] then .ok false else .err ()) else .err ()
    else if e = asc 'f' ∨ e = asc 'F' then
      match s with
      | [] => .ok false
      | e :: s =>
        if e = asc 'a' ∨ e = asc 'A' then
          match s with
          | [] => .err ()
          | e :: s =>
            if e = asc 'l' ∨ e = asc 'L' then
              match s with
              | [] => .err ()
              | e :: s =>
                if e = asc 's' ∨ e = asc 'S' then
                  match s with
                  | [] => .err ()
                  | e :: s => if e = asc 'e' ∨ e = asc 'E' then (if s = [] then .ok false else .err ()) else .err ()
                else .err ()
            else .err ()
        else .err ()
    else if e = asc '0' then (if s = [] then .ok false else .err ())
    else .err ()

/-- `validate_str`: `boolean/mod.rs` L231-235. -/
def validateStr (s : List UInt8) : Out Unit Unit := (parseStr s).void

/-- `v_parse_char`: `boolean/mod.rs` L183-189. -/
def parseChar (c : Char) : Out Unit Bool :=
  if c = 't' ∨ c = 'T' ∨ c = '1' ∨ c = 'y' ∨ c = 'Y' then .ok true
  else if c = 'f' ∨ c = 'F' ∨ c = '0' ∨ c = 'n' ∨ c = 'N' then .ok false
  else .err ()

/-- `v_parse_i128` and `v_parse_u128`: `boolean/mod.rs` L192-208. The narrower entry points are the defaults of
`ValidateSignedInteger` / `ValidateUnsignedInteger`, which widen the number without changing it. -/
def parseInt (i : Int) : Out Unit Bool :=
  if i = 1 then .ok true else if i = 0 then .ok false else .err ()

/-- `v_parse_bool`: `boolean/mod.rs` L211-213. -/
def parseBool (b : Bool) : Out Unit Bool := .ok b

end Verif.Boolean
