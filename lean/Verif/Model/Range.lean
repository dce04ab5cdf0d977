import Verif.Model.Basic

/-!
# Range checks: the code the derive macro generates, and what that code does

The handlers of `signed_integer`, `unsigned_integer`, `number`, `bit`, `byte` and `length` generate a few
statements from the configured bounds. Here the macro is a function from bounds to statements (`Stmt`), the
statements have scoping (`closed`) and a meaning (`run`).
-/

namespace Verif.Range

/-- The names that occur in the generated checks. -/
inductive Name where
  | i
  | u
  | f
  | v
  | length
  deriving DecidableEq, Repr

/-- The errors a range check can return. `TooLarge`, `TooSmall` and `Forbidden` of
`validators/src/errors/{signed_integer,unsigned_integer,number,bit,byte,length}.rs`. -/
inductive RangeError where
  | tooSmall
  | tooLarge
  | forbidden
  deriving DecidableEq, Repr

/-- Comparison operators of the generated conditions. -/
inductive CmpOp where
  | lt
  | le
  | gt
  | ge
  | eq
  deriving DecidableEq, Repr

/-- The operator chosen by `if *inclusive { x > max } else { x >= max }`: `signed_integer/mod.rs` L108-120 and the same
lines of the other handlers. -/
def beyond (inclusive : Bool) : CmpOp := if inclusive then .gt else .ge

/-- The operator of `x <= max` / `x < max`: `signed_integer/mod.rs` L166-180; also the upper test of
`(lo..=hi).contains` / `(lo..hi).contains`. -/
def upTo (inclusive : Bool) : CmpOp := if inclusive then .le else .lt

/-- Conditions of the generated `if`s: `x op c`, or `(lo..=hi).contains(&x)` / `(lo..hi).contains(&x)`. -/
inductive Cond (α : Type) where
  | cmp (x : Name) (op : CmpOp) (c : α)
  | within (lo hi : α) (inclusive : Bool) (x : Name)
  deriving DecidableEq, Repr

/-- Statements of the generated checks. -/
inductive Stmt (α : Type) where
  /-- `let length = CollectionLength::len(v);` -/
  | bindLen
  /-- `if c { return Err(e); }` -/
  | failIf (c : Cond α) (e : RangeError)
  /-- `match cmp(&x, &c)`: `Equal` goes on, `Less` is `TooSmall`, `Greater` is `TooLarge`; with `partial_cmp` the
  missing ordering either goes on or is `unreachable!()`. -/
  | matchCmp (x : Name) (c : α) (noneGoesOn : Bool)
  deriving DecidableEq, Repr

/-! ## Scoping and meaning -/

variable {α : Type}

/-- The name used by a condition. -/
def Cond.name : Cond α → Name
  | .cmp x _ _ => x
  | .within _ _ _ x => x

/-- Rust's name resolution: every name is bound by a parameter in `scope` or by an earlier `let`. A program that is not
closed is rejected by the compiler (error E0425). -/
def closed : List Name → List (Stmt α) → Bool
  | _, [] => true
  | scope, .bindLen :: rest => scope.contains .v && closed (.length :: scope) rest
  | scope, .failIf c _ :: rest => scope.contains c.name && closed scope rest
  | scope, .matchCmp x _ _ :: rest => scope.contains x && closed scope rest

/-- `PartialOrd`'s and `PartialEq`'s operators in terms of `partial_cmp` (their documented contract, which all the
number types involved satisfy; `core`). -/
def evalOp (o : Option Ordering) : CmpOp → Bool
  | .lt => o == some .lt
  | .le => o == some .lt || o == some .eq
  | .gt => o == some .gt
  | .ge => o == some .gt || o == some .eq
  | .eq => o == some .eq

/-- The meaning of a condition when the name has value `x`. `contains` is `lo <= x && x <= hi` or `lo <= x && x < hi`
(`core::ops::range`). -/
def evalCond (pcmp : α → α → Option Ordering) (x : α) : Cond α → Bool
  | .cmp _ op c => evalOp (pcmp x c) op
  | .within lo hi inclusive _ =>
    evalOp (pcmp lo x) .le && evalOp (pcmp x hi) (upTo inclusive)

/-- Run the statements. `env` holds the bound names; `len` is what `CollectionLength::len(v)` returns. Reading an unbound
name is not possible in a compiled program; it is a panic here. -/
def run (pcmp : α → α → Option Ordering) (len : Option α) : (Name → Option α) → List (Stmt α) → Out RangeError Unit
  | _, [] => .ok ()
  | env, .bindLen :: rest => run pcmp len (fun n => if n = .length then len else env n) rest
  | env, .failIf c e :: rest =>
    match env c.name with
    | none => .panic
    | some x => if evalCond pcmp x c then .err e else run pcmp len env rest
  | env, .matchCmp x c noneGoesOn :: rest =>
    match env x with
    | none => .panic
    | some a =>
      match pcmp a c with
      | some .eq => run pcmp len env rest
      | some .lt => .err .tooSmall
      | some .gt => .err .tooLarge
      | none => if noneGoesOn then run pcmp len env rest else .panic

/-! ## The macro side: bounds to statements -/

/-- `struct Range<T>`: `common/range.rs` L53-59. -/
structure Bounds (α : Type) where
  min : Option α
  max : Option α
  inclusive : Bool
  deriving DecidableEq, Repr

/-- `enum RangeOption<T>`: `common/range_option.rs` L10-17. -/
inductive RangeOption (α : Type) where
  | inside (b : Bounds α)
  | outside (b : Bounds α)
  | unlimited
  deriving DecidableEq, Repr

/-- What `RangedNumber` gives for a number type: `IS_FLOAT` and `inc` (`common/range.rs` L16-51); `inc` of an integer is
`checked_add(1)`. `eq` is the type's `==`. -/
structure Num (α : Type) where
  isFloat : Bool
  inc : α → Option α
  eq : α → α → Bool

/-- `range_equal`: `common/range.rs` L234-258. -/
def rangeEqual (num : Num α) (b : Bounds α) : Bool :=
  match b.min with
  | some min =>
    match b.max with
    | some max =>
      if b.inclusive then num.eq min max
      else if num.isFloat then false
      else
        match num.inc min with
        | some min => num.eq min max
        | none => false
    | none => false
  | none => false

/-- The `Inside` arm shared by the integer and number handlers and the whole check of `bit` and `byte`:
`signed_integer/mod.rs` L83-122, `unsigned_integer/mod.rs` L83-122, `number/mod.rs` L82-121, `byte/mod.rs` L47-91,
`bit/mod.rs` L45-89. In the `equal` arm `min` is always present (`range_equal` is false otherwise); without it nothing is
interpolated, which is not an expression, so that impossible case is given no statement. -/
def insideCode (num : Num α) (x : Name) (noneGoesOn : Bool) (b : Bounds α) : List (Stmt α) :=
  if rangeEqual num b then
    match b.min with
    | some min => [.matchCmp x min noneGoesOn]
    | none => []
  else
    (match b.min with
      | some min => [.failIf (.cmp x .lt min) .tooSmall]
      | none => []) ++
    (match b.max with
      | some max => [.failIf (.cmp x (beyond b.inclusive) max) .tooLarge]
      | none => [])

/-- The `Outside` arm: `signed_integer/mod.rs` L123-187, `unsigned_integer/mod.rs` L123-187, `number/mod.rs` L122-186.
`x` is the name used by the one-sided checks, `y` the one used by the two-sided check: in `unsigned_integer/mod.rs`
L145 and L151 they differ. -/
def outsideCode (num : Num α) (x y : Name) (b : Bounds α) : List (Stmt α) :=
  if rangeEqual num b then
    match b.min with
    | some min => [.failIf (.cmp x .eq min) .forbidden]
    | none => []
  else
    match b.min with
    | some min =>
      match b.max with
      | some max => [.failIf (.within min max b.inclusive y) .forbidden]
      | none => [.failIf (.cmp x .ge min) .forbidden]
    | none =>
      match b.max with
      | some max => [.failIf (.cmp x (upTo b.inclusive) max) .forbidden]
      | none => []

/-- `handle_range` of `signed_integer/mod.rs` L81-190. `Ord::cmp` always gives an ordering. -/
def signedCode (num : Num α) : RangeOption α → List (Stmt α)
  | .inside b => insideCode num .i false b
  | .outside b => outsideCode num .i .i b
  | .unlimited => []

/-- `handle_range` of `unsigned_integer/mod.rs` L81-190. The two-sided `Outside` check tests `i` (L145, L151). -/
def unsignedCode (num : Num α) : RangeOption α → List (Stmt α)
  | .inside b => insideCode num .u false b
  | .outside b => outsideCode num .u .i b
  | .unlimited => []

/-- `handle_range` of `number/mod.rs` L80-189. -/
def numberCode (num : Num α) : RangeOption α → List (Stmt α)
  | .inside b => insideCode num .f true b
  | .outside b => outsideCode num .f .f b
  | .unlimited => []

/-- `handle_range` of `byte/mod.rs` L47-91 and `bit/mod.rs` L45-89. -/
def sizeCode (num : Num α) (b : Bounds α) : List (Stmt α) := insideCode num .v false b

/-- `handle_range` of `length/mod.rs` L74-124. With `min == max` no `let length` is generated (L79-85). -/
def lengthCode (min max : Option Nat) : List (Stmt Nat) :=
  match min with
  | some min =>
    match max with
    | some max =>
      if min = max then [.matchCmp .length min false]
      else [.bindLen, .failIf (.cmp .length .lt min) .tooSmall, .failIf (.cmp .length .gt max) .tooLarge]
    | none => [.bindLen, .failIf (.cmp .length .lt min) .tooSmall]
  | none =>
    match max with
    | some max => [.bindLen, .failIf (.cmp .length .gt max) .tooLarge]
    | none => []

/-- Compile a one-parameter check: `fn v_parse_x(x: T) -> Result<(), E> { code; Ok(()) }`
(`signed_integer/mod.rs` L204-208, `unsigned_integer/mod.rs` L204-208, `number/mod.rs` L223-229, `byte/mod.rs` L107-111,
`bit/mod.rs` L103-107). `none` when the code is not closed, i.e. rustc rejects it. -/
def compile (pcmp : α → α → Option Ordering) (param : Name) (code : List (Stmt α)) : Option (α → Out RangeError Unit) :=
  if closed [param] code then
    some fun x => run pcmp none (fun n => if n = param then some x else none) code
  else none

/-- Compile the check of `length` (`length/mod.rs` L126-136): the parameter `v` is a collection, which is only ever
given to `CollectionLength::len`, so the compiled function is given the length of the collection. -/
def compileLength (code : List (Stmt Nat)) : Option (Nat → Out RangeError Unit) :=
  if closed [.v] code then
    some fun len => run (fun a b => some (compare a b)) (some len) (fun _ => none) code
  else none

end Verif.Range
