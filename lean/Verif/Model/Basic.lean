/-!
# Common vocabulary of the model

Nothing here depends on Mathlib.
-/

namespace Verif

/-- Outcome of a generated Rust function: `Ok`, `Err`, or a panic.
`panic` covers an index or slice out of range, a slice that splits a character, `unwrap` of
`None`, `unreachable!()` and overflow of checked arithmetic (debug builds).
Models `Result<T, E>` as used by every generated function, e.g.
`validators/src/traits/validate_string.rs`. -/
inductive Out (ε α : Type) where
  | ok (a : α)
  | err (e : ε)
  | panic
  deriving DecidableEq, Repr

namespace Out

variable {ε α β : Type}

/-- The `?` operator: continue on `Ok`, stop on `Err` or panic. -/
def bind (x : Out ε α) (f : α → Out ε β) : Out ε β :=
  match x with
  | ok a => f a
  | err e => err e
  | panic => panic

/-- `Result::map`. -/
def map (f : α → β) (x : Out ε α) : Out ε β :=
  match x with
  | ok a => ok (f a)
  | err e => err e
  | panic => panic

/-- Forget the value: what a `validate_*` function that runs the same parser returns. -/
def void (x : Out ε α) : Out ε Unit := x.map fun _ => ()

/-- `Result::is_ok` as a proposition. -/
def IsOk (x : Out ε α) : Prop := ∃ a, x = ok a

instance : Monad (Out ε) where
  pure := ok
  bind := bind

@[simp] theorem bind_ok (a : α) (f : α → Out ε β) : (ok a).bind f = f a := rfl
@[simp] theorem bind_err (e : ε) (f : α → Out ε β) : (err e : Out ε α).bind f = err e := rfl
@[simp] theorem bind_panic (f : α → Out ε β) : (panic : Out ε α).bind f = panic := rfl
@[simp] theorem bind_eq (x : Out ε α) (f : α → Out ε β) : (x >>= f) = x.bind f := rfl
@[simp] theorem pure_eq (a : α) : (pure a : Out ε α) = ok a := rfl
@[simp] theorem map_ok (f : α → β) (a : α) : (ok a : Out ε α).map f = ok (f a) := rfl
@[simp] theorem map_err (f : α → β) (e : ε) : (err e : Out ε α).map f = err e := rfl
@[simp] theorem map_panic (f : α → β) : (panic : Out ε α).map f = panic := rfl
@[simp] theorem isOk_ok (a : α) : (ok a : Out ε α).IsOk := ⟨a, rfl⟩
@[simp] theorem isOk_err (e : ε) : ¬ (err e : Out ε α).IsOk := fun ⟨_, h⟩ => by cases h
@[simp] theorem isOk_panic : ¬ (panic : Out ε α).IsOk := fun ⟨_, h⟩ => by cases h

instance (x : Out ε α) : Decidable x.IsOk :=
  match x with
  | ok a => isTrue (isOk_ok a)
  | err e => isFalse (isOk_err e)
  | panic => isFalse isOk_panic

end Out

/-- `validators-derive/src/common/tri_allow.rs` L7-12: the three-valued option. -/
inductive TriAllow where
  | allow
  | must
  | disallow
  deriving DecidableEq, Repr

/-- `validators-derive/src/common/allow.rs`: the two-valued option. -/
inductive Allow where
  | allow
  | disallow
  deriving DecidableEq, Repr

/-- `validators-derive/src/common/case_option.rs`. -/
inductive CaseOption where
  | any
  | upper
  | lower
  deriving DecidableEq, Repr

/-- `validators-derive/src/common/separator_option.rs`. The byte is the separator. -/
inductive SeparatorOption where
  | allow (sep : UInt8)
  | must (sep : UInt8)
  | disallow
  deriving DecidableEq, Repr

/-- The byte of an ASCII character: Rust's `b'x'`. -/
def asc (c : Char) : UInt8 := c.toNat.toUInt8

/-- Rust's pattern `b'a'..=b'z'`. -/
def inRange (lo hi : Char) (e : UInt8) : Bool := decide (lo.toNat ≤ e.toNat) && decide (e.toNat ≤ hi.toNat)

/-- The bytes of an ASCII literal: Rust's `b"..."`. -/
def ascii (s : String) : List UInt8 := s.toList.map asc

end Verif
