import Verif.Model.Range

/-!
# The `number`, `bit`, `byte` and `length` handlers
-/

namespace Verif.Number

open Verif.Range

/-- A float: `none` is NaN, `some a` any other value (with `-0.0` and `0.0` identified, and the infinities as least and
greatest elements), compared by a linear order on `α`. -/
abbrev Fl (α : Type) := Option α

/-- `PartialOrd::partial_cmp` of a float type. -/
def fcmp {α : Type} [Ord α] : Fl α → Fl α → Option Ordering
  | some a, some b => some (compare a b)
  | _, _ => none

/-- `RangedNumber` of a float type: `common/range.rs` L38-51. `inc` is never called for floats. -/
def fnum {α : Type} [Ord α] : Num (Fl α) where
  isFloat := true
  inc _ := none
  eq a b := fcmp a b == some .eq

/-- `NumberError`: `validators/src/errors/number.rs`. -/
inductive NumberError where
  | parseFloat
  | range (e : RangeError)
  | nanMust
  | nanDisallow
  deriving DecidableEq, Repr

variable {α : Type} [Ord α]

/-- `handle_nan`: `number/mod.rs` L191-209. -/
def checkNan (nan : TriAllow) (f : Fl α) : Out NumberError Unit :=
  match nan with
  | .allow => .ok ()
  | .must => if f.isNone then .ok () else .err .nanMust
  | .disallow => if f.isNone then .err .nanDisallow else .ok ()

/-- `v_parse_f`: `number/mod.rs` L223-229: the range check, then the NaN check. `chk` is the compiled range check. -/
def parseF (chk : Fl α → Out RangeError Unit) (nan : TriAllow) (f : Fl α) : Out NumberError (Fl α) :=
  match chk f with
  | .err e => .err (.range e)
  | .panic => .panic
  | .ok () => (checkNan nan f).map fun _ => f

/-- The compiled range check. -/
def check (r : RangeOption (Fl α)) : Option (Fl α → Out RangeError Unit) := compile fcmp .f (numberCode fnum r)

/-- `v_parse_str`: `number/mod.rs` L213-221. `fromStr` is the float type's `FromStr`. -/
def parseStr (fromStr : List UInt8 → Option (Fl α)) (chk : Fl α → Out RangeError Unit) (nan : TriAllow)
    (s : List UInt8) : Out NumberError (Fl α) :=
  match fromStr s with
  | none => .err .parseFloat
  | some f => parseF chk nan f

/-- `parse_f64` of a validator over `f32`: `number/mod.rs` L283-286. `toF32` is `f as f32`. -/
def parseF64viaF32 {β : Type} (toF32 : Fl β → Fl α) (chk : Fl α → Out RangeError Unit) (nan : TriAllow) (f : Fl β) :
    Out NumberError (Fl α) := parseF chk nan (toF32 f)

/-- `parse_f32` of a validator over `f64`: the default of `validators/src/traits/validate_number.rs` L9-12. `toF64` is
`f as f64`. -/
def parseF32viaF64 {β : Type} (toF64 : Fl β → Fl α) (chk : Fl α → Out RangeError Unit) (nan : TriAllow) (f : Fl β) :
    Out NumberError (Fl α) := parseF chk nan (toF64 f)

end Verif.Number

namespace Verif.Size

open Verif.Range

/-- Comparison of a size with a bound: `byte_unit` compares the number of bytes (bits) with the integer. -/
def ncmp (a b : Nat) : Option Ordering := some (compare a b)

/-- `RangedNumber` of `u128`, the type of the bounds (`byte_attribute.rs` L12). -/
def u128 : Num Nat where
  isFloat := false
  inc x := if x + 1 < 2 ^ 128 then some (x + 1) else none
  eq a b := a == b

/-- `v_parse_v`: `byte/mod.rs` L107-111, `bit/mod.rs` L103-107. -/
def check (b : Bounds Nat) : Option (Nat → Out RangeError Unit) := compile ncmp .v (sizeCode u128 b)

/-- `ByteError` / `BitError`: `validators/src/errors/{byte,bit}.rs`. -/
inductive SizeError where
  | parse
  | range (e : RangeError)
  deriving DecidableEq, Repr

/-- Run the check and keep the value. -/
def parseV (chk : Nat → Out RangeError Unit) (v : Nat) : Out SizeError Nat :=
  match chk v with
  | .ok () => .ok v
  | .err e => .err (.range e)
  | .panic => .panic

/-- `v_parse_str`: `byte/mod.rs` L99-105, `bit/mod.rs` L95-101. `lib` is `Byte::parse_str` / `Bit::parse_str`. -/
def parseStr (lib : List UInt8 → Option Nat) (chk : Nat → Out RangeError Unit) (s : List UInt8) : Out SizeError Nat :=
  match lib s with
  | none => .err .parse
  | some v => parseV chk v

/-- `parse_u128`: `byte/mod.rs` L142-149. `maxSize` is the largest size the library can hold. -/
def parseU128 (maxSize : Nat) (chk : Nat → Out RangeError Unit) (u : Nat) : Out SizeError Nat :=
  if u ≤ maxSize then parseV chk u else .err (.range .tooLarge)

/-- `parse_u64`: `byte/mod.rs` L161-167. Every `u64` is a size. The narrower entry points widen to `u64`. -/
def parseU64 (chk : Nat → Out RangeError Unit) (u : Nat) : Out SizeError Nat := parseV chk u

end Verif.Size

namespace Verif.Length

open Verif.Range

variable {κ : Type}

/-- `parse_collection`: `length/mod.rs` L142-148. `len` is `CollectionLength::len`. -/
def parseCollection (chk : Nat → Out RangeError Unit) (len : κ → Nat) (v : κ) : Out RangeError κ :=
  match chk (len v) with
  | .ok () => .ok v
  | .err e => .err e
  | .panic => .panic

/-- `validate_collection`: `length/mod.rs` L150-156. -/
def validateCollection (chk : Nat → Out RangeError Unit) (len : κ → Nat) (v : κ) : Out RangeError Unit :=
  match chk (len v) with
  | .ok () => .ok ()
  | .err e => .err e
  | .panic => .panic

/-- The macro's own check of the bounds: `length_attribute.rs` L96-101. `true` when the configuration is accepted. -/
def accepts (min max : Option Nat) : Bool :=
  match min, max with
  | some a, some b => decide (a ≤ b)
  | _, _ => true

end Verif.Length
