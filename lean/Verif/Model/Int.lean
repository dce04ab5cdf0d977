import Verif.Model.Range

/-!
# The `signed_integer` and `unsigned_integer` handlers
-/

namespace Verif.IntV

open Verif.Range

/-- The widths of Rust's integer types. -/
inductive Width where
  | w8
  | w16
  | w32
  | w64
  | w128
  | size
  deriving DecidableEq, Repr

/-- `target_pointer_width`. -/
inductive Ptr where
  | p16
  | p32
  | p64
  deriving DecidableEq, Repr

/-- Number of bits of a width. -/
def bits (ptr : Ptr) : Width → Nat
  | .w8 => 8
  | .w16 => 16
  | .w32 => 32
  | .w64 => 64
  | .w128 => 128
  | .size =>
    match ptr with
    | .p16 => 16
    | .p32 => 32
    | .p64 => 64

/-- `T::MIN`. -/
def minOf (signed : Bool) (bits : Nat) : Int := if signed then -2 ^ (bits - 1) else 0

/-- `T::MAX`. -/
def maxOf (signed : Bool) (bits : Nat) : Int := if signed then 2 ^ (bits - 1) - 1 else 2 ^ bits - 1

/-- `x as T`: reduce modulo `2 ^ bits` into the values of `T`. -/
def castTo (signed : Bool) (bits : Nat) (x : Int) : Int :=
  if signed then (x + 2 ^ (bits - 1)) % 2 ^ bits - 2 ^ (bits - 1) else x % 2 ^ bits

/-- `RangedNumber` of an integer type: `common/range.rs` L23-36. -/
def num (signed : Bool) (bits : Nat) : Num Int where
  isFloat := false
  inc x := if x + 1 ≤ maxOf signed bits then some (x + 1) else none
  eq a b := a == b

/-- Comparison of integers: total. -/
def icmp (a b : Int) : Option Ordering := some (compare a b)

/-- `v_parse_i` / `v_parse_u` of the validator with the given target width and range, if it compiles:
`signed_integer/mod.rs` L204-208, `unsigned_integer/mod.rs` L204-208. -/
def check (ptr : Ptr) (signed : Bool) (w : Width) (r : RangeOption Int) : Option (Int → Out RangeError Unit) :=
  if signed then compile icmp .i (signedCode (num true (bits ptr w)) r)
  else compile icmp .u (unsignedCode (num false (bits ptr w)) r)

/-! ## Text -/

/-- `core::num::IntErrorKind`. -/
inductive ParseIntError where
  | empty
  | invalidDigit
  | posOverflow
  | negOverflow
  deriving DecidableEq, Repr

/-- `SignedIntegerError` / `UnsignedIntegerError`: `validators/src/errors/{signed,unsigned}_integer.rs`. -/
inductive IntError where
  | parseInt (e : ParseIntError)
  | range (e : RangeError)
  deriving DecidableEq, Repr

/-- `(b as char).to_digit(10)`. -/
def decDigit (b : UInt8) : Option Nat := if inRange '0' '9' b then some (b.toNat - 48) else none

/-- The loop of `from_str_radix` for a non-negative number: `checked_mul(10)`, digit, `checked_add`. -/
def digitsPos (max : Int) : Int → List UInt8 → Except ParseIntError Int
  | acc, [] => .ok acc
  | acc, b :: rest =>
    match decDigit b with
    | none => .error .invalidDigit
    | some d =>
      if acc * 10 > max then .error .posOverflow
      else if acc * 10 + d > max then .error .posOverflow
      else digitsPos max (acc * 10 + d) rest

/-- The loop of `from_str_radix` for a negative number: `checked_mul(10)`, digit, `checked_sub`. -/
def digitsNeg (min : Int) : Int → List UInt8 → Except ParseIntError Int
  | acc, [] => .ok acc
  | acc, b :: rest =>
    match decDigit b with
    | none => .error .invalidDigit
    | some d =>
      if acc * 10 < min then .error .negOverflow
      else if acc * 10 - d < min then .error .negOverflow
      else digitsNeg min (acc * 10 - d) rest

/-- `<T as FromStr>::from_str` of an integer type (`core::num`, `from_str_radix` with radix 10): a lone sign is an invalid
digit; `-` is a sign only for signed types, otherwise it is an invalid digit. -/
def fromStr (signed : Bool) (bits : Nat) (s : List UInt8) : Except ParseIntError Int :=
  match s with
  | [] => .error .empty
  | b :: rest =>
    if (b = asc '+' ∨ b = asc '-') ∧ rest = [] then .error .invalidDigit
    else if b = asc '+' then digitsPos (maxOf signed bits) 0 rest
    else if b = asc '-' ∧ signed = true then digitsNeg (minOf signed bits) 0 rest
    else digitsPos (maxOf signed bits) 0 (b :: rest)

/-- `v_parse_str`, hence `parse_string` and `parse_str`: `signed_integer/mod.rs` L194-202, L213-225;
`unsigned_integer/mod.rs` the same lines. `chk` is the compiled check. -/
def parseStr (chk : Int → Out RangeError Unit) (signed : Bool) (bits : Nat) (s : List UInt8) : Out IntError Int :=
  match fromStr signed bits s with
  | .error e => .err (.parseInt e)
  | .ok i =>
    match chk i with
    | .ok () => .ok i
    | .err e => .err (.range e)
    | .panic => .panic

/-- `validate_str`: `signed_integer/mod.rs` L227-231. -/
def validateStr (chk : Int → Out RangeError Unit) (signed : Bool) (bits : Nat) (s : List UInt8) : Out IntError Unit :=
  (parseStr chk signed bits s).void

/-- Decimal digits of a natural number, least significant first. -/
def revDec : Nat → Nat → List Nat
  | 0, _ => []
  | fuel + 1, n => if n < 10 then [n] else n % 10 :: revDec fuel (n / 10)

/-- `Display` of an unsigned number: decimal digits without leading zeros. The fuel only makes the recursion structural:
`n + 1` digits are always enough. -/
def showNat (n : Nat) : List UInt8 := (revDec (n + 1) n).reverse.map fun d => (48 + d).toUInt8

/-- `Display` of an integer. -/
def showInt (i : Int) : List UInt8 := if i < 0 then asc '-' :: showNat i.natAbs else showNat i.natAbs

/-! ## Entry points of each width

`own` is the entry point of the target type itself: `Self::v_parse_i(i)?; Ok(Self(i))` for `parse_*` and
`Self::v_parse_i(i)?; Ok(())` for `validate_*`. Both families have the same chain of conversions. -/

/-- `parse_iN` / `parse_uN` of the target type itself: `signed_integer/mod.rs` L242-246, L285-289, L328-332, L371-375,
L414-418, L459-463; `unsigned_integer/mod.rs` L242-246, L281-285, ... -/
def ownParse (chk : Int → Out RangeError Unit) (x : Int) : Out RangeError Int := (chk x).bind fun _ => .ok x

/-- `validate_iN` / `validate_uN` of the target type itself: `signed_integer/mod.rs` L249-253, L292-296, ... -/
def ownValidate (chk : Int → Out RangeError Unit) (x : Int) : Out RangeError Unit := (chk x).bind fun _ => .ok ()

variable {β : Type}

/-- `parse_i128` (`parse_u128`): for a narrower target, test the limits of the target, cast, go on with the target's own
entry point. `signed_integer/mod.rs` L242-246, L262-271, L305-314, L348-357, L391-400, L434-444; `unsigned_integer/mod.rs`
L242-246, L263-269, ...: no lower test. `validate_i128`: L249-253, L274-282, ... -/
def entry128 (own : Int → Out RangeError β) (ptr : Ptr) (signed : Bool) (target : Width) (x : Int) :
    Out RangeError β :=
  if target = .w128 then own x
  else if x > maxOf signed (bits ptr target) then .err .tooLarge
  else if signed = true ∧ x < minOf signed (bits ptr target) then .err .tooSmall
  else own (castTo signed (bits ptr target) x)

/-- `parse_i64`: own for a 64-bit target, `parse_isize(i as isize)` for a pointer-sized target of 64 bits
(`signed_integer/mod.rs` L482-485), else the default `parse_i128(i as i128)`
(`validators/src/traits/validate_signed_integer.rs` L27-30, `validate_unsigned_integer.rs` L27-30; `validate_i64`:
L65-68). -/
def entry64 (own : Int → Out RangeError β) (ptr : Ptr) (signed : Bool) (target : Width) (x : Int) :
    Out RangeError β :=
  if target = .w64 then own x
  else if target = .size ∧ ptr = .p64 then own (castTo signed (bits ptr .size) x)
  else entry128 own ptr signed target (castTo signed 128 x)

/-- `parse_i32`: as above; default `parse_i64(i as i64)` (L32-35, L70-73). -/
def entry32 (own : Int → Out RangeError β) (ptr : Ptr) (signed : Bool) (target : Width) (x : Int) :
    Out RangeError β :=
  if target = .w32 then own x
  else if target = .size ∧ ptr = .p32 then own (castTo signed (bits ptr .size) x)
  else entry64 own ptr signed target (castTo signed 64 x)

/-- `parse_i16`: as above; default `parse_i32(i as i32)` (L37-40, L75-78). -/
def entry16 (own : Int → Out RangeError β) (ptr : Ptr) (signed : Bool) (target : Width) (x : Int) :
    Out RangeError β :=
  if target = .w16 then own x
  else if target = .size ∧ ptr = .p16 then own (castTo signed (bits ptr .size) x)
  else entry32 own ptr signed target (castTo signed 32 x)

/-- `parse_i8`: default `parse_i16(i as i16)` (L42-45, L80-83). -/
def entry8 (own : Int → Out RangeError β) (ptr : Ptr) (signed : Bool) (target : Width) (x : Int) :
    Out RangeError β :=
  if target = .w8 then own x
  else entry16 own ptr signed target (castTo signed 16 x)

/-- `parse_isize`: own for a pointer-sized target, else the default for the pointer width (L9-25, L47-63). -/
def entrySize (own : Int → Out RangeError β) (ptr : Ptr) (signed : Bool) (target : Width) (x : Int) :
    Out RangeError β :=
  if target = .size then own x
  else
    match ptr with
    | .p64 => entry64 own ptr signed target (castTo signed 64 x)
    | .p32 => entry32 own ptr signed target (castTo signed 32 x)
    | .p16 => entry16 own ptr signed target (castTo signed 16 x)

/-- The entry point of width `w`. -/
def entry (own : Int → Out RangeError β) (ptr : Ptr) (signed : Bool) (target w : Width) (x : Int) :
    Out RangeError β :=
  match w with
  | .w8 => entry8 own ptr signed target x
  | .w16 => entry16 own ptr signed target x
  | .w32 => entry32 own ptr signed target x
  | .w64 => entry64 own ptr signed target x
  | .w128 => entry128 own ptr signed target x
  | .size => entrySize own ptr signed target x

/-- `parse_i8`, ..., `parse_i128`, `parse_isize` (or `parse_u8`, ...). -/
def parseW (chk : Int → Out RangeError Unit) : (ptr : Ptr) → (signed : Bool) → (target w : Width) → (x : Int) →
    Out RangeError Int := entry (ownParse chk)

/-- `validate_i8`, ..., `validate_i128`, `validate_isize` (or `validate_u8`, ...). -/
def validateW (chk : Int → Out RangeError Unit) : (ptr : Ptr) → (signed : Bool) → (target w : Width) → (x : Int) →
    Out RangeError Unit := entry (ownValidate chk)

end Verif.IntV
