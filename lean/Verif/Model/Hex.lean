import Verif.Model.Slice

/-!
# What the `mac_address` and `uuid` handlers share: hexadecimal digits
-/

namespace Verif.Hex

/-- The errors of `MacAddressError` (`validators/src/errors/mac_address.rs`) and `UuidError`
(`validators/src/errors/uuid.rs`). -/
inductive HexError where
  | invalid
  | separatorMust
  | separatorDisallow
  deriving DecidableEq, Repr

/-- The match on one digit in `handle_decode`: `mac_address/mod.rs` L135-192, `uuid/mod.rs` L123-180.
The subtractions are on `u8` and cannot wrap in their arm. -/
def digit (case : CaseOption) (e : UInt8) : Option Nat :=
  match case with
  | .any =>
    if inRange '0' '9' e then some (e.toNat - 48)
    else if inRange 'a' 'f' e then some (e.toNat - (97 - 10))
    else if inRange 'A' 'F' e then some (e.toNat - (65 - 10))
    else none
  | .upper =>
    if inRange '0' '9' e then some (e.toNat - 48)
    else if inRange 'A' 'F' e then some (e.toNat - (65 - 10))
    else none
  | .lower =>
    if inRange '0' '9' e then some (e.toNat - 48)
    else if inRange 'a' 'f' e then some (e.toNat - (97 - 10))
    else none

/-- The loop of `handle_decode` (same lines): `x <<= 4; x |= digit`, in a register of `2 ^ width`
values (`u64` or `u128`; `<<` drops the bits that leave the register). -/
def decode (case : CaseOption) (width : Nat) : Nat → List UInt8 → Out HexError Nat
  | acc, [] => .ok acc
  | acc, e :: rest =>
    let acc := (acc <<< 4) % 2 ^ width
    match digit case e with
    | some d => decode case width (acc ||| d) rest
    | none => .err .invalid

/-- The match of `handle_check`: `mac_address/mod.rs` L194-227, `uuid/mod.rs` L182-215. -/
def isDigit (case : CaseOption) (e : UInt8) : Bool :=
  match case with
  | .any => inRange '0' '9' e || inRange 'a' 'f' e || inRange 'A' 'F' e
  | .upper => inRange '0' '9' e || inRange 'A' 'F' e
  | .lower => inRange '0' '9' e || inRange 'a' 'f' e

/-- The loop of `handle_check` (same lines). -/
def checkDigits (case : CaseOption) : List UInt8 → Out HexError Unit
  | [] => .ok ()
  | e :: rest => if isDigit case e then checkDigits case rest else .err .invalid

/-- One group of the `Allow` scanner: take `bytes[lo - c..hi - c]`, look at the byte after it and count a
missing separator. `mac_address/mod.rs` L67-92, `uuid/mod.rs` L66-84. -/
def group (sep : UInt8) (bytes : List UInt8) (lo hi c : Nat) : Out HexError (List UInt8 × Nat) := do
  let g ← slice bytes (lo - c) (hi - c)
  let b ← idx bytes (hi - c)
  return (g, if b ≠ sep then c + 1 else c)

/-! ## Printing -/

/-- A digit of `{:X}` / `{:x}`. -/
def hexChar (upper : Bool) (d : Nat) : UInt8 :=
  if d < 10 then (48 + d).toUInt8 else if upper then (55 + d).toUInt8 else (87 + d).toUInt8

/-- Digits in base `base`, least significant first, without leading zeros; at most `fuel` digits.
Formatting of `u8`, `u64` and `u128` never needs more than 3, 16 and 32 digits. -/
def revDigits (base : Nat) : Nat → Nat → List Nat
  | 0, _ => []
  | fuel + 1, n => if n < base then [n] else n % base :: revDigits base fuel (n / base)

/-- `format!("{:0width X}", n)` for `n` below `16 ^ 32`. -/
def fmtHex (upper : Bool) (width n : Nat) : List UInt8 :=
  let ds := (revDigits 16 32 n).reverse.map (hexChar upper)
  List.replicate (width - ds.length) 48 ++ ds

/-- `format!("{}", b)` for a `u8`: decimal. -/
def fmtU8 (b : UInt8) : List UInt8 := (revDigits 10 3 b.toNat).reverse.map fun d => (48 + d).toUInt8

/-- `n.to_le_bytes()[i]`. -/
def leByte (n i : Nat) : Nat := n / 256 ^ i % 256

/-- `case.upper()`: `common/case_option.rs` L23-29. -/
def caseUpper : CaseOption → Bool
  | .any => true
  | .upper => true
  | .lower => false

/-- `separator.allow()`: `common/separator_option.rs` L14-19. -/
def sepAllow : SeparatorOption → Option UInt8
  | .must c => some c
  | .allow c => some c
  | .disallow => none

end Verif.Hex
