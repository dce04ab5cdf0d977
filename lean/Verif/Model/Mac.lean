import Verif.Model.Hex

/-! # Model of the `mac_address` validator -/

namespace Verif.Mac

open Verif.Hex

/-- `handle_iter`: `mac_address/mod.rs` L49-133; the bytes of the digits. -/
def digits (sep : SeparatorOption) (bytes : List UInt8) : Out HexError (List UInt8) :=
  let length := bytes.length
  match sep with
  | .allow sep =>
    if ¬ (12 ≤ length ∧ length ≤ 17) then .err .invalid
    else do
      let first ← slice bytes 0 2
      let b ← idx bytes 2
      let c := if b ≠ sep then 1 else 0
      let (second, c) ← group sep bytes 3 5 c
      let (third, c) ← group sep bytes 6 8 c
      let (forth, c) ← group sep bytes 9 11 c
      let (fifth, c) ← group sep bytes 12 14 c
      let sixth ← sliceFrom bytes (15 - c)
      if sixth.length ≠ 2 then .err .invalid
      else return first ++ second ++ third ++ forth ++ fifth ++ sixth
  | .must sep =>
    if length ≠ 17 then .err .separatorMust
    else do
      let b2 ← idx bytes 2
      let b5 ← idx bytes 5
      let b8 ← idx bytes 8
      let b11 ← idx bytes 11
      let b14 ← idx bytes 14
      if b2 ≠ sep ∨ b5 ≠ sep ∨ b8 ≠ sep ∨ b11 ≠ sep ∨ b14 ≠ sep then .err .invalid
      else
        let first ← slice bytes 0 2
        let second ← slice bytes 3 5
        let third ← slice bytes 6 8
        let forth ← slice bytes 9 11
        let fifth ← slice bytes 12 14
        let sixth ← sliceFrom bytes 15
        return first ++ second ++ third ++ forth ++ fifth ++ sixth
  | .disallow => if length ≠ 12 then .err .separatorDisallow else .ok bytes

/-- `parse_string` / `parse_str`: `mac_address/mod.rs` L231-244, L264-273. -/
def parseStr (sep : SeparatorOption) (case : CaseOption) (bytes : List UInt8) : Out HexError Nat := do
  let ds ← digits sep bytes
  decode case 64 0 ds

/-- `validate_str`: `mac_address/mod.rs` L246-257, L275-280. -/
def validateStr (sep : SeparatorOption) (case : CaseOption) (bytes : List UInt8) : Out HexError Unit := do
  let ds ← digits sep bytes
  checkDigits case ds

/-- `to_mac_address_string`: `mac_address/mod.rs` L284-332. The named argument `separator` is a `u8`, which
`{separator}` prints as a decimal number. -/
def toMacAddressString (sep : SeparatorOption) (case : CaseOption) (n : Nat) : List UInt8 :=
  let up := caseUpper case
  match sepAllow sep with
  | some s =>
    fmtHex up 2 (leByte n 5) ++ fmtU8 s ++ fmtHex up 2 (leByte n 4) ++ fmtU8 s ++ fmtHex up 2 (leByte n 3) ++ fmtU8 s ++
      fmtHex up 2 (leByte n 2) ++ fmtU8 s ++ fmtHex up 2 (leByte n 1) ++ fmtU8 s ++ fmtHex up 2 (leByte n 0)
  | none => fmtHex up 12 n

end Verif.Mac
