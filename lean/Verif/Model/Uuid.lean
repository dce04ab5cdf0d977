import Verif.Model.Hex

/-! # Model of the `uuid` validator -/

namespace Verif.Uuid

open Verif.Hex

/-- `handle_iter`: `uuid/mod.rs` L48-121; the bytes of the digits. -/
def digits (sep : SeparatorOption) (bytes : List UInt8) : Out HexError (List UInt8) :=
  let length := bytes.length
  match sep with
  | .allow sep =>
    if ¬ (32 ≤ length ∧ length ≤ 36) then .err .invalid
    else do
      let timeLow ← slice bytes 0 8
      let b ← idx bytes 8
      let c := if b ≠ sep then 1 else 0
      let (timeMid, c) ← group sep bytes 9 13 c
      let (timeHigh, c) ← group sep bytes 14 18 c
      let (clockSeq, c) ← group sep bytes 19 23 c
      let node ← sliceFrom bytes (24 - c)
      if node.length ≠ 12 then .err .invalid
      else return timeLow ++ timeMid ++ timeHigh ++ clockSeq ++ node
  | .must sep =>
    if length ≠ 36 then .err .separatorMust
    else do
      let b8 ← idx bytes 8
      let b13 ← idx bytes 13
      let b18 ← idx bytes 18
      let b23 ← idx bytes 23
      if b8 ≠ sep ∨ b13 ≠ sep ∨ b18 ≠ sep ∨ b23 ≠ sep then .err .invalid
      else
        let timeLow ← slice bytes 0 8
        let timeMid ← slice bytes 9 13
        let timeHigh ← slice bytes 14 18
        let clockSeq ← slice bytes 19 23
        let node ← sliceFrom bytes 24
        return timeLow ++ timeMid ++ timeHigh ++ clockSeq ++ node
  | .disallow => if length ≠ 32 then .err .separatorDisallow else .ok bytes

/-- `parse_string` / `parse_str`: `uuid/mod.rs` L219-232, L252-261. -/
def parseStr (sep : SeparatorOption) (case : CaseOption) (bytes : List UInt8) : Out HexError Nat := do
  let ds ← digits sep bytes
  decode case 128 0 ds

/-- `validate_str`: `uuid/mod.rs` L234-245, L263-268. -/
def validateStr (sep : SeparatorOption) (case : CaseOption) (bytes : List UInt8) : Out HexError Unit := do
  let ds ← digits sep bytes
  checkDigits case ds

/-- `to_uuid_string`: `uuid/mod.rs` L272-350. The named argument `separator` is a `u8`, which
`{separator}` prints as a decimal number. -/
def toUuidString (sep : SeparatorOption) (case : CaseOption) (n : Nat) : List UInt8 :=
  let up := caseUpper case
  let x i := fmtHex up 2 (leByte n i)
  match sepAllow sep with
  | some s =>
    x 15 ++ x 14 ++ x 13 ++ x 12 ++ fmtU8 s ++ x 11 ++ x 10 ++ fmtU8 s ++ x 9 ++ x 8 ++ fmtU8 s ++ x 7 ++ x 6 ++ fmtU8 s ++
      x 5 ++ x 4 ++ x 3 ++ x 2 ++ x 1 ++ x 0
  | none => fmtHex up 32 n

end Verif.Uuid
