import Verif.Model.Basic

/-!
# Specification of hexadecimal texts with separators
-/

namespace Verif.Spec.Hex

/-- What may stand between two groups of digits. -/
def Between : SeparatorOption → List UInt8 → Prop
  | .must sep, s => s = [sep]
  | .disallow, s => s = []
  | .allow sep, s => s = [] ∨ s = [sep]

/-- `text` is the digits `ds` cut in groups of the given sizes, with something allowed between two groups. -/
def Grouped (sep : SeparatorOption) : List Nat → List UInt8 → List UInt8 → Prop
  | [], ds, text => ds = [] ∧ text = []
  | [n], ds, text => ds.length = n ∧ text = ds
  | n :: ns, ds, text => ∃ g ds' s text', g.length = n ∧ ds = g ++ ds' ∧ text = g ++ s ++ text' ∧ Between sep s ∧
      Grouped sep ns ds' text'

/-- Hexadecimal digits allowed by the case option. -/
def symbols : CaseOption → List UInt8
  | .any => ascii "0123456789abcdefABCDEF"
  | .upper => ascii "0123456789ABCDEF"
  | .lower => ascii "0123456789abcdef"

/-- The value of a hexadecimal digit: its place in `0123456789abcdef` or in `0123456789ABCDEF`. -/
def digitValue (b : UInt8) : Nat :=
  if b ∈ ascii "0123456789abcdef" then (ascii "0123456789abcdef").idxOf b else (ascii "0123456789ABCDEF").idxOf b

/-- A letter in lower case. -/
def lowered (b : UInt8) : UInt8 := if b ∈ ascii "ABCDEF" then b + 32 else b

/-- The number written by hexadecimal digits, most significant first. -/
def value : List UInt8 → Nat
  | [] => 0
  | b :: ds => digitValue b * 16 ^ ds.length + value ds

/-- The text of a value: an accepted grouping of digits of the right case that denotes `n`. -/
def Denotes (sep : SeparatorOption) (case : CaseOption) (sizes : List Nat) (text : List UInt8) (n : Nat) : Prop :=
  ∃ ds, Grouped sep sizes ds text ∧ (∀ b ∈ ds, b ∈ symbols case) ∧ value ds = n

/-- Sizes of the groups of a MAC address and of a UUID. -/
def macSizes : List Nat := [2, 2, 2, 2, 2, 2]
def uuidSizes : List Nat := [8, 4, 4, 4, 12]

/-! An optional separator may itself be a digit. Then a text may be grouped in several ways, and the one that is meant takes such a
byte after a group as the separator. -/

/-- What stands between two groups, before `rest`. -/
def Taken : SeparatorOption → List UInt8 → List UInt8 → Prop
  | .must sep, s, _ => s = [sep]
  | .disallow, s, _ => s = []
  | .allow sep, s, rest => s = [sep] ∨ s = [] ∧ rest.head? ≠ some sep

/-- `text` is the digits `ds` cut in groups of the given sizes. -/
def Cut (sep : SeparatorOption) : List Nat → List UInt8 → List UInt8 → Prop
  | [], ds, text => ds = [] ∧ text = []
  | [n], ds, text => ds.length = n ∧ text = ds
  | n :: ns, ds, text => ∃ g ds' s text', g.length = n ∧ ds = g ++ ds' ∧ text = g ++ s ++ text' ∧ Taken sep s text' ∧ Cut sep ns ds' text'

/-- The value that a text is read as. -/
def Reads (sep : SeparatorOption) (case : CaseOption) (sizes : List Nat) (text : List UInt8) (n : Nat) : Prop :=
  ∃ ds, Cut sep sizes ds text ∧ (∀ b ∈ ds, b ∈ symbols case) ∧ value ds = n

/-- `text` starts with `n` pairs of bytes, a separator after a pair being taken as one, and `rest` is left. -/
def Pairs (sep : SeparatorOption) : Nat → List UInt8 → List UInt8 → Prop
  | 0, text, rest => text = rest
  | n + 1, text, rest => ∃ g s text', g.length = 2 ∧ text = g ++ s ++ text' ∧ Taken sep s text' ∧ Pairs sep n text' rest

end Verif.Spec.Hex
