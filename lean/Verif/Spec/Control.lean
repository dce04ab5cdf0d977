import Verif.Spec.Generated

/-!
# Specification of control characters
-/

namespace Verif.Spec.Control

open Verif.Attr Verif.Derive

variable {φ κ : Type}

/-- A control character of ASCII. A byte of another UTF-8 character is none. -/
def Control (b : UInt8) : Prop := b.toNat < 0x20 ∨ b.toNat = 0x7F

/-- A printable character of ASCII, not a blank. -/
def Graphic (b : UInt8) : Prop := 0x21 ≤ b.toNat ∧ b.toNat ≤ 0x7E

instance (b : UInt8) : Decidable (Control b) := inferInstanceAs (Decidable (_ ∨ _))
instance (b : UInt8) : Decidable (Graphic b) := inferInstanceAs (Decidable (_ ∧ _))

/-- No control character but the tab. -/
def OneLine (s : List UInt8) : Prop := ∀ b ∈ s, Control b → b = asc '\t'

/-- What is assumed of the IDNA conversion where a theorem says so: control characters are refused (with the STD3 rules). -/
def Refuses (idna : List UInt8 → Option (List UInt8)) : Prop := ∀ h a, idna h = some a → ∀ b ∈ h, ¬ Control b

/-- Validators of texts that are made of printable characters: the base-N validators, `boolean`, addresses, integers, `uuid` and
`mac_address` if their separator is one. -/
def Printable : Plan φ κ → Prop
  | .base _ _ => True
  | .basic v _ => v = .boolean
  | .ip _ _ => True
  | .hex _ a => ∀ b, a.separator = .must b ∨ a.separator = .allow b → Graphic b
  | .int _ _ _ => True
  | _ => False

/-- Validators of texts of one line: `domain`, `host`, `email` and `line`. -/
def SingleLine : Plan φ κ → Prop
  | .domain _ => True
  | .host _ => True
  | .email _ => True
  | .utf8 v _ => v = .line
  | _ => False

/-- The exceptions: `email` with `comment(Allow)`, and `line` with `trimmed_min` (C24). -/
def Exception : Plan φ κ → Prop
  | .email a => a.comment = .allow
  | .utf8 _ a => ∃ b l, a.length = some (b, l) ∧ l.trimmedMin ≠ none
  | _ => False

end Verif.Spec.Control
