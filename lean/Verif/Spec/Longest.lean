import Verif.Spec.Generated

/-!
# Specification of how long an accepted string can be
-/

namespace Verif.Spec.Longest

open Verif.Attr Verif.Derive

variable {φ κ : Type}

/-- No string of more than `n` bytes is accepted: `boolean`, `email`, addresses without a port, `line` and `text` with a maximum, of
characters of up to four bytes each if it counts characters, `uuid` and `mac_address`. -/
def AtMost : Plan φ κ → Nat → Prop
  | .basic v _, n => v = .boolean ∧ n = 5
  | .email _, n => n = 320
  | .ip v a, n => a.port = .disallow ∧ n = (if v = .ipv4 then 15 else 47)
  | .utf8 _ a, n => ∃ isByte l m, a.length = some (isByte, l) ∧ l.max = some m ∧ n = (if isByte then m else 4 * m)
  | .hex v a, n => n = (if v = .uuid then (if a.separator = .disallow then 32 else 36) else (if a.separator = .disallow then 12 else 17))
  | _, _ => False

/-- Strings of every length and longer are accepted: the base-N validators, addresses with a port (it may have leading zeros), `host`
with a port unless addresses are excluded, `line` and `text` without a maximum, and integers (leading zeros) if any is accepted. -/
def Endless (ptr : IntV.Ptr) : Plan φ κ → Prop
  | .base _ _ => True
  | .ip _ a => a.port ≠ .disallow
  | .host a => a.port ≠ .disallow ∧ a.atl ≠ .disallow
  | .utf8 _ a => ∀ isByte l, a.length = some (isByte, l) → l.max = none
  | .int signed w a => ∃ i, Spec.IntV.Fits signed (IntV.bits ptr w) i ∧ Spec.Range.Satisfies a.range i
  | _ => False

end Verif.Spec.Longest
