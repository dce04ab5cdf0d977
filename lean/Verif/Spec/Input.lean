import Verif.Spec.Generated

/-!
# Specification of the use of foreign code
-/

namespace Verif.Spec.Input

open Verif.Derive Verif.Generated

/-- Whatever the foreign function `src` does, and in whatever state it is: `prog` calls it exactly once, its outcome is `f` of what this call
returns, and a panic in it goes through. That there is exactly one call is seen in the state, which is the one after the first call. -/
def Once {σ α E A : Type} (prog : (σ → Option α × σ) → σ → Out E A × σ) (f : α → Out E A) : Prop :=
  ∀ src st st',
    (∀ a, src st = (some a, st') → prog src st = (f a, st')) ∧
    (src st = (none, st') → prog src st = (.panic, st'))

/-- `prog` does not call the foreign function. -/
def Never {σ α E A : Type} (prog : (σ → Option α × σ) → σ → Out E A × σ) (r : Out E A) : Prop := ∀ src st, prog src st = (r, st)

/-- The validators whose value is the text itself. -/
def KeepsText {φ κ : Type} : Plan φ κ → Prop
  | .base v _ => v ∈ [.base32, .base64, .base64_url]
  | .utf8 _ _ => True
  | .regex _ => True
  | _ => False

/-- The value that holds this text. -/
def IsText {φ κ N U V : Type} (x : Value φ κ N U V) (t : List Char) : Prop := x = .text t ∨ x = .matched (BaseN.strBytes t)

/-- What is said of a collection of this length: too small, too large, or the collection itself. -/
def bounded {K : Type} (min max : Option Nat) (v : K) (n : Nat) : Out Range.RangeError K :=
  if min.any (n < ·) then .err .tooSmall else if max.any (· < n) then .err .tooLarge else .ok v

end Verif.Spec.Input
