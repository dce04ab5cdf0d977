import Verif.Spec.Order
import Verif.Spec.Line
import Verif.Spec.BaseN
import Verif.Spec.Hex
import Verif.Model.BaseN
import Verif.Model.Hex

/-!
# Specification of the order of the checks of `line`, `text`, the base-N texts, `uuid` and `mac_address`
-/

namespace Verif.Spec.TextOrder

open Verif.Spec.Line
open Verif.Line (Kind LineError)
open Verif.BaseN (BaseError)

/-- The string is longer than the maximum. -/
def Long (b : Bool) (max : Option Nat) (s : List Char) : Prop := ∃ m, max = some m ∧ m < size b s

/-- The string is shorter than the minimum. -/
def Short (b : Bool) (min : Option Nat) (s : List Char) : Prop := ∃ n, min = some n ∧ size b s < n

/-- The leading white space and the character after it. -/
def start (s : List Char) : List Char := leadingSpace s ++ (trimStart s).take 1

/-- There is a forbidden character after the leading white space, and what precedes it is not longer than `m`. -/
def EarlyForbidden (k : Kind) (b : Bool) (m : Nat) (s : List Char) : Prop :=
  ∃ pre c post, trimStart s = pre ++ c :: post ∧ Forbidden k c ∧ size b (leadingSpace s ++ pre) ≤ m

/-- What is read of a string when characters are counted: one more than the maximum. -/
def readPart (max : Option Nat) (s : List Char) : List Char :=
  match max with
  | some m => s.take (m + 1)
  | none => s

/-- The checks of `line` and `text`. Without `trimmed_min` the length in bytes is looked at first; otherwise the characters are looked at
one by one, and with `trimmed_min` those of the leading white space are not. Counting bytes with `trimmed_min` and a maximum the reading
stops when the maximum is passed, with a minimum anywhere, without one at the first character that is not white space. -/
def line (k : Kind) (b : Bool) (min trimmedMin max : Option Nat) (s : List Char) : List (Prop × LineError) :=
  match trimmedMin, b, min, max with
  | none, true, _, _ => [(Long true max s, .tooLong), (Short true min s, .tooShort), (¬ Clean k s, .invalid)]
  | none, false, _, _ => [(¬ Clean k (readPart max s), .invalid), (Short false min s, .tooShort), (Long false max s, .tooLong)]
  | some t, false, _, _ => [(¬ Clean k (trimStart (readPart max s)), .invalid), (size false (trim (readPart max s)) < t ∨ Short false min s, .tooShort),
      (Long false max s, .tooLong)]
  | some t, true, _, none => [(¬ Clean k (trimStart s), .invalid), (size true (trim s) < t ∨ Short true min s, .tooShort)]
  | some t, true, none, some m => [(m < size true (start s), .tooLong), (¬ Clean k (trimStart s), .invalid), (size true (trim s) < t, .tooShort),
      (m < size true s, .tooLong)]
  | some t, true, some n, some m => [(m < size true (start s), .tooLong), (EarlyForbidden k true m s, .invalid), (m < size true s, .tooLong),
      (size true (trim s) < t ∨ size true s < n, .tooShort)]

open Verif.Spec.BaseN in
/-- The checks of the base-N texts: the first byte that is no symbol is a `=` of the last block for `PaddingDisallow`. -/
def base (L : Notation) (pad : TriAllow) (v : List UInt8) : List (Prop × BaseError) :=
  [(v = [], .invalid), (pad = .must ∧ v.length % L.block ≠ 0, .paddingMust),
   (pad = .disallow ∧ ∃ body rest, v = body ++ padByte :: rest ∧ (∀ b ∈ body, b ∈ L.alphabet) ∧ body.length / L.block = (v.length - 1) / L.block,
     .paddingDisallow),
   (¬ Accepts L pad v, .invalid)]

open Verif.Spec.BaseN in
/-- The checks of the decoded base-N texts. -/
def decoded (L : Notation) (pad : TriAllow) (v : List UInt8) : List (Prop × BaseError) :=
  [(v = [], .invalid), (¬ ∃ d, Decodes L pad v d, .decode)]

open Verif.Spec.Hex in
open Verif.Hex (HexError) in
/-- The checks of `uuid` and `mac_address`: the length, if it is fixed, and then the rest. -/
def hex (sep : SeparatorOption) (case : CaseOption) (sizes : List Nat) (v : List UInt8) : List (Prop × HexError) :=
  match sep with
  | .must _ => [(v.length ≠ sizes.sum + (sizes.length - 1), .separatorMust), (¬ ∃ n, Reads sep case sizes v n, .invalid)]
  | .disallow => [(v.length ≠ sizes.sum, .separatorDisallow), (¬ ∃ n, Reads sep case sizes v n, .invalid)]
  | .allow _ => [(¬ ∃ n, Reads sep case sizes v n, .invalid)]

end Verif.Spec.TextOrder
