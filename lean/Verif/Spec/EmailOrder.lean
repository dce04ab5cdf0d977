import Verif.Spec.Order
import Verif.Spec.Email

/-!
# Specification of the order of the checks of `email`

The text is read from left to right. Three tables: the part up to the `@` is faulty; that part is sound but no host follows; both
parts are there.
-/

namespace Verif.Spec.EmailOrder

open Verif.Spec Verif.Spec.Domain Verif.Spec.Host Verif.Spec.Email Verif.Email
open Verif.Host (Host)

/-- `s` begins with an optional comment and a local part, and `r` follows: after a bare local part `@` or a comment. -/
def Begins (o : Opts) (s : List UInt8) (c1 : Option (List UInt8)) (q : Bool) (t r : List UInt8) : Prop :=
  s = comment c1 ++ quote q t ++ r ∧ LocalText o c1 q t ∧ r ≠ [] ∧ (q = false → r.head? = some (asc '@') ∨ r.head? = some (asc '('))

/-- `s` is sound up to the `@`, and `d` follows. The length check gives `saved` bytes back for needed quotation marks. -/
def UpToAt (o : Opts) (s : List UInt8) (saved : Nat) (d : List UInt8) : Prop :=
  ∃ c1 q t c2, s = comment c1 ++ quote q t ++ comment c2 ++ ascii "@" ++ d ∧ s.length ≤ 320 ∧ d ≠ [] ∧ LocalText o c1 q t ∧
    Comment2 o (comment c1 ++ quote q t).length c2 ∧
    (q = true ∧ ¬ Unquoted o.nonAscii t ∧ saved = 2 ∨ ¬ (q = true ∧ ¬ Unquoted o.nonAscii t) ∧ saved = 0)

/-- What follows the `@` is an optional comment and something else. -/
def HostStarts (d : List UInt8) (c3 : Option (List UInt8)) (r : List UInt8) : Prop :=
  d = comment c3 ++ r ∧ Closed c3 ∧ r ≠ [] ∧ r.head? ≠ some (asc '(')

/-- What follows the `@` is an optional comment, a host, and then anything, which for a name begins with `(`. -/
def HostIn (idna : List UInt8 → Option (List UInt8)) (d : List UInt8) (c3 : Option (List UInt8)) (h : List UInt8) (x : Host) (tail : List UInt8) : Prop :=
  d = comment c3 ++ h ++ tail ∧ Closed c3 ∧ HostText idna h x ∧ ((∃ a, x = .domain a) → tail = [] ∨ tail.head? = some (asc '('))

/-- The part up to the `@` is faulty. -/
def left (o : Opts) (s : List UInt8) : List (Prop × EmailError) :=
  [(s = [] ∨ 320 < s.length, .invalid),
   (o.comment = .disallow ∧ s.head? = some (asc '('), .commentDisallow),
   (¬ ∃ c1 q t r, Begins o s c1 q t r, .invalid),
   (o.comment = .disallow ∧ ∃ c1 q t r, Begins o s c1 q t r ∧ r.head? = some (asc '('), .commentDisallow),
   (¬ ∃ saved d, UpToAt o s saved d, .invalid)]

/-- `d` follows the `@`, and there is no host in it. -/
def noHost (o : Opts) (idna : List UInt8 → Option (List UInt8)) (d : List UInt8) : List (Prop × EmailError) :=
  [(255 < d.length, .invalid),
   (o.comment = .disallow ∧ d.head? = some (asc '('), .commentDisallow),
   (¬ ∃ c3 r, HostStarts d c3 r, .invalid),
   (o.ip = .disallow ∧ ∃ c3 r, HostStarts d c3 r ∧ r.head? = some (asc '['), .ipDisallow),
   (o.atl = .disallow ∧ ∃ c3 r, HostStarts d c3 r ∧ r.head? = some (asc '['), .atLeastTwoLabelsDisallow),
   (o.ip = .must ∧ ∃ c3 r, HostStarts d c3 r ∧ r.head? ≠ some (asc '['), .ipMust),
   (¬ ∃ c3 h x tail, HostIn idna d c3 h x tail, .invalid)]

/-- `d` follows the `@`, with the host `x` in it. -/
def host (o : Opts) (saved : Nat) (d : List UInt8) (c3 : Option (List UInt8)) (h : List UInt8) (x : Host) (tail : List UInt8) :
    List (Prop × EmailError) :=
  [(255 < d.length, .invalid),
   (o.comment = .disallow ∧ c3 ≠ none, .commentDisallow),
   (o.ip = .disallow ∧ ¬ ∃ a, x = .domain a, .ipDisallow),
   (o.atl = .disallow ∧ ¬ ∃ a, x = .domain a, .atLeastTwoLabelsDisallow),
   (o.ip = .must ∧ ∃ a, x = .domain a, .ipMust),
   (o.atl = .must ∧ ∃ a, x = .domain a ∧ ¬ LocalName a ∧ ¬ ManyLabels a, .atLeastTwoLabelsMust),
   (o.atl = .disallow ∧ ∃ a, x = .domain a ∧ ¬ LocalName a ∧ ManyLabels a, .atLeastTwoLabelsDisallow),
   (o.loc = .must ∧ ¬ LocalHost x, .localMust),
   (o.loc = .disallow ∧ LocalHost x, .localDisallow),
   (h.length + saved < (showHost x).length ∧ 255 + saved < (comment c3 ++ showHost x ++ tail).length, .invalid),
   (o.comment = .disallow ∧ tail ≠ [], .commentDisallow),
   (¬ ∃ c4, Tail o c4 tail, .invalid)]

end Verif.Spec.EmailOrder
