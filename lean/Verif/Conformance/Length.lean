import Verif.Conformance.Harness

/-!
# The tests of `validators/tests/length.rs`

Written by `tools/conformance.py`.
-/

namespace Verif.Conformance.Length

open Verif.Attr Verif.Derive Verif.Constants
open Verif.Conformance

/-- `NonEmptyVec`: collections of these sizes. -/
theorem nonEmptyVec_passes : passesLength [(1, true), (0, false)] ⟨[attr (.list (some "length") (.metas [.nameValue (some "min") (.lit (.int (ascii "1")))]))], .struct (.unnamed ["Vec<u8>"])⟩ = true := by decide +kernel

/-- `Set`: collections of these sizes. -/
theorem set_passes : passesLength [(0, false)] ⟨[attr (.list (some "length") (.metas [.nameValue (some "min") (.lit (.int (ascii "1"))), .nameValue (some "max") (.lit (.int (ascii "100")))]))], .struct (.unnamed ["BTreeSet<isize>"])⟩ = true := by decide +kernel

end Verif.Conformance.Length
