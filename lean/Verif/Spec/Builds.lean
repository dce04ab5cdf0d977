import Verif.Model.Generated

/-!
# Specification: two builds of one program
-/

namespace Verif.Spec.Builds

open Verif.Attr Verif.Derive Verif.Generated

/-- How a program is compiled: with or without overflow checks (debug and release builds), and for which pointer width. -/
structure Build where
  checked : Bool
  ptr : IntV.Ptr

variable {φ κ N U V ε : Type}

/-- The same libraries, in a program that is compiled that way. -/
def compiled (L : Libs φ κ N U V ε) (b : Build) : Libs φ κ N U V ε := { L with checked := b.checked, ptr := b.ptr }

/-- The validators of `isize` and `usize`, whose values are different ones on different machines. -/
def PtrSized : Plan φ κ → Prop
  | .int _ .size _ => True
  | _ => False

end Verif.Spec.Builds
