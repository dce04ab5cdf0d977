import Verif.Model.Attr
import Verif.Model.Int

/-!
# A small `syn` for the examples

Token streams that have already been read. Only used in examples and in theorems that exhibit a configuration.
-/

namespace Verif.Attr

open Verif.Range (RangeOption Bounds)

/-- Token streams of the examples. -/
inductive Toks where
  | metas (ms : List (Meta Toks))
  | one (m : Meta Toks)
  | word (w : String)
  | words (ws : List String)
  | range (r : RangeExpr)
  | expr (e : Expr)

/-- What `syn` reads of them. -/
def toksSyn : Syn Toks where
  metas | .metas ms => some ms | .one m => some [m] | .word w => some [.path (some w)] | .words ws => some (ws.map fun w => .path (some w)) | _ => none
  one | .one m => some m | .metas [m] => some m | .word w => some (.path (some w)) | _ => none
  ident | .word w => some w | .words [w] => some w | .expr (.path w) => w | _ => none
  idents | .word w => some [w] | .words ws => some ws | _ => none
  litInt | .expr (.lit (.int d)) => some d | _ => none
  litFloat | .expr (.lit (.float d)) => some d | _ => none
  litBool | .expr (.lit (.bool b)) => some b | _ => none
  litByte | .expr (.lit (.byte b)) => some b | _ => none
  range | .range r => some r | .expr (.range r) => some r | _ => none
  expr | .expr e => some e | .range r => some (.range r) | .word w => some (.path (some w)) | _ => none

/-- All features, integers of this type, two countries, every regular expression. -/
def intEnv (signed : Bool) (bits : Nat) : Env Toks Int Nat where
  syn := toksSyn
  serde := true
  rocket := true
  full := true
  num := intTy signed bits
  usize s := (IntV.fromStr false 64 s).toOption.map Int.toNat
  country s := ["TW", "US"].idxOf? s
  order := ⟨id, fun _ => .refl _⟩
  regexOk _ := true

/-- For `u8`. -/
def env : Env Toks Int Nat := intEnv false 8

end Verif.Attr
