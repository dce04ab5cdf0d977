import Verif.Spec.Serde
import Verif.Model.Adapters

/-!
# Deserialization: the shapes answer as specified
-/

namespace Verif.Serde

open Verif.Spec.Serde

variable {F G α ε V : Type} (widen : G → F)

theorem outcome_plain (f : Deserializer F G → Out Unit α) (d : Deserializer F G) (o : Out Unit α) :
    Outcome (plain f) d o ↔ o = f d := by
  constructor
  · rintro ⟨n, h⟩
    cases n with
    | zero => simp [run] at h
    | succ n => simpa [run, plain, eq_comm] using h
  · rintro rfl
    exact ⟨1, rfl⟩

theorem bytes_eq (p : List Char → Out ε V) (q : List UInt8 → Out ε V) (d : Deserializer F G) :
    drive widen (bytesVisitor p p q q) .any d = reply (textsOrBytes p q) .any d := by
  unfold drive reply
  cases d.feed .any with
  | none => rfl
  | some e =>
    cases e <;> simp only [Option.bind_some, dataOf, textsOrBytes, bytesVisitor, visit, orError, orElse, id] <;>
      first
        | rfl
        | (cases p _ <;> rfl)
        | (cases q _ <;> rfl)
        | (rename_i ty x; cases ty <;> rfl)

theorem str_eq (p : List Char → Out ε V) (hint : Hint) (d : Deserializer F G) :
    drive widen (strVisitor p) hint d = reply (texts p) hint d := by
  unfold drive reply
  cases d.feed hint with
  | none => rfl
  | some e =>
    cases e <;> simp only [Option.bind_some, dataOf, texts, strVisitor, visit, orError, orElse, id] <;>
      first
        | rfl
        | (cases p _ <;> rfl)
        | (rename_i ty x; cases ty <;> rfl)

theorem string_eq (p : List Char → Out ε V) (hint : Hint) (d : Deserializer F G) :
    drive widen (stringVisitor p p) hint d = reply (texts p) hint d := by
  unfold drive reply
  cases d.feed hint with
  | none => rfl
  | some e =>
    cases e <;> simp only [Option.bind_some, dataOf, texts, stringVisitor, visit, orError, orElse, id] <;>
      first
        | rfl
        | (cases p _ <;> rfl)
        | (rename_i ty x; cases ty <;> rfl)

theorem boolean_eq (p : List Char → Out ε Bool) (c : Char → Out ε Bool) (q : Int → Out ε Bool) (hc : ∀ x, c x = p [x])
    (d : Deserializer F G) :
    drive widen (booleanVisitor p p c q q q q) .any d = reply (textsBoolsOrInts p q) .any d := by
  unfold drive reply
  cases d.feed .any with
  | none => rfl
  | some e =>
    cases e <;> simp only [Option.bind_some, dataOf, textsBoolsOrInts, booleanVisitor, visit, orError, orElse, id, hc] <;>
      first
        | rfl
        | (cases p _ <;> rfl)
        | (rename_i ty x; cases ty <;> simp only [visit, orElse, orError, id] <;> cases q x <;> rfl)

theorem number_eq (p : List Char → Out ε V) (p64 : F → Out ε V) (p32 : G → Out ε V) (d : Deserializer F G) :
    drive widen (numberVisitor p p p64 p32) .any d = reply (textsOrFloats p p64 p32) .any d := by
  unfold drive reply
  cases d.feed .any with
  | none => rfl
  | some e =>
    cases e <;> simp only [Option.bind_some, dataOf, textsOrFloats, numberVisitor, visit, orError, orElse, id] <;>
      first
        | rfl
        | (cases p _ <;> rfl)
        | (cases p64 _ <;> rfl)
        | (cases p32 _ <;> rfl)
        | (rename_i ty x; cases ty <;> rfl)

theorem signed_eq (p : List Char → Out IntV.IntError V) (q : IntV.Width → Int → Out Range.RangeError V)
    (d : Deserializer F G) (r : Int → Out Range.RangeError V)
    (h : ∀ ty x, d.feed .any = some (.int ty x) → IsSigned ty = true →
      (match ty with | .i8 => q .w8 x | .i16 => q .w16 x | .i32 => q .w32 x | .i64 => q .w64 x | _ => q .w128 x) = r x) :
    drive widen (signedVisitor p p (q .w8) (q .w16) (q .w32) (q .w64) (q .w128)) .any d =
      reply (textsOrInts true p fun x => asIntError (r x)) .any d := by
  unfold drive reply
  cases hf : d.feed .any with
  | none => rfl
  | some e =>
    cases e <;> simp only [Option.bind_some, dataOf, textsOrInts, signedVisitor, visit, orError, orElse, id] <;>
      first
        | rfl
        | (cases p _ <;> rfl)
        | skip
    rename_i ty x
    have := h ty x hf
    cases ty <;> simp only [IsSigned, forall_const, reduceCtorEq, if_true, if_false, visit, orError, orElse, Bool.false_eq_true] at this ⊢ <;>
      first
        | (rw [this]; cases r x <;> rfl)
        | rfl

theorem unsigned_eq (p : List Char → Out IntV.IntError V) (q : IntV.Width → Int → Out Range.RangeError V)
    (d : Deserializer F G) (r : Int → Out Range.RangeError V)
    (h : ∀ ty x, d.feed .any = some (.int ty x) → IsSigned ty = false →
      (match ty with | .u8 => q .w8 x | .u16 => q .w16 x | .u32 => q .w32 x | .u64 => q .w64 x | _ => q .w128 x) = r x) :
    drive widen (unsignedVisitor p p (q .w8) (q .w16) (q .w32) (q .w64) (q .w128)) .any d =
      reply (textsOrInts false p fun x => asIntError (r x)) .any d := by
  unfold drive reply
  cases hf : d.feed .any with
  | none => rfl
  | some e =>
    cases e <;> simp only [Option.bind_some, dataOf, textsOrInts, unsignedVisitor, visit, orError, orElse, id] <;>
      first
        | rfl
        | (cases p _ <;> rfl)
        | skip
    rename_i ty x
    have := h ty x hf
    cases ty <;> simp only [IsSigned, forall_const, reduceCtorEq, if_true, if_false, visit, orError, orElse, Bool.true_eq_false] at this ⊢ <;>
      first
        | (rw [this]; cases r x <;> rfl)
        | rfl

/-! ## `validators::Result` -/

theorem bytes_result_eq (p : List Char → Out ε V) (q : List UInt8 → Out ε V) (d : Deserializer F G) :
    drive widen { str := some fun s => wrap (p s), string := some fun s => wrap (p s), bytes := some fun b => wrap (q b), byteBuf := some fun b => wrap (q b) } .any d = replyResult (textsOrBytes p q) .any d := by
  unfold drive replyResult
  cases d.feed .any with
  | none => rfl
  | some e =>
    cases e <;> simp only [Option.bind_some, dataOf, textsOrBytes, visit, orError, orElse, id] <;>
      first
        | rfl
        | (cases p _ <;> rfl)
        | (cases q _ <;> rfl)
        | (rename_i ty x; cases ty <;> rfl)

theorem str_result_eq (p : List Char → Out ε V) (hint : Hint) (d : Deserializer F G) :
    drive widen { str := some fun s => wrap (p s) } hint d = replyResult (texts p) hint d := by
  unfold drive replyResult
  cases d.feed hint with
  | none => rfl
  | some e =>
    cases e <;> simp only [Option.bind_some, dataOf, texts, visit, orError, orElse, id] <;>
      first
        | rfl
        | (cases p _ <;> rfl)
        | (rename_i ty x; cases ty <;> rfl)

theorem string_result_eq (p : List Char → Out ε V) (hint : Hint) (d : Deserializer F G) :
    drive widen { str := some fun s => wrap (p s), string := some fun s => wrap (p s) } hint d = replyResult (texts p) hint d := by
  unfold drive replyResult
  cases d.feed hint with
  | none => rfl
  | some e =>
    cases e <;> simp only [Option.bind_some, dataOf, texts, visit, orError, orElse, id] <;>
      first
        | rfl
        | (cases p _ <;> rfl)
        | (rename_i ty x; cases ty <;> rfl)

theorem boolean_result_eq (p : List Char → Out ε Bool) (c : Char → Out ε Bool) (q : Int → Out ε Bool) (hc : ∀ x, c x = p [x])
    (d : Deserializer F G) :
    drive widen
      { bool := some fun b => wrap (Out.ok b : Out ε Bool), i64 := some fun x => wrap (q x), i128 := some fun x => wrap (q x),
        u64 := some fun x => wrap (q x), u128 := some fun x => wrap (q x), char := some fun x => wrap (c x),
        str := some fun s => wrap (p s), string := some fun s => wrap (p s) } .any d = replyResult (textsBoolsOrInts p q) .any d := by
  unfold drive replyResult
  cases d.feed .any with
  | none => rfl
  | some e =>
    cases e <;> simp only [Option.bind_some, dataOf, textsBoolsOrInts, visit, orError, orElse, id, hc] <;>
      first
        | rfl
        | (cases p _ <;> rfl)
        | (rename_i ty x; cases ty <;> simp only [visit, orElse, orError, id] <;> cases q x <;> rfl)

theorem number_result_eq (p : List Char → Out ε V) (p64 : F → Out ε V) (p32 : G → Out ε V) (d : Deserializer F G) :
    drive widen
      { str := some fun s => wrap (p s), string := some fun s => wrap (p s), f32 := some fun f => wrap (p32 f),
        f64 := some fun f => wrap (p64 f) } .any d = replyResult (textsOrFloats p p64 p32) .any d := by
  unfold drive replyResult
  cases d.feed .any with
  | none => rfl
  | some e =>
    cases e <;> simp only [Option.bind_some, dataOf, textsOrFloats, visit, orError, orElse, id] <;>
      first
        | rfl
        | (cases p _ <;> rfl)
        | (cases p64 _ <;> rfl)
        | (cases p32 _ <;> rfl)
        | (rename_i ty x; cases ty <;> rfl)

theorem signed_result_eq (p : List Char → Out IntV.IntError V) (q : IntV.Width → Int → Out Range.RangeError V)
    (d : Deserializer F G) (r : Int → Out Range.RangeError V)
    (h : ∀ ty x, d.feed .any = some (.int ty x) → IsSigned ty = true →
      (match ty with | .i8 => q .w8 x | .i16 => q .w16 x | .i32 => q .w32 x | .i64 => q .w64 x | _ => q .w128 x) = r x) :
    drive widen
      { str := some fun s => wrap (p s), string := some fun s => wrap (p s),
        i8 := some fun x => wrap (asIntError (q .w8 x)), i16 := some fun x => wrap (asIntError (q .w16 x)), i32 := some fun x => wrap (asIntError (q .w32 x)),
        i64 := some fun x => wrap (asIntError (q .w64 x)), i128 := some fun x => wrap (asIntError (q .w128 x)) } .any d =
      replyResult (textsOrInts true p fun x => asIntError (r x)) .any d := by
  unfold drive replyResult
  cases hf : d.feed .any with
  | none => rfl
  | some e =>
    cases e <;> simp only [Option.bind_some, dataOf, textsOrInts, visit, orError, orElse, id] <;>
      first
        | rfl
        | (cases p _ <;> rfl)
        | skip
    rename_i ty x
    have := h ty x hf
    cases ty <;> simp only [IsSigned, forall_const, reduceCtorEq, if_true, if_false, visit, orError, orElse, Bool.false_eq_true] at this ⊢ <;>
      first
        | (rw [this]; cases r x <;> rfl)
        | rfl

theorem unsigned_result_eq (p : List Char → Out IntV.IntError V) (q : IntV.Width → Int → Out Range.RangeError V)
    (d : Deserializer F G) (r : Int → Out Range.RangeError V)
    (h : ∀ ty x, d.feed .any = some (.int ty x) → IsSigned ty = false →
      (match ty with | .u8 => q .w8 x | .u16 => q .w16 x | .u32 => q .w32 x | .u64 => q .w64 x | _ => q .w128 x) = r x) :
    drive widen
      { str := some fun s => wrap (p s), string := some fun s => wrap (p s),
        u8 := some fun x => wrap (asIntError (q .w8 x)), u16 := some fun x => wrap (asIntError (q .w16 x)), u32 := some fun x => wrap (asIntError (q .w32 x)),
        u64 := some fun x => wrap (asIntError (q .w64 x)), u128 := some fun x => wrap (asIntError (q .w128 x)) } .any d =
      replyResult (textsOrInts false p fun x => asIntError (r x)) .any d := by
  unfold drive replyResult
  cases hf : d.feed .any with
  | none => rfl
  | some e =>
    cases e <;> simp only [Option.bind_some, dataOf, textsOrInts, visit, orError, orElse, id] <;>
      first
        | rfl
        | (cases p _ <;> rfl)
        | skip
    rename_i ty x
    have := h ty x hf
    cases ty <;> simp only [IsSigned, forall_const, reduceCtorEq, if_true, if_false, visit, orError, orElse, Bool.true_eq_false] at this ⊢ <;>
      first
        | (rw [this]; cases r x <;> rfl)
        | rfl

end Verif.Serde
