import Verif.Model.Diag

/-!
# Forgetting the messages gives back the model without messages
-/

namespace Verif.Diag

open Verif.Attr Verif.Derive
open Verif.Range (Bounds RangeOption CmpOp evalOp)

variable {τ α β γ κ : Type}

@[simp] theorem forget_bind (x : Out (Message α) β) (f : β → Out (Message α) γ) :
    forget (x.bind f) = (forget x).bind fun b => forget (f b) := by cases x <;> rfl

@[simp] theorem forget_map (x : Out (Message α) β) (f : β → γ) : forget (x.map f) = (forget x).map f := by cases x <;> rfl

@[simp] theorem forget_ok (b : β) : forget (.ok b : Out (Message α) β) = .ok b := rfl
@[simp] theorem forget_err (e : Message α) : forget (.err e : Out (Message α) β) = .err e.kind := rfl
@[simp] theorem forget_panic : forget (.panic : Out (Message α) β) = .panic := rfl

@[simp] theorem forget_orMsg (e : Message α) (x : Option β) : forget (orMsg e x) = orErr e.kind x := by cases x <;> rfl

theorem forget_ite (c : Prop) [Decidable c] (x y : Out (Message α) β) :
    forget (if c then x else y) = if c then forget x else forget y := by split <;> rfl

theorem forget_litNumber (f : List UInt8 → Option β) (l : Lit) :
    forget (litNumber f l : Out (Message α) β) = Attr.litNumber f l := by
  cases l <;> simp [litNumber, Attr.litNumber, Message.kind]

theorem forget_exprNumber (f : List UInt8 → Option β) (e : Expr) :
    forget (exprNumber f e : Out (Message α) β) = Attr.exprNumber f e := by
  unfold exprNumber Attr.exprNumber
  split <;> simp [forget_litNumber, Message.kind]
  all_goals simp_all

theorem forget_metaNumber (syn : Syn τ) (other : Meta τ → String) (f : List UInt8 → Option β) (m : Meta τ) :
    forget (metaNumber syn other f m : Out (Message α) β) = Attr.metaNumber syn f m := by
  cases m with
  | path n => rfl
  | nameValue n e => exact forget_exprNumber f e
  | list n t =>
    simp only [metaNumber, Attr.metaNumber]
    cases syn.litInt t <;> simp [Message.kind]

theorem forget_metaBool (syn : Syn τ) (other : Meta τ → String) (m : Meta τ) :
    forget (metaBool syn other m : Out (Message α) Bool) = Attr.metaBool syn m := by
  unfold metaBool Attr.metaBool
  split <;> simp_all [Message.kind]

theorem forget_metaWord (syn : Syn τ) (other : Meta τ → String) (ws : List String) (of : String → Out (Message α) β) (m : Meta τ) :
    forget (metaWord syn other ws of m) = (metaIdent syn m).bind fun i => forget (of i) := by
  unfold metaWord metaIdent
  split <;> simp_all [Message.kind]
  rename_i t
  cases syn.ident t <;> simp [orErr, Message.kind]

theorem forget_metaTriAllow (syn : Syn τ) (other : Meta τ → String) (m : Meta τ) :
    forget (metaWord syn other ["Must", "Allow", "Disallow"] (triAllowOf (α := α)) m) = metaTriAllow syn m := by
  rw [forget_metaWord]
  unfold metaTriAllow
  congr 1
  funext i
  simp only [triAllowOf, Attr.triAllowOf, forget_ite]
  rfl

theorem forget_metaAllow (syn : Syn τ) (other : Meta τ → String) (m : Meta τ) :
    forget (metaWord syn other ["Allow", "Disallow"] (allowOf (α := α)) m) = metaAllow syn m := by
  rw [forget_metaWord]
  unfold metaAllow
  congr 1
  funext i
  simp only [allowOf, Attr.allowOf, forget_ite]
  rfl

theorem forget_metaCase (syn : Syn τ) (other : Meta τ → String) (m : Meta τ) :
    forget (metaWord syn other ["Any", "Upper", "Lower"] (caseOf (α := α)) m) = metaCase syn m := by
  rw [forget_metaWord]
  unfold metaCase
  congr 1
  funext i
  simp only [caseOf, Attr.caseOf, forget_ite]
  rfl

theorem forget_metaSeparator (syn : Syn τ) (other : Meta τ → String) (m : Meta τ) :
    forget (metaSeparator syn other m : Out (Message α) _) = Attr.metaSeparator syn m := by
  cases m with
  | path n => rfl
  | nameValue n e => rfl
  | list n t =>
    simp only [metaSeparator, Attr.metaSeparator, forget_bind, forget_orMsg, Message.kind]
    congr 1
    funext k
    cases k with
    | path i => simp only [forget_ite]; rfl
    | list i u =>
      cases i with
      | none => rfl
      | some i => simp only [forget_ite, forget_map, forget_orMsg, forget_err, Message.kind]
    | nameValue i e =>
      split <;> simp_all [forget_ite, Message.kind]

theorem forget_flagLoop (feature : String) (enabled : Bool) (a b : String) (ps : List String) (f : Flags) :
    forget (flagLoop feature enabled a b ps f : Out (Message α) Flags) = Attr.flagLoop enabled a b ps f := by
  induction ps generalizing f with
  | nil => rfl
  | cons p ps ih =>
    simp only [flagLoop, Attr.flagLoop, forget_bind, forget_ite, ih, forget_err, forget_ok, Message.kind]

theorem forget_metaFlags (syn : Syn τ) (feature : String) (enabled : Bool) (a b : String) (m : Meta τ) :
    forget (metaFlags syn feature enabled a b m : Out (Message α) Flags) = Attr.metaFlags syn enabled a b m := by
  unfold metaFlags Attr.metaFlags
  split <;> simp_all [forget_ite, forget_flagLoop, Message.kind]

section
variable {K : Type} [DecidableEq K] {V : K → Type}

/-- The table without messages. -/
def Table.plain (T : Table τ α V) : Attr.Table τ V where
  key := T.key
  checkFirst := T.checkFirst
  read k m := forget (T.read k m)

theorem forget_assign (s : State V) (k : K) (e : Message α) (r : Out (Message α) (V k)) :
    forget (assign s k e r) = assign s k e.kind (forget r) := by
  unfold assign
  cases r <;> cases hs : s k <;> simp [forget]

theorem forget_step (other : Meta τ → String) (T : Table τ α V) (s : State V) (m : Meta τ) :
    forget (step other T s m) = Attr.step T.plain s m := by
  unfold step Attr.step
  simp only [Table.plain]
  cases m.name.bind T.key with
  | none => rfl
  | some k => simp only [forget_ite, forget_assign, forget_err, Message.kind]; rfl

theorem forget_run (other : Meta τ → String) (T : Table τ α V) (ms : List (Meta τ)) (s : State V) :
    forget (run other T ms s) = Attr.run T.plain ms s := by
  induction ms generalizing s with
  | nil => rfl
  | cons m ms ih => simp only [run, Attr.run, forget_bind, forget_step]; congr 1; funext s'; exact ih s'

theorem forget_params (syn : Syn τ) (other : Meta τ → String) (T : Table τ α V) (m : Meta τ) :
    forget (params syn other T m) = Attr.params syn T.plain m := by
  cases m with
  | path n => rfl
  | nameValue n e => rfl
  | list n t => simp only [params, Attr.params, forget_bind, forget_orMsg, forget_run, Message.kind]

end

theorem plain_rangeTable (syn : Syn τ) (other : Meta τ → String) (num : NumTy α) :
    (rangeTable syn other num).plain = Attr.rangeTable syn num := by
  unfold Table.plain rangeTable Attr.rangeTable
  congr 1
  funext k m
  cases k <;> simp only [forget_metaNumber, forget_metaBool]

theorem plain_lengthTable (syn : Syn τ) (other : Meta τ → String) (usize : List UInt8 → Option Nat) :
    (lengthTable (α := α) syn other usize).plain = Attr.lengthTable syn usize := by
  unfold Table.plain lengthTable Attr.lengthTable
  congr 1
  funext k m
  simp only [forget_metaNumber]

theorem forget_operand (num : NumTy α) (x : Option (Option Lit)) : forget (operand num x) = Attr.operand num x := by
  match x with
  | none => rfl
  | some none => rfl
  | some (some l) => simp only [operand, Attr.operand, forget_map, forget_litNumber]

theorem forget_fromExprRange (num : NumTy α) (r : RangeExpr) : forget (fromExprRange num r) = Attr.fromExprRange num r := by
  simp only [fromExprRange, Attr.fromExprRange, forget_bind, forget_operand, forget_ok]

theorem forget_checkOrder (num : NumTy α) (b : Bounds α) : forget (checkOrder num b) = Attr.checkOrder num b := by
  obtain ⟨min, max, inclusive⟩ := b
  cases min <;> cases max <;> cases inclusive <;> simp [checkOrder, Attr.checkOrder, forget_ite, Message.kind]

theorem forget_namedRange (syn : Syn τ) (other : Meta τ → String) (num : NumTy α) (t : τ) :
    forget (namedRange syn other num t) = Attr.namedRange syn num t := by
  simp only [namedRange, Attr.namedRange, forget_bind, forget_orMsg, forget_run, plain_rangeTable, forget_checkOrder, Message.kind]

theorem forget_metaRange (syn : Syn τ) (other : Meta τ → String) (full : Bool) (num : NumTy α) (m : Meta τ) :
    forget (metaRange syn other full num m) = Attr.metaRange syn full num m := by
  cases m with
  | path n => rfl
  | nameValue n e =>
    cases e <;> simp only [metaRange, Attr.metaRange, forget_ite, forget_fromExprRange, forget_err, Message.kind]
  | list n t =>
    simp only [metaRange, Attr.metaRange]
    split <;> simp_all [forget_fromExprRange, forget_namedRange]

theorem forget_metaRangeOption (syn : Syn τ) (other : Meta τ → String) (full : Bool) (num : NumTy α) (m : Meta τ) :
    forget (metaRangeOption syn other full num m) = Attr.metaRangeOption syn full num m := by
  cases m with
  | path n => rfl
  | nameValue n e => rfl
  | list n t =>
    simp only [metaRangeOption, Attr.metaRangeOption, forget_bind, forget_orMsg, forget_ite, forget_map, forget_metaRange,
      forget_ok, forget_err, Message.kind]

theorem forget_tokens (num : NumTy α) (o : RangeOption α) : forget (tokens num o) = Attr.tokens num o := by
  cases o <;> simp only [tokens, Attr.tokens, forget_ite, forget_ok, forget_panic]

theorem forget_notAbove (a b : String) (x y : Option Nat) : forget (notAbove a x b y : Out (Message α) Unit) = Attr.notAbove x y := by
  unfold notAbove Attr.notAbove
  split <;> simp_all [forget_ite, Message.kind]

theorem forget_metaLength (syn : Syn τ) (other : Meta τ → String) (usize : List UInt8 → Option Nat) (m : Meta τ) :
    forget (metaLength syn other usize m : Out (Message α) _) = Attr.metaLength syn usize m := by
  cases m with
  | path n => rfl
  | nameValue n e => rfl
  | list n t =>
    simp only [metaLength, Attr.metaLength, forget_bind, forget_orMsg, forget_run, plain_lengthTable, forget_notAbove, forget_ok,
      Message.kind]

variable [DecidableEq κ]

theorem forget_countryLoop (country : String → Option κ) (is : List String) (cs : List κ) :
    forget (countryLoop country is cs : Out (Message α) _) = Attr.countryLoop country is cs := by
  induction is generalizing cs with
  | nil => rfl
  | cons i is ih => simp only [countryLoop, Attr.countryLoop, forget_bind, forget_orMsg, forget_ite, ih, forget_err, Message.kind]

theorem forget_metaCountries (syn : Syn τ) (country : String → Option κ) (order : Order κ) (m : Meta τ) :
    forget (metaCountries syn country order m : Out (Message α) _) = Attr.metaCountries syn country order m := by
  cases m with
  | path n => rfl
  | nameValue n e => rfl
  | list n t => simp only [metaCountries, Attr.metaCountries, forget_bind, forget_map, forget_orMsg, forget_countryLoop, Message.kind]

theorem forget_regexExpr (regexOk : String → Bool) (e : Expr) :
    forget (regexExpr regexOk e : Out (Message α) _) = Attr.regexExpr regexOk e := by
  cases e with
  | lit l => cases l <;> simp [regexExpr, Attr.regexExpr, forget_ite, Message.kind]
  | _ => rfl

theorem forget_metaRegex (syn : Syn τ) (regexOk : String → Bool) (m : Meta τ) :
    forget (metaRegex syn regexOk m : Out (Message α) _) = Attr.metaRegex syn regexOk m := by
  cases m with
  | path n => rfl
  | nameValue n e => exact forget_regexExpr _ _
  | list n t => simp only [metaRegex, Attr.metaRegex, forget_bind, forget_orMsg, forget_regexExpr, Message.kind]

theorem forget_readKey (E : Env τ α κ) (other : Meta τ → String) (k : Key) (m : Meta τ) :
    forget (readKey E other k m) = Key.read E k m := by
  cases k <;> simp only [readKey, Key.read]
  all_goals first
    | exact forget_metaTriAllow _ _ _
    | exact forget_metaAllow _ _ _
    | exact forget_metaCase _ _ _
    | exact forget_metaSeparator _ _ _
    | exact forget_metaFlags _ _ _ _ _ _
    | exact forget_metaNumber _ _ _ _
    | exact forget_metaBool _ _ _
    | exact forget_metaRange _ _ _ _ _
    | exact forget_metaCountries _ _ _ _
    | exact forget_metaRegex _ _ _
    | (simp only [forget_bind, forget_map, forget_metaRangeOption, forget_tokens, forget_metaLength])

theorem plain_table (E : Env τ α κ) (other : Meta τ → String) (v : Validator) :
    (table E other v).plain = Attr.table E (arms v) := by
  unfold Table.plain table Attr.table
  congr 1
  funext k m
  exact forget_readKey E other k m

end Verif.Diag
