import Verif.Model.Diag
import Verif.Spec.Attr

/-!
# Specification of the messages of the derive macro

What a message claims about the attribute that was written. Of the model the data types are used: the attribute and the parts of a
message.
-/

namespace Verif.Spec.Diag

open Verif.Attr Verif.Diag Verif.Derive Verif.Spec.Attr

variable {τ α κ β : Type}

/-- `q` is `m`, or a parameter somewhere in it. -/
inductive Within (syn : Syn τ) : Meta τ → Meta τ → Prop
  | self (m : Meta τ) : Within syn m m
  | param (n : Option String) (t : τ) (ps : List (Meta τ)) (p q : Meta τ) (hps : syn.metas t = some ps) (hp : p ∈ ps)
      (h : Within syn p q) : Within syn (.list n t) q
  | inner (n : Option String) (t : τ) (p q : Meta τ) (hp : syn.one t = some p) (h : Within syn p q) : Within syn (.list n t) q

/-- What is shown of the name of a parameter: the identifier, or the text of a longer path. -/
def Shows (other : Meta τ → String) (q : Meta τ) (p : String) : Prop := p = q.name.getD (other q)

/-- Two different places of the list have the property. -/
def Twice (p : β → Prop) (l : List β) : Prop := ∃ a x b y c, l = a ++ x :: (b ++ y :: c) ∧ p x ∧ p y

/-- A list of parameters in the attribute. -/
def Params (syn : Syn τ) (m : Meta τ) (ps : List (Meta τ)) : Prop := ∃ q, Within syn m q ∧ Gives syn q ps

/-- A list of words in the attribute, as in `serde(Serialize, Deserialize)` and `countries(TW, US)`. -/
def Words (syn : Syn τ) (m : Meta τ) (ws : List String) : Prop := ∃ n t, Within syn m (.list n t) ∧ syn.idents t = some ws

/-- The attribute has a parameter with this name that says this. -/
def Has (ps : List (Meta τ)) (n : String) (says : Meta τ → Prop) : Prop := ∃ p ∈ ps, p.name = some n ∧ says p

/-- `name(word)` or `name = word`, or `name(word(..))`, as text. -/
def Chosen (syn : Syn τ) (ps : List (Meta τ)) (text : String) : Prop :=
  ∃ n w, text = n ++ "(" ++ w ++ ")" ∧ Has ps n fun p => Word syn p w ∨ ∃ t q, p = .list (some n) t ∧ syn.one t = some q ∧ q.name = some w

/-- What a message claims holds for the attribute `m`. -/
def Truthful (E : Env τ α κ) (other : Meta τ → String) (m : Meta τ) : Message α → Prop
  -- the attribute or parameter is not of the form `name(..)`
  | .format p => ∃ q, Within E.syn m q ∧ Shows other q p ∧ ∀ n t, q ≠ .list n t
  -- the parameter is not one of the names shown
  | .unknown p names => ∃ ps, Params E.syn m ps ∧ ∃ q ∈ ps, Shows other q p ∧ ∀ n, q.name = some n → n ∉ names
  -- the name occurs twice in one list
  | .reset n => (∃ ps, Params E.syn m ps ∧ Twice (fun q => q.name = some n) ps) ∨ ∃ ws, Words E.syn m ws ∧ Twice (fun w => w = n) ws
  -- the number, the boolean, the separator, the range, the countries are missing
  | .numberForm p => ∃ n, Within E.syn m (.path n) ∧ Shows other (.path n) p
  | .boolForm p => ∃ q, Within E.syn m q ∧ Shows other q p ∧ ∀ b, ¬ SaysBool E.syn q b
  | .bool => ∃ n e, Within E.syn m (.nameValue n e) ∧ ∀ b, e ≠ .lit (.bool b)
  | .separatorForm p => ∃ q, Within E.syn m q ∧ Shows other q p ∧ ∀ v, ¬ SaysSeparator E.syn q v
  | .rangeForm p => ∃ q, Within E.syn m q ∧ Shows other q p ∧ ∀ o, ¬ SaysRangeOption E.syn E.full E.num q o
  | .countriesForm => ∃ q, Within E.syn m q ∧ q.name = some "countries" ∧ ∀ n t, q ≠ .list n t
  | .regexForm => Within E.syn m (.path (some "regex"))
  | .regexLiteral => ∃ q l, Within E.syn m q ∧ q.name = some "regex" ∧ (∀ s, l ≠ .str s) ∧
      (q = .nameValue q.name (.lit l) ∨ ∃ t, q = .list q.name t ∧ E.syn.expr t = some (.lit l))
  -- a word is given that is not one of the words shown
  | .word ws => (∃ q w, Within E.syn m q ∧ Word E.syn q w ∧ w ∉ ws) ∨ ∃ is, Words E.syn m is ∧ ∃ w ∈ is, w ∉ ws
  -- no word is given
  | .wordForm p _ => ∃ q, Within E.syn m q ∧ Shows other q p ∧ ∀ w, ¬ Word E.syn q w
  -- the feature is off and the parameter of its name is there
  | .feature f => (∃ q, Within E.syn m q ∧ q.name = some f) ∧ (f = "serde" ∧ E.serde = false ∨ f = "rocket" ∧ E.rocket = false)
  -- the two numbers are those written, and they are out of order
  | .above a b => E.num.pcmp a b = some .gt ∧
      ∃ ps, Params E.syn m ps ∧ Has ps "min" (SaysNumber E.syn E.num.fromStr · a) ∧ Has ps "max" (SaysNumber E.syn E.num.fromStr · b)
  | .notBelow a b => (E.num.pcmp a b = some .gt ∨ E.num.pcmp a b = some .eq) ∧
      ∃ ps, Params E.syn m ps ∧ Has ps "min" (SaysNumber E.syn E.num.fromStr · a) ∧ Has ps "max" (SaysNumber E.syn E.num.fromStr · b) ∧
        Has ps "inclusive" (SaysBool E.syn · false)
  | .lengths x a y b => b < a ∧ ∃ ps, Params E.syn m ps ∧ Has ps x (SaysNumber E.syn E.usize · a) ∧ Has ps y (SaysNumber E.syn E.usize · b)
  -- the country shown has been named before
  | .repeated c => ∃ ws, Words E.syn m ws ∧ ∃ a i b r, ws = a ++ i :: (b ++ c :: r) ∧ ∃ k, E.country i = some k ∧ E.country c = some k
  -- there is no such parameter
  | .missing n => ∀ ps, Gives E.syn m ps → ∀ q ∈ ps, q.name ≠ some n
  -- both options are given
  | .conflict a b => ∃ ps, Gives E.syn m ps ∧ Chosen E.syn ps a ∧ Chosen E.syn ps b
  -- `syn`, `lib`, `number`, `literal` claim nothing that the attribute could settle
  | _ => True

end Verif.Spec.Diag
