import Verif.Model.Attr
import Verif.Spec.Range

/-!
# Specification of the parameters of `#[validator(...)]`

What a parameter says, in terms of what `syn` reads. Of the model only the data types are used.
-/

namespace Verif.Spec.Attr

open Verif.Attr
open Verif.Range (Bounds RangeOption)

variable {τ α κ β : Type}

/-! ## Lists of parameters -/

/-- `m` gives the parameters `ps`: a bare name gives none, `name(...)` gives those in parentheses. -/
def Gives (syn : Syn τ) (m : Meta τ) (ps : List (Meta τ)) : Prop :=
  (∃ n, m = .path n) ∧ ps = [] ∨ ∃ n t, m = .list n t ∧ syn.metas t = some ps

/-- Every parameter is one of these, and none is given twice. -/
def WellFormed (names : List String) (ps : List (Meta τ)) : Prop :=
  (∀ p ∈ ps, ∃ n ∈ names, p.name = some n) ∧ (ps.map Meta.name).Nodup

/-- The parameter `name` is given with value `v`, or it is not given and `v` is the default. -/
def Set (ps : List (Meta τ)) (name : String) (Says : Meta τ → β → Prop) (dflt v : β) : Prop :=
  (∃ p ∈ ps, p.name = some name ∧ Says p v) ∨ (∀ p ∈ ps, p.name ≠ some name) ∧ v = dflt

/-- The same for a parameter without default. -/
def SetOpt (ps : List (Meta τ)) (name : String) (Says : Meta τ → β → Prop) (v : Option β) : Prop :=
  Set ps name (fun p w => ∃ b, w = some b ∧ Says p b) none v

/-- A reader of attributes does not depend on the order of the parameters. -/
def OrderFree (syn : Syn τ) (f : Meta τ → Out AttrError β) : Prop :=
  ∀ m m' ps ps' a, Gives syn m ps → Gives syn m' ps' → ps.Perm ps' → f m = .ok a → f m' = .ok a

/-! ## Single values -/

/-- The word given to a parameter: `name = word` or `name(word)`. -/
def Word (syn : Syn τ) (p : Meta τ) (w : String) : Prop :=
  (∃ n, p = .nameValue n (.path (some w))) ∨ ∃ n t, p = .list n t ∧ syn.ident t = some w

/-- `Allow` or `Disallow`. -/
def SaysAllow (syn : Syn τ) (p : Meta τ) : Allow → Prop
  | .allow => Word syn p "Allow"
  | .disallow => Word syn p "Disallow"

/-- `Must`, `Allow` or `Disallow`. -/
def SaysTri (syn : Syn τ) (p : Meta τ) : TriAllow → Prop
  | .must => Word syn p "Must"
  | .allow => Word syn p "Allow"
  | .disallow => Word syn p "Disallow"

/-- `Any`, `Upper` or `Lower`. -/
def SaysCase (syn : Syn τ) (p : Meta τ) : CaseOption → Prop
  | .any => Word syn p "Any"
  | .upper => Word syn p "Upper"
  | .lower => Word syn p "Lower"

/-- A byte given to `name`: `name = b'x'` or `name(b'x')`. -/
def SaysByte (syn : Syn τ) (p : Meta τ) (name : String) (b : UInt8) : Prop :=
  p = .nameValue (some name) (.lit (.byte b)) ∨ ∃ t, p = .list (some name) t ∧ syn.litByte t = some b

/-- `separator(Must(b'x'))`, `separator(Allow(b'x'))` or `separator(Disallow)`. -/
def SaysSeparator (syn : Syn τ) (p : Meta τ) (v : SeparatorOption) : Prop :=
  ∃ n t m, p = .list n t ∧ syn.one t = some m ∧
    match v with
    | .must b => SaysByte syn m "Must" b
    | .allow b => SaysByte syn m "Allow" b
    | .disallow => m = .path (some "Disallow")

/-- The text of a number literal. -/
def Digits (l : Lit) (d : List UInt8) : Prop := l = .int d ∨ l = .float d

/-- A number: `name = 5`, `name = -5` or `name(5)`, where the number type reads the digits. A literal in an invisible group
(from a macro) counts too. In parentheses an integer literal goes before a float literal. -/
def SaysNumber (syn : Syn τ) (fromStr : List UInt8 → Option α) (p : Meta τ) (v : α) : Prop :=
  (∃ n l d, (p = .nameValue n (.lit l) ∨ p = .nameValue n (.group (some l))) ∧ Digits l d ∧ fromStr d = some v) ∨
  (∃ n l d, p = .nameValue n (.neg l) ∧ Digits l d ∧ fromStr (asc '-' :: d) = some v) ∨
  ∃ n t d, p = .list n t ∧ (syn.litInt t = some d ∨ syn.litInt t = none ∧ syn.litFloat t = some d) ∧ fromStr d = some v

/-- `name = true` or `name(true)`, and `false`. -/
def SaysBool (syn : Syn τ) (p : Meta τ) (b : Bool) : Prop :=
  (∃ n, p = .nameValue n (.lit (.bool b)) ∨ p = .nameValue n (.group (some (.bool b)))) ∨
  ∃ n t, p = .list n t ∧ syn.litBool t = some b

/-- `serde`, `serde = true`, `serde = false`, `serde(Serialize, Deserialize)`: something is only switched on if the feature
is there. -/
def SaysFlags (syn : Syn τ) (enabled : Bool) (first second : String) (p : Meta τ) (f : Flags) : Prop :=
  (∃ n, p = .path n) ∧ enabled = true ∧ f = ⟨true, true⟩ ∨
  (∃ n b, p = .nameValue n (.lit (.bool b)) ∧ (b = true → enabled = true) ∧ f = ⟨b, b⟩) ∨
  ∃ n t ws, p = .list n t ∧ syn.idents t = some ws ∧ ws.Nodup ∧ (∀ w ∈ ws, w = first ∨ w = second) ∧ (ws ≠ [] → enabled = true) ∧
    (f.first = true ↔ first ∈ ws) ∧ (f.second = true ↔ second ∈ ws)

/-! ## Ranges and lengths -/

/-- A bound of a range expression: absent, or a literal that the number type reads. -/
def SaysOperand (num : NumTy α) (o : Option (Option Lit)) (v : Option α) : Prop :=
  o = none ∧ v = none ∨ ∃ l d a, o = some (some l) ∧ Digits l d ∧ num.fromStr d = some a ∧ v = some a

/-- The range expression `min..max` or `min..=max`. -/
def SaysRangeExpr (num : NumTy α) (r : RangeExpr) (b : Bounds α) : Prop :=
  SaysOperand num r.start b.min ∧ SaysOperand num r.stop b.max ∧
    (b.inclusive = false ↔ r.halfOpen = true ∧ b.max ≠ none)

/-- The minimum is not above the maximum, and not equal to it if that is excluded: by the order of the number type. -/
def InOrder (num : NumTy α) (b : Bounds α) : Prop :=
  ∀ m n, b.min = some m → b.max = some n → num.pcmp m n ≠ some .gt ∧ (b.inclusive = false → num.pcmp m n ≠ some .eq)

/-- The form `(min = 1, max = 5, inclusive = false)`. -/
def SaysNamed (syn : Syn τ) (num : NumTy α) (t : τ) (b : Bounds α) : Prop :=
  ∃ ps, syn.metas t = some ps ∧ WellFormed ["min", "max", "inclusive"] ps ∧ SetOpt ps "min" (SaysNumber syn num.fromStr) b.min ∧
    SetOpt ps "max" (SaysNumber syn num.fromStr) b.max ∧ Set ps "inclusive" (SaysBool syn) true b.inclusive

/-- A range parameter is written as a range expression. -/
def ByExpr (syn : Syn τ) (full : Bool) (p : Meta τ) (r : RangeExpr) : Prop :=
  full = true ∧ ((∃ n, p = .nameValue n (.range r)) ∨ ∃ n t, p = .list n t ∧ syn.range t = some r)

/-- A range parameter is written by name. -/
def ByName (syn : Syn τ) (full : Bool) (p : Meta τ) (t : τ) : Prop :=
  (∃ n, p = .list n t) ∧ (full = true → syn.range t = none)

/-- What a range parameter says. Only the named form is checked. -/
def SaysRange (syn : Syn τ) (full : Bool) (num : NumTy α) (p : Meta τ) (b : Bounds α) : Prop :=
  (∃ r, ByExpr syn full p r ∧ SaysRangeExpr num r b) ∨ ∃ t, ByName syn full p t ∧ SaysNamed syn num t b ∧ InOrder num b

/-- `range(Inside(..))`, `range(Outside(..))` or `range(Unlimited)`. -/
def SaysRangeOption (syn : Syn τ) (full : Bool) (num : NumTy α) (p : Meta τ) (o : RangeOption α) : Prop :=
  ∃ n t m, p = .list n t ∧ syn.one t = some m ∧
    match o with
    | .inside b => m.name = some "Inside" ∧ SaysRange syn full num m b
    | .outside b => m.name = some "Outside" ∧ SaysRange syn full num m b
    | .unlimited => m.name = some "Unlimited"

/-- The bounds can be written in the generated code: they are finite numbers. -/
def Writable (num : NumTy α) (o : RangeOption α) : Prop :=
  ∀ b, o = .inside b ∨ o = .outside b → ∀ x, b.min = some x ∨ b.max = some x → num.literal x = true

/-- The same, with bounds that can be written. -/
def SaysFinite (syn : Syn τ) (full : Bool) (num : NumTy α) (p : Meta τ) (o : RangeOption α) : Prop :=
  SaysRangeOption syn full num p o ∧ Writable num o

/-- The attribute has a parameter `range` whose bounds cannot be written. -/
def InfiniteBound (syn : Syn τ) (full : Bool) (num : NumTy α) (m : Meta τ) : Prop :=
  ∃ ps, Gives syn m ps ∧ ∃ p ∈ ps, p.name = some "range" ∧ ∃ o, SaysRangeOption syn full num p o ∧ ¬ Writable num o

/-- The first wrong thing in a `number` attribute is a `range` whose bounds cannot be written: the parameters before it are well formed
and say something. What follows is arbitrary. -/
def FirstInfinite (syn : Syn τ) (full serde rocket : Bool) (num : NumTy α) (m : Meta τ) : Prop :=
  ∃ before p after, Gives syn m (before ++ p :: after) ∧
    WellFormed ["nan", "conflict", "serde", "rocket"] before ∧
    (∀ q ∈ before, (q.name = some "nan" → ∃ v, SaysTri syn q v) ∧ (q.name = some "conflict" → ∃ v, SaysAllow syn q v) ∧
      (q.name = some "serde" → ∃ f, SaysFlags syn serde "Serialize" "Deserialize" q f) ∧
      (q.name = some "rocket" → ∃ f, SaysFlags syn rocket "FromFormField" "FromParam" q f)) ∧
    p.name = some "range" ∧ ∃ o, SaysRangeOption syn full num p o ∧ ¬ Writable num o

/-- The parameter `range` is given as a range expression: `range(1..=5)`, `range = 1..=5`, and for integers and numbers
`range(Inside(1..=5))`, `range(Inside = 1..=5)`. -/
def Dotted (syn : Syn τ) (full : Bool) (p : Meta τ) : Prop := (∃ r, ByExpr syn full p r) ∨ ∃ n t m r, p = .list n t ∧ syn.one t = some m ∧ ByExpr syn full m r

/-- Of two bounds that are both given the first is not greater. -/
def NotAbove (x y : Option Nat) : Prop := ∀ a b, x = some a → y = some b → a ≤ b

/-- `char_length(min = 1, trimmed_min = 1, max = 5)`. -/
def SaysLength (syn : Syn τ) (usize : List UInt8 → Option Nat) (p : Meta τ) (l : Length) : Prop :=
  ∃ n t ps, p = .list n t ∧ syn.metas t = some ps ∧ WellFormed ["min", "trimmed_min", "max"] ps ∧
    SetOpt ps "min" (SaysNumber syn usize) l.min ∧ SetOpt ps "trimmed_min" (SaysNumber syn usize) l.trimmedMin ∧
    SetOpt ps "max" (SaysNumber syn usize) l.max ∧ NotAbove l.trimmedMin l.min ∧ NotAbove l.min l.max ∧ NotAbove l.trimmedMin l.max

/-- The length of a text: neither `char_length` nor `byte_length` is given, or exactly one of them is. -/
def SaysText (syn : Syn τ) (usize : List UInt8 → Option Nat) (ps : List (Meta τ)) (v : Option (Bool × Length)) : Prop :=
  (v = none ∧ ∀ p ∈ ps, p.name ≠ some "char_length" ∧ p.name ≠ some "byte_length") ∨
  ∃ p ∈ ps, ∃ isByte l, v = some (isByte, l) ∧ SaysLength syn usize p l ∧
    p.name = some (if isByte then "byte_length" else "char_length") ∧
    ∀ q ∈ ps, q.name = some "char_length" ∨ q.name = some "byte_length" → q = p

/-! ## Countries and regular expressions -/

/-- `countries(TW, US)`: known countries, each once. They are kept in an order that the attribute does not determine. -/
def SaysCountries (syn : Syn τ) (country : String → Option κ) (order : Order κ) (p : Meta τ) (cs : List κ) : Prop :=
  ∃ n t is ds, p = .list n t ∧ syn.idents t = some is ∧ is.map country = ds.map some ∧ ds.Nodup ∧ cs = order.list ds

/-- A regular expression: a string literal that compiles, or an expression that is not a literal. -/
def SaysRegex (syn : Syn τ) (regexOk : String → Bool) (p : Meta τ) (e : Expr) : Prop :=
  ((∃ n, p = .nameValue n e) ∨ ∃ n t, p = .list n t ∧ syn.expr t = some e) ∧
    ((∃ s, e = .lit (.str s) ∧ regexOk s = true) ∨ ∀ l, e ≠ .lit l)

end Verif.Spec.Attr
