import Verif.Model.Range
import Verif.Model.Int

/-!
# Reading the parameters of `#[validator(...)]`

Paths are relative to `validators-derive/src`. Token streams are an arbitrary type `τ`; what `syn` makes of them is a
parameter (`Syn`), so nothing is assumed about `syn`. Spans and messages of errors are dropped, only their kind is kept.
-/

namespace Verif.Attr

open Verif.Range (Bounds RangeOption CmpOp evalOp)

/-! ## What `syn` delivers -/

/-- `syn::Lit`. Of a number literal only `base10_digits()` is used. -/
inductive Lit where
  | int (digits : List UInt8)
  | float (digits : List UInt8)
  | bool (b : Bool)
  | byte (b : UInt8)
  | str (s : String)
  | other
  deriving DecidableEq, Repr

/-- `syn::ExprRange`. An operand that is not a literal is `some none`. -/
structure RangeExpr where
  start : Option (Option Lit)
  stop : Option (Option Lit)
  halfOpen : Bool
  deriving DecidableEq, Repr

/-- The expressions that the code tells apart: literals, negated literals, invisible groups around a literal, paths (with
`get_ident()`), ranges. -/
inductive Expr where
  | lit (l : Lit)
  | neg (l : Lit)
  | group (l : Option Lit)
  | path (ident : Option String)
  | range (r : RangeExpr)
  | other (n : Nat)
  deriving DecidableEq, Repr

/-- `syn::Meta`: `name`, `name = expr`, `name(tokens)`. The name is `meta.path().get_ident()`: `none` for a path like
`a::b`. -/
inductive Meta (τ : Type) where
  | path (name : Option String)
  | nameValue (name : Option String) (value : Expr)
  | list (name : Option String) (tokens : τ)
  deriving Repr

/-- `meta.path().get_ident()`. -/
def Meta.name {τ : Type} : Meta τ → Option String
  | .path n => n
  | .nameValue n _ => n
  | .list n _ => n

/-- `list.parse_args::<T>()` and `list.parse_args_with(..)` for the types used; `none` is a syntax error. -/
structure Syn (τ : Type) where
  /-- `Punctuated::<Meta, Token![,]>::parse_terminated` -/
  metas : τ → Option (List (Meta τ))
  /-- `Meta` -/
  one : τ → Option (Meta τ)
  /-- `Ident` -/
  ident : τ → Option String
  /-- `Punctuated::<Ident, Token![,]>::parse_separated_nonempty` -/
  idents : τ → Option (List String)
  /-- `LitInt` -/
  litInt : τ → Option (List UInt8)
  /-- `LitFloat` -/
  litFloat : τ → Option (List UInt8)
  /-- `LitBool` -/
  litBool : τ → Option Bool
  /-- `LitByte` -/
  litByte : τ → Option UInt8
  /-- `ExprRange` -/
  range : τ → Option RangeExpr
  /-- `Expr` -/
  expr : τ → Option Expr

/-- A number type: `FromStr`, `PartialOrd`, and whether a value can be written as a literal (`ToTokens` of `quote` calls
`Literal::f64_suffixed` and `Literal::f32_suffixed`, which panic for the infinities and NaN). -/
structure NumTy (α : Type) where
  fromStr : List UInt8 → Option α
  pcmp : α → α → Option Ordering
  literal : α → Bool

/-- The integer type with this many bits: `i8::from_str` and so on (`build_from_meta::<i8>` in
`validator_handlers/signed_integer/mod.rs` L54-61, `unsigned_integer/mod.rs` L54-61). -/
def intTy (signed : Bool) (bits : Nat) : NumTy Int where
  fromStr s := (IntV.fromStr signed bits s).toOption
  pcmp a b := some (compare a b)
  literal _ := true

/-- The order in which a `std::collections::HashSet` gives its elements. It depends on keys that are random in every run of the
compiler, so it is some order. The elements are given here in the order in which they were inserted. -/
structure Order (κ : Type) where
  list : List κ → List κ
  perm : ∀ l, (list l).Perm l

/-- What the macro is compiled with: `syn`, the features `serde`, `rocket` and `full`, the number type of ranges, `usize`,
the countries of `phonenumber`, the order of the set of countries and `Regex::new`. -/
structure Env (τ α κ : Type) where
  syn : Syn τ
  serde : Bool
  rocket : Bool
  full : Bool
  num : NumTy α
  usize : List UInt8 → Option Nat
  country : String → Option κ
  order : Order κ
  regexOk : String → Bool

/-- The kinds of `syn::Error`s made in `panic.rs` and next to the reading functions. -/
inductive AttrError where
  /-- `attribute_incorrect_format` -/
  | format
  /-- `parameter_incorrect_format`: no such parameter -/
  | unknown
  /-- `parameter_reset` -/
  | reset
  /-- the tokens cannot be parsed -/
  | syn
  /-- the value is not one of those expected -/
  | value
  /-- the feature is not enabled -/
  | feature
  /-- `min > max` and the like -/
  | order
  /-- a country is repeated -/
  | repeated
  /-- the `regex` parameter is not set -/
  | missing
  /-- two options cannot be used together -/
  | conflict
  deriving DecidableEq, Repr

/-- `ok_or(e)?`. -/
def orErr {β : Type} (e : AttrError) : Option β → Out AttrError β
  | some b => .ok b
  | none => .err e

variable {τ α κ : Type}

/-! ## Single values -/

/-- `expr_lit_2_number`: `common/number.rs` L7-21. -/
def litNumber (fromStr : List UInt8 → Option α) : Lit → Out AttrError α
  | .int d => orErr .value (fromStr d)
  | .float d => orErr .value (fromStr d)
  | _ => .err .value

/-- `expr_2_number`: `common/number.rs` L23-63. -/
def exprNumber (fromStr : List UInt8 → Option α) : Expr → Out AttrError α
  | .lit l => litNumber fromStr l
  | .neg (.int d) => orErr .value (fromStr (asc '-' :: d))
  | .neg (.float d) => orErr .value (fromStr (asc '-' :: d))
  | .group (some l) => litNumber fromStr l
  | _ => .err .value

/-- `meta_2_number`: `common/number.rs` L65-92. -/
def metaNumber (syn : Syn τ) (fromStr : List UInt8 → Option α) : Meta τ → Out AttrError α
  | .nameValue _ e => exprNumber fromStr e
  | .list _ t =>
    match syn.litInt t with
    | some d => orErr .value (fromStr d)
    | none => (orErr .syn (syn.litFloat t)).bind fun d => orErr .value (fromStr d)
  | .path _ => .err .value

/-- `meta_2_bool`: `common/boolean.rs` L5-38. -/
def metaBool (syn : Syn τ) : Meta τ → Out AttrError Bool
  | .nameValue _ (.lit (.bool b)) => .ok b
  | .nameValue _ (.group (some (.bool b))) => .ok b
  | .nameValue _ _ => .err .value
  | .list _ t => orErr .syn (syn.litBool t)
  | .path _ => .err .value

/-- The identifier given to a parameter: the common part of `Allow::from_meta`, `TriAllow::from_meta` and
`CaseOption::from_meta` (`common/allow.rs` L44-68, `common/tri_allow.rs` L57-81, `common/case_option.rs` L58-82). -/
def metaIdent (syn : Syn τ) : Meta τ → Out AttrError String
  | .nameValue _ (.path (some i)) => .ok i
  | .nameValue _ _ => .err .value
  | .list _ t => orErr .value (syn.ident t)
  | .path _ => .err .value

/-- `Allow::from_ident`: `common/allow.rs` L31-40. -/
def allowOf (i : String) : Out AttrError Allow :=
  if i = "Allow" then .ok .allow else if i = "Disallow" then .ok .disallow else .err .value

/-- `TriAllow::from_ident`: `common/tri_allow.rs` L43-53. -/
def triAllowOf (i : String) : Out AttrError TriAllow :=
  if i = "Must" then .ok .must else if i = "Allow" then .ok .allow else if i = "Disallow" then .ok .disallow else .err .value

/-- `CaseOption::from_ident`: `common/case_option.rs` L42-52. -/
def caseOf (i : String) : Out AttrError CaseOption :=
  if i = "Any" then .ok .any else if i = "Upper" then .ok .upper else if i = "Lower" then .ok .lower else .err .value

/-- `Allow::from_meta`: `common/allow.rs` L42-69. -/
def metaAllow (syn : Syn τ) (m : Meta τ) : Out AttrError Allow := (metaIdent syn m).bind allowOf

/-- `TriAllow::from_meta`: `common/tri_allow.rs` L55-82. -/
def metaTriAllow (syn : Syn τ) (m : Meta τ) : Out AttrError TriAllow := (metaIdent syn m).bind triAllowOf

/-- `CaseOption::from_meta`: `common/case_option.rs` L54-83. -/
def metaCase (syn : Syn τ) (m : Meta τ) : Out AttrError CaseOption := (metaIdent syn m).bind caseOf

/-- `SeparatorOption::from_meta`: `common/separator_option.rs` L41-104. -/
def metaSeparator (syn : Syn τ) : Meta τ → Out AttrError SeparatorOption
  | .list _ t =>
    (orErr .syn (syn.one t)).bind fun m =>
      match m with
      | .nameValue (some i) (.lit (.byte b)) =>
        if i = "Must" then .ok (.must b) else if i = "Allow" then .ok (.allow b) else .err .value
      | .nameValue _ _ => .err .value
      | .list (some i) t =>
        if i = "Must" then (orErr .syn (syn.litByte t)).map .must
        else if i = "Allow" then (orErr .syn (syn.litByte t)).map .allow
        else .err .value
      | .list none _ => .err .value
      | .path i => if i = some "Disallow" then .ok .disallow else .err .value
  | _ => .err .value

/-- `SerdeOptions` (`serialize`, `deserialize`) and `RocketOptions` (`from_form_field`, `from_param`):
`common/serde_options.rs` L5-9, `common/rocket_options.rs` L5-9. -/
structure Flags where
  first : Bool
  second : Bool
  deriving DecidableEq, Repr

/-- `Default` of both: `common/serde_options.rs` L11-18, `common/rocket_options.rs` L11-18. -/
def Flags.both : Flags := ⟨true, true⟩

/-- The loop of `meta_2_flags`: `common/flag_options.rs` L51-87. -/
def flagLoop (enabled : Bool) (firstName secondName : String) : List String → Flags → Out AttrError Flags
  | [], f => .ok f
  | p :: ps, f =>
    (if p = firstName then if f.first then .err .reset else .ok { f with first := true }
      else if p = secondName then if f.second then .err .reset else .ok { f with second := true }
      else .err .value : Out AttrError Flags).bind fun f =>
    if enabled then flagLoop enabled firstName secondName ps f else .err .feature

/-- `meta_2_flags`: `common/flag_options.rs` L8-90. -/
def metaFlags (syn : Syn τ) (enabled : Bool) (firstName secondName : String) : Meta τ → Out AttrError Flags
  | .path _ => if enabled then .ok ⟨true, true⟩ else .err .feature
  | .nameValue _ (.lit (.bool b)) => if b && !enabled then .err .feature else .ok ⟨b, b⟩
  | .nameValue _ _ => .err .value
  | .list _ t => (orErr .syn (syn.idents t)).bind fun ps => flagLoop enabled firstName secondName ps ⟨false, false⟩

/-! ## The loop over the parameters -/

/-- The parameters of an attribute: the arms of the `match ident.to_string().as_str()` in a handler. `key` finds the local
variable that a name sets, `read` the value. `checkFirst` is true of a parameter whose handler tests `.._is_set` before
it reads the value. -/
structure Table (τ : Type) {K : Type} (V : K → Type) where
  key : String → Option K
  checkFirst : K → Bool
  read : (k : K) → Meta τ → Out AttrError (V k)

section
variable {K : Type} [DecidableEq K] {V : K → Type}

/-- The local variables: `none` while `.._is_set` is false. -/
abbrev State {K : Type} (V : K → Type) := (k : K) → Option (V k)

/-- Nothing is set. -/
def State.init (V : K → Type) : State V := fun _ => none

/-- `x_is_set = true; x = v;`. -/
def State.put (s : State V) (k : K) (v : V k) : State V :=
  fun j => if h : k = j then some (h ▸ v) else s j

/-- The end of an arm, after `let v = ..?;`: `if x_is_set { return Err(parameter_reset(ident)) } x_is_set = true; x = v.into();`, e.g.
`number/number_attribute.rs` L60-66. `r` is the result of reading the value and of `into`, which may panic but comes after the test. -/
def assign {ε : Type} (s : State V) (k : K) (reset : ε) (r : Out ε (V k)) : Out ε (State V) :=
  match r with
  | .err e => .err e
  | .panic => if (s k).isSome then .err reset else .panic
  | .ok v => if (s k).isSome then .err reset else .ok (State.put s k v)

/-- One call of `handler`, with the test of its result: e.g. `email_attribute.rs` L64-176 and L178-185. -/
def step (T : Table τ V) (s : State V) (m : Meta τ) : Out AttrError (State V) :=
  match m.name.bind T.key with
  | none => .err .unknown
  | some k =>
    if T.checkFirst k && (s k).isSome then .err .reset
    else assign s k .reset (T.read k m)

/-- `for p in result { if !handler(&p)? { return Err(..) } }`. -/
def run (T : Table τ V) : List (Meta τ) → State V → Out AttrError (State V)
  | [], s => .ok s
  | m :: ms, s => (step T s m).bind (run T ms)

/-- The `match meta` of every `build_from_meta`: `Meta::Path` keeps the defaults, `Meta::NameValue` is refused, the
parameters of `Meta::List` are read (e.g. `email_attribute.rs` L46-187). -/
def params (syn : Syn τ) (T : Table τ V) : Meta τ → Out AttrError (State V)
  | .path _ => .ok (State.init V)
  | .nameValue _ _ => .err .format
  | .list _ t => (orErr .syn (syn.metas t)).bind fun ps => run T ps (State.init V)

end

/-! ## Ranges and lengths -/

/-- The parameters of a range. -/
inductive RangeKey where
  | min
  | max
  | inclusive
  deriving DecidableEq

/-- Their types. -/
@[reducible] def RangeKey.Val (α : Type) : RangeKey → Type
  | .min => α
  | .max => α
  | .inclusive => Bool

/-- `handler` of `Range::from_meta`: `common/range.rs` L145-196. -/
def rangeTable (syn : Syn τ) (num : NumTy α) : Table τ (RangeKey.Val α) where
  key n := [("min", .min), ("max", .max), ("inclusive", .inclusive)].lookup n
  checkFirst _ := false
  read
    | .min => metaNumber syn num.fromStr
    | .max => metaNumber syn num.fromStr
    | .inclusive => metaBool syn

/-- An operand of a range expression: `common/range.rs` L86-92, L94-99. -/
def operand (num : NumTy α) : Option (Option Lit) → Out AttrError (Option α)
  | none => .ok none
  | some none => .err .value
  | some (some l) => (litNumber num.fromStr l).map some

/-- `Range::from_expr_range`: `common/range.rs` L79-112. -/
def fromExprRange (num : NumTy α) (r : RangeExpr) : Out AttrError (Bounds α) :=
  (operand num r.start).bind fun min => (operand num r.stop).bind fun max =>
    .ok ⟨min, max, !(r.stop.isSome && r.halfOpen)⟩

/-- The test at the end of `Range::from_meta`: `common/range.rs` L209-225. -/
def checkOrder (num : NumTy α) (b : Bounds α) : Out AttrError (Bounds α) :=
  match b.min, b.max with
  | some min, some max => if evalOp (num.pcmp min max) (if b.inclusive then .gt else .ge) then .err .order else .ok b
  | _, _ => .ok b

/-- The named form `(min = .., max = .., inclusive = ..)`: `common/range.rs` L142-205. -/
def namedRange (syn : Syn τ) (num : NumTy α) (t : τ) : Out AttrError (Bounds α) :=
  (orErr .syn (syn.metas t)).bind fun ps => (run (rangeTable syn num) ps (State.init _)).bind fun s =>
    checkOrder num ⟨s .min, s .max, (s .inclusive).getD true⟩

/-- `Range::from_meta`: `common/range.rs` L114-232. -/
def metaRange (syn : Syn τ) (full : Bool) (num : NumTy α) : Meta τ → Out AttrError (Bounds α)
  | .path _ => .err .format
  | .nameValue _ (.range r) => if full then fromExprRange num r else .err .format
  | .nameValue _ _ => .err .format
  | .list _ t =>
    match full, syn.range t with
    | true, some r => fromExprRange num r
    | _, _ => namedRange syn num t

/-- `RangeOption::from_meta`: `common/range_option.rs` L23-73. -/
def metaRangeOption (syn : Syn τ) (full : Bool) (num : NumTy α) : Meta τ → Out AttrError (RangeOption α)
  | .list _ t =>
    (orErr .syn (syn.one t)).bind fun m =>
      if m.name = some "Inside" then (metaRange syn full num m).map .inside
      else if m.name = some "Outside" then (metaRange syn full num m).map .outside
      else if m.name = some "Unlimited" then .ok .unlimited
      else .err .value
  | _ => .err .value

/-- `RangeTokenStream::from`: `common/range_option.rs` L99-128. `into_token_stream` of a bound panics if it cannot be written
as a literal. -/
def tokens (num : NumTy α) (o : RangeOption α) : Out AttrError (RangeOption α) :=
  match o with
  | .inside b => if b.min.all num.literal && b.max.all num.literal then .ok o else .panic
  | .outside b => if b.min.all num.literal && b.max.all num.literal then .ok o else .panic
  | .unlimited => .ok o

/-- `struct Length`: `common/length.rs` L5-10. -/
structure Length where
  min : Option Nat
  trimmedMin : Option Nat
  max : Option Nat
  deriving DecidableEq, Repr

/-- The parameters of a length. -/
inductive LengthKey where
  | min
  | trimmedMin
  | max
  deriving DecidableEq

/-- `handler` of `Length::from_meta`: `common/length.rs` L29-80. -/
def lengthTable (syn : Syn τ) (usize : List UInt8 → Option Nat) : Table τ (fun _ : LengthKey => Nat) where
  key n := [("min", .min), ("trimmed_min", .trimmedMin), ("max", .max)].lookup n
  checkFirst _ := false
  read _ := metaNumber syn usize

/-- `if let (Some(a), Some(b)) = (x, y) && a > b { return Err(..) }`: `common/length.rs` L93-121,
`length/length_attribute.rs` L96-101. -/
def notAbove (x y : Option Nat) : Out AttrError Unit :=
  match x, y with
  | some a, some b => if a > b then .err .order else .ok ()
  | _, _ => .ok ()

/-- `Length::from_meta`: `common/length.rs` L13-128. -/
def metaLength (syn : Syn τ) (usize : List UInt8 → Option Nat) : Meta τ → Out AttrError Length
  | .list _ t =>
    (orErr .syn (syn.metas t)).bind fun ps => (run (lengthTable syn usize) ps (State.init _)).bind fun s =>
      let min : Option Nat := s .min
      let trimmedMin : Option Nat := s .trimmedMin
      let max : Option Nat := s .max
      (notAbove trimmedMin min).bind fun _ => (notAbove min max).bind fun _ => (notAbove trimmedMin max).bind fun _ =>
        .ok ⟨min, trimmedMin, max⟩
  | _ => .err .format

/-! ## Countries and regular expressions -/

/-- The loop of `meta_2_countries`: `phone/phone_attribute.rs` L112-124. The set is a list without repetitions. -/
def countryLoop [DecidableEq κ] (country : String → Option κ) : List String → List κ → Out AttrError (List κ)
  | [], cs => .ok cs
  | i :: is, cs =>
    (orErr .value (country i)).bind fun c => if c ∈ cs then .err .repeated else countryLoop country is (cs ++ [c])

/-- `meta_2_countries`: `phone/phone_attribute.rs` L107-132. From here on the set is only iterated over, so the result is the list of
its elements in that order. -/
def metaCountries [DecidableEq κ] (syn : Syn τ) (country : String → Option κ) (order : Order κ) : Meta τ → Out AttrError (List κ)
  | .list _ t => (orErr .syn (syn.idents t)).bind fun is => (countryLoop country is []).map order.list
  | _ => .err .value

/-- `expr_lit_2_regex_expr` and the other expressions: `regex/regex_attribute.rs` L111-125, L130-134, L139. The result is
the literal or the expression itself. -/
def regexExpr (regexOk : String → Bool) : Expr → Out AttrError Expr
  | .lit (.str s) => if regexOk s then .ok (.lit (.str s)) else .err .value
  | .lit _ => .err .value
  | e => .ok e

/-- `meta_2_regex_expr`: `regex/regex_attribute.rs` L127-147. -/
def metaRegex (syn : Syn τ) (regexOk : String → Bool) : Meta τ → Out AttrError Expr
  | .nameValue _ e => regexExpr regexOk e
  | .list _ t => (orErr .syn (syn.expr t)).bind (regexExpr regexOk)
  | .path _ => .err .value

/-! ## The attributes -/

/-- All parameters of all validators. `range` is a range option, `bounds` a plain range. -/
inductive Key where
  | padding
  | loc
  | port
  | atl
  | comment
  | nonAscii
  | ip
  | ipv4
  | conflict
  | nan
  | range
  | bounds
  | ignoreCase
  | case
  | separator
  | length
  | countries
  | regex
  | min
  | max
  | serde
  | rocket
  deriving DecidableEq

/-- The types of the parameters. -/
@[reducible] def Key.Val (α κ : Type) : Key → Type
  | .padding | .loc | .port | .atl | .ip | .ipv4 | .nan => TriAllow
  | .comment | .nonAscii | .conflict => Allow
  | .range => RangeOption α
  | .bounds => Bounds α
  | .ignoreCase => Bool
  | .case => CaseOption
  | .separator => SeparatorOption
  | .length => Bool × Length
  | .countries => List κ
  | .regex => Expr
  | .min | .max => Nat
  | .serde | .rocket => Flags

/-- How a parameter is read: the first statement of its arm. For `range` this includes the last one, `range = v.into()`
(`number/number_attribute.rs` L66, `common/attributes/range_attribute.rs` L58), which comes after the test of `range_is_set`
(`assign`). For `char_length` and `byte_length` see
`common/attributes/utf8_attribute.rs` L40-65. -/
def Key.read [DecidableEq κ] (E : Env τ α κ) : (k : Key) → Meta τ → Out AttrError (k.Val α κ)
  | .padding | .loc | .port | .atl | .ip | .ipv4 | .nan => metaTriAllow E.syn
  | .comment | .nonAscii | .conflict => metaAllow E.syn
  | .range => fun m => (metaRangeOption E.syn E.full E.num m).bind (tokens E.num)
  | .bounds => metaRange E.syn E.full E.num
  | .ignoreCase => metaBool E.syn
  | .case => metaCase E.syn
  | .separator => metaSeparator E.syn
  | .length => fun m => (metaLength E.syn E.usize m).map fun l => (decide (m.name = some "byte_length"), l)
  | .countries => metaCountries E.syn E.country E.order
  | .regex => metaRegex E.syn E.regexOk
  | .min | .max => metaNumber E.syn E.usize
  | .serde => metaFlags E.syn E.serde "Serialize" "Deserialize"
  | .rocket => metaFlags E.syn E.rocket "FromFormField" "FromParam"

/-- The table of an attribute with these parameters. Only `countries` is tested before it is read
(`phone/phone_attribute.rs` L44-53). -/
def table [DecidableEq κ] (E : Env τ α κ) (names : List (String × Key)) : Table τ (Key.Val α κ) where
  key n := names.lookup n
  checkFirst k := decide (k = .countries)
  read := Key.read E

variable [DecidableEq κ]

/-- The last two parameters of nearly every attribute. -/
def serdeRocket : List (String × Key) := [("serde", .serde), ("rocket", .rocket)]

/-- `BaseXXAttribute`: `common/attributes/base_xx_attribute.rs` L8-14. -/
structure BaseAttribute where
  padding : TriAllow
  serde : Flags
  rocket : Flags
  deriving DecidableEq, Repr

/-- `BaseXXAttribute::build_from_meta`: `common/attributes/base_xx_attribute.rs` L17-102. -/
def baseAttribute (E : Env τ α κ) (m : Meta τ) : Out AttrError BaseAttribute :=
  (params E.syn (table E (("padding", .padding) :: serdeRocket)) m).map fun s =>
    ⟨(s Key.padding).getD TriAllow.allow, (s Key.serde).getD Flags.both, (s Key.rocket).getD Flags.both⟩

/-- `BasicAttribute`: `common/attributes/basic_attribute.rs` L8-13. -/
structure BasicAttribute where
  serde : Flags
  rocket : Flags
  deriving DecidableEq, Repr

/-- `BasicAttribute::build_from_meta`: `common/attributes/basic_attribute.rs` L16-85. -/
def basicAttribute (E : Env τ α κ) (m : Meta τ) : Out AttrError BasicAttribute :=
  (params E.syn (table E serdeRocket) m).map fun s => ⟨(s Key.serde).getD Flags.both, (s Key.rocket).getD Flags.both⟩

/-- `HttpXXUrlAttribute`: `common/attributes/http_xx_url_attribute.rs` L8-14. -/
structure UrlAttribute where
  loc : TriAllow
  serde : Flags
  rocket : Flags
  deriving DecidableEq, Repr

/-- `HttpXXUrlAttribute::build_from_meta`: `common/attributes/http_xx_url_attribute.rs` L17-102. -/
def urlAttribute (E : Env τ α κ) (m : Meta τ) : Out AttrError UrlAttribute :=
  (params E.syn (table E (("local", .loc) :: serdeRocket)) m).map fun s =>
    ⟨(s Key.loc).getD TriAllow.allow, (s Key.serde).getD Flags.both, (s Key.rocket).getD Flags.both⟩

/-- `IpXXAttribute`: `common/attributes/ip_xx_attribute.rs` L8-15. -/
structure IpAttribute where
  loc : TriAllow
  port : TriAllow
  serde : Flags
  rocket : Flags
  deriving DecidableEq, Repr

/-- `IpXXAttribute::build_from_meta`: `common/attributes/ip_xx_attribute.rs` L18-119. -/
def ipAttribute (E : Env τ α κ) (m : Meta τ) : Out AttrError IpAttribute :=
  (params E.syn (table E (("local", .loc) :: ("port", .port) :: serdeRocket)) m).map fun s =>
    ⟨(s Key.loc).getD TriAllow.allow, (s Key.port).getD TriAllow.allow, (s Key.serde).getD Flags.both,
      (s Key.rocket).getD Flags.both⟩

/-- `RangeAttribute`: `common/attributes/range_attribute.rs` L15-21. -/
structure RangeAttribute (α : Type) where
  range : RangeOption α
  serde : Flags
  rocket : Flags
  deriving DecidableEq, Repr

/-- `RangeAttribute::build_from_meta`: `common/attributes/range_attribute.rs` L24-111. -/
def rangeAttribute (E : Env τ α κ) (m : Meta τ) : Out AttrError (RangeAttribute α) :=
  (params E.syn (table E (("range", .range) :: serdeRocket)) m).map fun s =>
    ⟨(s Key.range).getD RangeOption.unlimited, (s Key.serde).getD Flags.both, (s Key.rocket).getD Flags.both⟩

/-- `Utf8Attribute`: `common/attributes/utf8_attribute.rs` L8-14. The flag of the length tells bytes from characters. -/
structure Utf8Attribute where
  length : Option (Bool × Length)
  serde : Flags
  rocket : Flags
  deriving DecidableEq, Repr

/-- `Utf8Attribute::build_from_meta`: `common/attributes/utf8_attribute.rs` L17-115. -/
def utf8Attribute (E : Env τ α κ) (m : Meta τ) : Out AttrError Utf8Attribute :=
  (params E.syn (table E (("char_length", .length) :: ("byte_length", .length) :: serdeRocket)) m).map fun s =>
    ⟨s Key.length, (s Key.serde).getD Flags.both, (s Key.rocket).getD Flags.both⟩

/-- `BitAttribute`: `bit/bit_attribute.rs` L8-14. -/
structure BitAttribute (α : Type) where
  range : Bounds α
  serde : Flags
  rocket : Flags
  deriving DecidableEq, Repr

/-- `BitAttribute::build_from_meta`: `bit/bit_attribute.rs` L17-102; `Range::new`: `common/range.rs` L69-73. -/
def bitAttribute (E : Env τ α κ) (m : Meta τ) : Out AttrError (BitAttribute α) :=
  (params E.syn (table E (("range", .bounds) :: serdeRocket)) m).map fun s =>
    ⟨(s Key.bounds).getD (Bounds.mk none none false), (s Key.serde).getD Flags.both, (s Key.rocket).getD Flags.both⟩

/-- `ByteAttribute`: `byte/byte_attribute.rs` L11-18. -/
structure ByteAttribute (α : Type) where
  range : Bounds α
  ignoreCase : Bool
  serde : Flags
  rocket : Flags
  deriving DecidableEq, Repr

/-- `ByteAttribute::build_from_meta`: `byte/byte_attribute.rs` L21-122. -/
def byteAttribute (E : Env τ α κ) (m : Meta τ) : Out AttrError (ByteAttribute α) :=
  (params E.syn (table E (("range", .bounds) :: ("ignore_case", .ignoreCase) :: serdeRocket)) m).map fun s =>
    ⟨(s Key.bounds).getD (Bounds.mk none none false), (s Key.ignoreCase).getD true, (s Key.serde).getD Flags.both,
      (s Key.rocket).getD Flags.both⟩

/-- `DomainAttribute`: `domain/domain_attribute.rs` L11-21. -/
structure DomainAttribute where
  ipv4 : TriAllow
  loc : TriAllow
  port : TriAllow
  atl : TriAllow
  conflict : Allow
  serde : Flags
  rocket : Flags
  deriving DecidableEq, Repr

/-- `DomainAttribute::build_from_meta`: `domain/domain_attribute.rs` L24-174. -/
def domainAttribute (E : Env τ α κ) (m : Meta τ) : Out AttrError DomainAttribute :=
  (params E.syn (table E (("ipv4", .ipv4) :: ("local", .loc) :: ("port", .port) :: ("at_least_two_labels", .atl) ::
      ("conflict", .conflict) :: serdeRocket)) m).map fun s =>
    ⟨(s Key.ipv4).getD TriAllow.allow, (s Key.loc).getD TriAllow.allow, (s Key.port).getD TriAllow.allow,
      (s Key.atl).getD TriAllow.allow, (s Key.conflict).getD Allow.disallow, (s Key.serde).getD Flags.both,
      (s Key.rocket).getD Flags.both⟩

/-- `EmailAttribute`: `email/email_attribute.rs` L11-22. -/
structure EmailAttribute where
  comment : Allow
  ip : TriAllow
  loc : TriAllow
  atl : TriAllow
  nonAscii : Allow
  conflict : Allow
  serde : Flags
  rocket : Flags
  deriving DecidableEq, Repr

/-- `EmailAttribute::build_from_meta`: `email/email_attribute.rs` L25-199. -/
def emailAttribute (E : Env τ α κ) (m : Meta τ) : Out AttrError EmailAttribute :=
  (params E.syn (table E (("comment", .comment) :: ("ip", .ip) :: ("local", .loc) :: ("at_least_two_labels", .atl) ::
      ("non_ascii", .nonAscii) :: ("conflict", .conflict) :: serdeRocket)) m).map fun s =>
    ⟨(s Key.comment).getD Allow.allow, (s Key.ip).getD TriAllow.allow, (s Key.loc).getD TriAllow.allow,
      (s Key.atl).getD TriAllow.allow, (s Key.nonAscii).getD Allow.allow, (s Key.conflict).getD Allow.disallow,
      (s Key.serde).getD Flags.both, (s Key.rocket).getD Flags.both⟩

/-- `HostAttribute`: `host/host_attribute.rs` L8-16. -/
structure HostAttribute where
  loc : TriAllow
  port : TriAllow
  atl : TriAllow
  serde : Flags
  rocket : Flags
  deriving DecidableEq, Repr

/-- `HostAttribute::build_from_meta`: `host/host_attribute.rs` L19-136. -/
def hostAttribute (E : Env τ α κ) (m : Meta τ) : Out AttrError HostAttribute :=
  (params E.syn (table E (("local", .loc) :: ("port", .port) :: ("at_least_two_labels", .atl) :: serdeRocket)) m).map fun s =>
    ⟨(s Key.loc).getD TriAllow.allow, (s Key.port).getD TriAllow.allow, (s Key.atl).getD TriAllow.allow,
      (s Key.serde).getD Flags.both, (s Key.rocket).getD Flags.both⟩

/-- `LengthAttribute`: `length/length_attribute.rs` L8-13. -/
structure LengthAttribute where
  min : Option Nat
  max : Option Nat
  serde : Flags
  deriving DecidableEq, Repr

/-- `LengthAttribute::build_from_meta`: `length/length_attribute.rs` L16-108. -/
def lengthAttribute (E : Env τ α κ) (m : Meta τ) : Out AttrError LengthAttribute :=
  (params E.syn (table E [("min", .min), ("max", .max), ("serde", .serde)]) m).bind fun s =>
    let min : Option Nat := s Key.min
    let max : Option Nat := s Key.max
    (notAbove min max).bind fun _ => .ok ⟨min, max, (s Key.serde).getD Flags.both⟩

/-- `MacAddressAttribute` and `UuidAttribute`: `mac_address/mac_address_attribute.rs` L11-18, `uuid/uuid_attribute.rs` L11-18. -/
structure HexAttribute where
  case : CaseOption
  separator : SeparatorOption
  serde : Flags
  rocket : Flags
  deriving DecidableEq, Repr

/-- The body that `MacAddressAttribute::build_from_meta` and `UuidAttribute::build_from_meta` share: `sep` is the default
separator. `mac_address/mac_address_attribute.rs` L21-122, `uuid/uuid_attribute.rs` L21-122. -/
def hexAttribute (sep : Char) (E : Env τ α κ) (m : Meta τ) : Out AttrError HexAttribute :=
  (params E.syn (table E (("case", .case) :: ("separator", .separator) :: serdeRocket)) m).map fun s =>
    ⟨(s Key.case).getD CaseOption.any, (s Key.separator).getD (SeparatorOption.allow (asc sep)), (s Key.serde).getD Flags.both,
      (s Key.rocket).getD Flags.both⟩

/-- `MacAddressAttribute::build_from_meta`: the default separator is `b':'` (L25). -/
def macAttribute (E : Env τ α κ) (m : Meta τ) : Out AttrError HexAttribute := hexAttribute ':' E m

/-- `UuidAttribute::build_from_meta`: the default separator is `b'-'` (L25). -/
def uuidAttribute (E : Env τ α κ) (m : Meta τ) : Out AttrError HexAttribute := hexAttribute '-' E m

/-- `NumberAttribute`: `number/number_attribute.rs` L17-25. -/
structure NumberAttribute (α : Type) where
  range : RangeOption α
  nan : TriAllow
  conflict : Allow
  serde : Flags
  rocket : Flags
  deriving DecidableEq, Repr

/-- `NumberAttribute::build_from_meta`: `number/number_attribute.rs` L28-147. -/
def numberAttribute (E : Env τ α κ) (m : Meta τ) : Out AttrError (NumberAttribute α) :=
  (params E.syn (table E (("range", .range) :: ("nan", .nan) :: ("conflict", .conflict) :: serdeRocket)) m).map fun s =>
    ⟨(s Key.range).getD RangeOption.unlimited, (s Key.nan).getD TriAllow.allow, (s Key.conflict).getD Allow.disallow,
      (s Key.serde).getD Flags.both, (s Key.rocket).getD Flags.both⟩

/-- `PhoneAttribute`: `phone/phone_attribute.rs` L12-18. -/
structure PhoneAttribute (κ : Type) where
  countries : List κ
  serde : Flags
  rocket : Flags
  deriving DecidableEq, Repr

/-- `PhoneAttribute::build_from_meta`: `phone/phone_attribute.rs` L21-104. -/
def phoneAttribute (E : Env τ α κ) (m : Meta τ) : Out AttrError (PhoneAttribute κ) :=
  (params E.syn (table E (("countries", .countries) :: serdeRocket)) m).map fun s =>
    ⟨(s Key.countries).getD ([] : List κ), (s Key.serde).getD Flags.both, (s Key.rocket).getD Flags.both⟩

/-- `RegexAttribute`: `regex/regex_attribute.rs` L10-16. -/
structure RegexAttribute where
  regex : Expr
  serde : Flags
  rocket : Flags
  deriving DecidableEq, Repr

/-- `RegexAttribute::build_from_meta`: `regex/regex_attribute.rs` L19-108. -/
def regexAttribute (E : Env τ α κ) (m : Meta τ) : Out AttrError RegexAttribute :=
  (params E.syn (table E (("regex", .regex) :: serdeRocket)) m).bind fun s =>
    match (s Key.regex : Option Expr) with
    | some regex => .ok ⟨regex, (s Key.serde).getD Flags.both, (s Key.rocket).getD Flags.both⟩
    | none => .err .missing

/-! ## The checks of the handlers

They come first in `meta_handler`, after the attribute has been read, for structs. The shape of the struct is checked
next: `Model/Derive.lean`. -/

/-- `DomainHandler::meta_handler`: `validator_handlers/domain/mod.rs` L126-140. -/
def domainConfig (E : Env τ α κ) (m : Meta τ) : Out AttrError DomainAttribute :=
  (domainAttribute E m).bind fun a =>
    if a.ipv4 = .must ∧ a.atl = .disallow then
      if a.conflict = .disallow then .err .conflict else .ok a
    else .ok a

/-- `EmailHandler::meta_handler`: `validator_handlers/email/mod.rs` L168-182. -/
def emailConfig (E : Env τ α κ) (m : Meta τ) : Out AttrError EmailAttribute :=
  (emailAttribute E m).bind fun a =>
    if a.ip = .must ∧ a.atl = .disallow then
      if a.conflict = .disallow then .err .conflict else .ok a
    else .ok a

/-- `NumberHandler::meta_handler`: `validator_handlers/number/mod.rs` L42-59. -/
def numberConfig (E : Env τ α κ) (m : Meta τ) : Out AttrError (NumberAttribute α) :=
  (numberAttribute E m).bind fun a =>
    if a.nan = .must ∧ (match a.range with | .inside _ => true | _ => false) = true ∧ a.conflict = .disallow then .err .conflict
    else .ok a

end Verif.Attr
