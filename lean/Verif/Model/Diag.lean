import Verif.Model.Derive

/-!
# The messages of the derive macro

`Model/Attr.lean` keeps only the kind of an error. Here the same functions are written again with the messages that the errors
carry, and `Proof/Diag.lean` shows that forgetting the messages gives back `Model/Attr.lean`. Paths are relative to
`validators-derive/src`.

Simplification: a message is kept as its parts (the names and numbers that are put into the text), not as the formatted text.
Messages that `syn` and other libraries write are `lib`.
-/

namespace Verif.Diag

open Verif.Attr Verif.Derive
open Verif.Range (Bounds RangeOption CmpOp evalOp)

/-- The messages: `panic.rs` L79-106 and the texts next to the reading functions. -/
inductive Message (α : Type) where
  /-- ``"you are using an incorrect format of the `{path}` attribute"``: `panic.rs` L80-85 -/
  | format (path : String)
  /-- ``"unsupported parameter `{path}`, available parameters:{..}"``: `panic.rs` L93-106 -/
  | unknown (path : String) (available : List String)
  /-- ``"you are trying to reset the `{name}` parameter"``: `panic.rs` L88-90 -/
  | reset (name : String)
  /-- a syntax error found by `syn` -/
  | syn
  /-- `FromStr` of a number or of a country, or `Regex::new`, has failed -/
  | lib
  /-- `"expected a number"`: `common/number.rs` L20, L62 -/
  | number
  /-- ``"expected `{path} = 0` or `{path}(0)`"``: `common/number.rs` L90 -/
  | numberForm (path : String)
  /-- `"not a literal"`: `common/range.rs` L91, L99 -/
  | literal
  /-- ``"expected `{path} = false` or `{path}(false)`"``: `common/boolean.rs` L36 -/
  | boolForm (path : String)
  /-- `"expected a bool"`: `common/flag_options.rs` L45 -/
  | bool
  /-- `"expected Allow/Disallow"` and the like: `common/allow.rs` L38, `tri_allow.rs` L51, `case_option.rs` L50,
  `flag_options.rs` L72 -/
  | word (words : List String)
  /-- ``"expected `{path} = Allow/Disallow` or `{path}(Allow/Disallow)`"`` and the like: `common/allow.rs` L65, `tri_allow.rs` L78,
  `case_option.rs` L79 -/
  | wordForm (path : String) (words : List String)
  /-- ``"expected `{path}(Must(b'-')/Allow(b'-')/Disallow)`"``: `common/separator_option.rs` L100 -/
  | separatorForm (path : String)
  /-- ``"expected `{path}(Inside(..)/Outside(..)/Unlimited)`"``: `common/range_option.rs` L69 -/
  | rangeForm (path : String)
  /-- ``"expected `countries(TW, US, ...)`"``: `phone/phone_attribute.rs` L131 -/
  | countriesForm
  /-- ``"expected `\"regex\"`"``: `regex/regex_attribute.rs` L124 -/
  | regexLiteral
  /-- ``"expected `\"regex\"` or an expr"``: `regex/regex_attribute.rs` L146 -/
  | regexForm
  /-- ``"the `{name}` feature is not enabled"`` and the like: `common/flag_options.rs` L22, L36, L80 -/
  | feature (name : String)
  /-- `"{min} > {max} (min > max)"`: `common/range.rs` L216 -/
  | above (min max : α)
  /-- `"{min} >= {max} (min >= max)"`: `common/range.rs` L222 -/
  | notBelow (min max : α)
  /-- `"{a} > {b} (x > y)"` with the names of the two lengths: `common/length.rs` L99, L108, L119, `length/length_attribute.rs` L100 -/
  | lengths (x : String) (a : Nat) (y : String) (b : Nat)
  /-- ``"the country `{country}` of the phone validator is repeated"``: `phone/phone_attribute.rs` L121 -/
  | repeated (country : String)
  /-- ``"the `regex` parameter is not set"``: `regex/regex_attribute.rs` L106 -/
  | missing (name : String)
  /-- ``"`{a}` and `{b}` cannot be used together"``: `domain/mod.rs` L135, `email/mod.rs` L177, `number/mod.rs` L57 -/
  | conflict (a b : String)
  deriving DecidableEq, Repr

/-- The kind of a message. -/
def Message.kind {α : Type} : Message α → AttrError
  | .format _ => .format
  | .unknown _ _ => .unknown
  | .reset _ => .reset
  | .syn => .syn
  | .feature _ => .feature
  | .above _ _ | .notBelow _ _ | .lengths _ _ _ _ => .order
  | .repeated _ => .repeated
  | .missing _ => .missing
  | .conflict _ _ => .conflict
  | _ => .value

variable {τ α β κ : Type}

/-- `ok_or(e)?`. -/
def orMsg (e : Message α) : Option β → Out (Message α) β
  | some b => .ok b
  | none => .err e

/-- The same without the messages. -/
def forget : Out (Message α) β → Out AttrError β
  | .ok b => .ok b
  | .err e => .err e.kind
  | .panic => .panic

/-! ## Single values -/

/-- `expr_lit_2_number`: `common/number.rs` L7-21. -/
def litNumber (fromStr : List UInt8 → Option β) : Lit → Out (Message α) β
  | .int d => orMsg .lib (fromStr d)
  | .float d => orMsg .lib (fromStr d)
  | _ => .err .number

/-- `expr_2_number`: `common/number.rs` L23-63. -/
def exprNumber (fromStr : List UInt8 → Option β) : Expr → Out (Message α) β
  | .lit l => litNumber fromStr l
  | .neg (.int d) => orMsg .lib (fromStr (asc '-' :: d))
  | .neg (.float d) => orMsg .lib (fromStr (asc '-' :: d))
  | .group (some l) => litNumber fromStr l
  | _ => .err .number

/-- `path_to_string(meta.path())`: `common/mod.rs` L96-99. It is the identifier, if the path is one; `other` stands for what is
shown of a longer path. -/
def shown (other : Meta τ → String) (m : Meta τ) : String := m.name.getD (other m)

/-- `meta_2_number`: `common/number.rs` L65-92. -/
def metaNumber (syn : Syn τ) (other : Meta τ → String) (fromStr : List UInt8 → Option β) (m : Meta τ) : Out (Message α) β :=
  match m with
  | .nameValue _ e => exprNumber fromStr e
  | .list _ t =>
    match syn.litInt t with
    | some d => orMsg .lib (fromStr d)
    | none => (orMsg .syn (syn.litFloat t)).bind fun d => orMsg .lib (fromStr d)
  | .path _ => .err (.numberForm (shown other m))

/-- `meta_2_bool`: `common/boolean.rs` L5-38. -/
def metaBool (syn : Syn τ) (other : Meta τ → String) (m : Meta τ) : Out (Message α) Bool :=
  match m with
  | .nameValue _ (.lit (.bool b)) => .ok b
  | .nameValue _ (.group (some (.bool b))) => .ok b
  | .nameValue _ _ => .err (.boolForm (shown other m))
  | .list _ t => orMsg .syn (syn.litBool t)
  | .path _ => .err (.boolForm (shown other m))

/-- `Allow::from_ident`: `common/allow.rs` L31-40. -/
def allowOf (i : String) : Out (Message α) Allow :=
  if i = "Allow" then .ok .allow else if i = "Disallow" then .ok .disallow else .err (.word ["Allow", "Disallow"])

/-- `TriAllow::from_ident`: `common/tri_allow.rs` L43-53. -/
def triAllowOf (i : String) : Out (Message α) TriAllow :=
  if i = "Must" then .ok .must else if i = "Allow" then .ok .allow else if i = "Disallow" then .ok .disallow
  else .err (.word ["Must", "Allow", "Disallow"])

/-- `CaseOption::from_ident`: `common/case_option.rs` L42-52. -/
def caseOf (i : String) : Out (Message α) CaseOption :=
  if i = "Any" then .ok .any else if i = "Upper" then .ok .upper else if i = "Lower" then .ok .lower
  else .err (.word ["Any", "Upper", "Lower"])

/-- The common part of `Allow::from_meta`, `TriAllow::from_meta` and `CaseOption::from_meta`: `common/allow.rs` L42-69,
`common/tri_allow.rs` L55-82, `common/case_option.rs` L54-83. -/
def metaWord (syn : Syn τ) (other : Meta τ → String) (words : List String) (of : String → Out (Message α) β) (m : Meta τ) :
    Out (Message α) β :=
  match m with
  | .nameValue _ (.path (some i)) => of i
  | .nameValue _ _ => .err (.wordForm (shown other m) words)
  | .list _ t =>
    match syn.ident t with
    | some i => of i
    | none => .err (.wordForm (shown other m) words)
  | .path _ => .err (.wordForm (shown other m) words)

/-- `SeparatorOption::from_meta`: `common/separator_option.rs` L41-104. The `meta` of the last statement is the outer one. -/
def metaSeparator (syn : Syn τ) (other : Meta τ → String) (m : Meta τ) : Out (Message α) SeparatorOption :=
  match m with
  | .list _ t =>
    (orMsg .syn (syn.one t)).bind fun n =>
      match n with
      | .nameValue (some i) (.lit (.byte b)) =>
        if i = "Must" then .ok (.must b) else if i = "Allow" then .ok (.allow b) else .err (.separatorForm (shown other m))
      | .nameValue _ _ => .err (.separatorForm (shown other m))
      | .list (some i) t =>
        if i = "Must" then (orMsg .syn (syn.litByte t)).map .must
        else if i = "Allow" then (orMsg .syn (syn.litByte t)).map .allow
        else .err (.separatorForm (shown other m))
      | .list none _ => .err (.separatorForm (shown other m))
      | .path i => if i = some "Disallow" then .ok .disallow else .err (.separatorForm (shown other m))
  | _ => .err (.separatorForm (shown other m))

/-- The loop of `meta_2_flags`: `common/flag_options.rs` L51-87. -/
def flagLoop (feature : String) (enabled : Bool) (firstName secondName : String) : List String → Flags → Out (Message α) Flags
  | [], f => .ok f
  | p :: ps, f =>
    (if p = firstName then if f.first then .err (.reset p) else .ok { f with first := true }
      else if p = secondName then if f.second then .err (.reset p) else .ok { f with second := true }
      else .err (.word [firstName, secondName]) : Out (Message α) Flags).bind fun f =>
    if enabled then flagLoop feature enabled firstName secondName ps f else .err (.feature feature)

/-- `meta_2_flags`: `common/flag_options.rs` L8-90. -/
def metaFlags (syn : Syn τ) (feature : String) (enabled : Bool) (firstName secondName : String) : Meta τ → Out (Message α) Flags
  | .path _ => if enabled then .ok ⟨true, true⟩ else .err (.feature feature)
  | .nameValue _ (.lit (.bool b)) => if b && !enabled then .err (.feature feature) else .ok ⟨b, b⟩
  | .nameValue _ _ => .err .bool
  | .list _ t => (orMsg .syn (syn.idents t)).bind fun ps => flagLoop feature enabled firstName secondName ps ⟨false, false⟩

/-! ## The loop over the parameters -/

/-- The arms of a handler, and the array `correct_parameters`. -/
structure Table (τ : Type) {K : Type} (α : Type) (V : K → Type) where
  listed : List String
  key : String → Option K
  checkFirst : K → Bool
  read : (k : K) → Meta τ → Out (Message α) (V k)

section
variable {K : Type} [DecidableEq K] {V : K → Type}

/-- One call of `handler`, with the test of its result: e.g. `email_attribute.rs` L64-176 and L178-185. `parameter_reset(ident)` shows
the name of the parameter at hand. -/
def step (other : Meta τ → String) (T : Table τ α V) (s : State V) (m : Meta τ) : Out (Message α) (State V) :=
  match m.name.bind T.key with
  | none => .err (.unknown (shown other m) T.listed)
  | some k =>
    if T.checkFirst k && (s k).isSome then .err (.reset (shown other m))
    else assign s k (.reset (shown other m)) (T.read k m)

/-- `for p in result { if !handler(&p)? { return Err(..) } }`. -/
def run (other : Meta τ → String) (T : Table τ α V) : List (Meta τ) → State V → Out (Message α) (State V)
  | [], s => .ok s
  | m :: ms, s => (step other T s m).bind (run other T ms)

/-- The `match meta` of every `build_from_meta` (e.g. `email_attribute.rs` L46-187). -/
def params (syn : Syn τ) (other : Meta τ → String) (T : Table τ α V) (m : Meta τ) : Out (Message α) (State V) :=
  match m with
  | .path _ => .ok (State.init V)
  | .nameValue _ _ => .err (.format (shown other m))
  | .list _ t => (orMsg .syn (syn.metas t)).bind fun ps => run other T ps (State.init V)

end

/-! ## Ranges and lengths -/

/-- `Range::from_meta`, its `handler` and `correct_parameters`: `common/range.rs` L116, L145-196. -/
def rangeTable (syn : Syn τ) (other : Meta τ → String) (num : NumTy α) : Table τ α (RangeKey.Val α) where
  listed := ["min", "max", "inclusive"]
  key n := [("min", .min), ("max", .max), ("inclusive", .inclusive)].lookup n
  checkFirst _ := false
  read
    | .min => metaNumber syn other num.fromStr
    | .max => metaNumber syn other num.fromStr
    | .inclusive => metaBool syn other

/-- An operand of a range expression: `common/range.rs` L86-92, L94-99. -/
def operand (num : NumTy α) : Option (Option Lit) → Out (Message α) (Option α)
  | none => .ok none
  | some none => .err .literal
  | some (some l) => (litNumber num.fromStr l).map some

/-- `Range::from_expr_range`: `common/range.rs` L79-112. -/
def fromExprRange (num : NumTy α) (r : RangeExpr) : Out (Message α) (Bounds α) :=
  (operand num r.start).bind fun min => (operand num r.stop).bind fun max =>
    .ok ⟨min, max, !(r.stop.isSome && r.halfOpen)⟩

/-- The test at the end of `Range::from_meta`: `common/range.rs` L209-225. -/
def checkOrder (num : NumTy α) (b : Bounds α) : Out (Message α) (Bounds α) :=
  match b.min, b.max with
  | some min, some max =>
    if b.inclusive then if evalOp (num.pcmp min max) .gt then .err (.above min max) else .ok b
    else if evalOp (num.pcmp min max) .ge then .err (.notBelow min max) else .ok b
  | _, _ => .ok b

/-- The named form `(min = .., max = .., inclusive = ..)`: `common/range.rs` L142-205. -/
def namedRange (syn : Syn τ) (other : Meta τ → String) (num : NumTy α) (t : τ) : Out (Message α) (Bounds α) :=
  (orMsg .syn (syn.metas t)).bind fun ps => (run other (rangeTable syn other num) ps (State.init _)).bind fun s =>
    checkOrder num ⟨s .min, s .max, (s .inclusive).getD true⟩

/-- `Range::from_meta`: `common/range.rs` L114-232. -/
def metaRange (syn : Syn τ) (other : Meta τ → String) (full : Bool) (num : NumTy α) (m : Meta τ) : Out (Message α) (Bounds α) :=
  match m with
  | .path _ => .err (.format (shown other m))
  | .nameValue _ (.range r) => if full then fromExprRange num r else .err (.format (shown other m))
  | .nameValue _ _ => .err (.format (shown other m))
  | .list _ t =>
    match full, syn.range t with
    | true, some r => fromExprRange num r
    | _, _ => namedRange syn other num t

/-- `RangeOption::from_meta`: `common/range_option.rs` L23-73. -/
def metaRangeOption (syn : Syn τ) (other : Meta τ → String) (full : Bool) (num : NumTy α) (m : Meta τ) :
    Out (Message α) (RangeOption α) :=
  match m with
  | .list _ t =>
    (orMsg .syn (syn.one t)).bind fun n =>
      if n.name = some "Inside" then (metaRange syn other full num n).map .inside
      else if n.name = some "Outside" then (metaRange syn other full num n).map .outside
      else if n.name = some "Unlimited" then .ok .unlimited
      else .err (.rangeForm (shown other m))
  | _ => .err (.rangeForm (shown other m))

/-- `RangeTokenStream::from`: `common/range_option.rs` L99-128. -/
def tokens (num : NumTy α) (o : RangeOption α) : Out (Message α) (RangeOption α) :=
  match o with
  | .inside b => if b.min.all num.literal && b.max.all num.literal then .ok o else .panic
  | .outside b => if b.min.all num.literal && b.max.all num.literal then .ok o else .panic
  | .unlimited => .ok o

/-- `Length::from_meta`, its `handler` and `correct_parameters`: `common/length.rs` L15, L29-80. -/
def lengthTable (syn : Syn τ) (other : Meta τ → String) (usize : List UInt8 → Option Nat) :
    Table τ α (fun _ : LengthKey => Nat) where
  listed := ["min", "trimmed_min", "max"]
  key n := [("min", .min), ("trimmed_min", .trimmedMin), ("max", .max)].lookup n
  checkFirst _ := false
  read _ := metaNumber syn other usize

/-- `if let (Some(a), Some(b)) = (x, y) && a > b { return Err(..) }`: `common/length.rs` L93-121,
`length/length_attribute.rs` L96-101. -/
def notAbove (nx : String) (x : Option Nat) (ny : String) (y : Option Nat) : Out (Message α) Unit :=
  match x, y with
  | some a, some b => if a > b then .err (.lengths nx a ny b) else .ok ()
  | _, _ => .ok ()

/-- `Length::from_meta`: `common/length.rs` L13-128. -/
def metaLength (syn : Syn τ) (other : Meta τ → String) (usize : List UInt8 → Option Nat) (m : Meta τ) : Out (Message α) Length :=
  match m with
  | .list _ t =>
    (orMsg .syn (syn.metas t)).bind fun ps => (run other (lengthTable syn other usize) ps (State.init _)).bind fun s =>
      let min : Option Nat := s .min
      let trimmedMin : Option Nat := s .trimmedMin
      let max : Option Nat := s .max
      (notAbove "trimmed_min" trimmedMin "min" min).bind fun _ => (notAbove "min" min "max" max).bind fun _ =>
        (notAbove "trimmed_min" trimmedMin "max" max).bind fun _ => .ok ⟨min, trimmedMin, max⟩
  | _ => .err (.format (shown other m))

/-! ## Countries and regular expressions -/

/-- The loop of `meta_2_countries`: `phone/phone_attribute.rs` L112-124. -/
def countryLoop [DecidableEq κ] (country : String → Option κ) : List String → List κ → Out (Message α) (List κ)
  | [], cs => .ok cs
  | i :: is, cs =>
    (orMsg .lib (country i)).bind fun c => if c ∈ cs then .err (.repeated i) else countryLoop country is (cs ++ [c])

/-- `meta_2_countries`: `phone/phone_attribute.rs` L107-132. -/
def metaCountries [DecidableEq κ] (syn : Syn τ) (country : String → Option κ) (order : Order κ) : Meta τ → Out (Message α) (List κ)
  | .list _ t => (orMsg .syn (syn.idents t)).bind fun is => (countryLoop country is []).map order.list
  | _ => .err .countriesForm

/-- `expr_lit_2_regex_expr` and the other expressions: `regex/regex_attribute.rs` L111-125, L130-134, L139. -/
def regexExpr (regexOk : String → Bool) : Expr → Out (Message α) Expr
  | .lit (.str s) => if regexOk s then .ok (.lit (.str s)) else .err .lib
  | .lit _ => .err .regexLiteral
  | e => .ok e

/-- `meta_2_regex_expr`: `regex/regex_attribute.rs` L127-147. -/
def metaRegex (syn : Syn τ) (regexOk : String → Bool) : Meta τ → Out (Message α) Expr
  | .nameValue _ e => regexExpr regexOk e
  | .list _ t => (orMsg .syn (syn.expr t)).bind (regexExpr regexOk)
  | .path _ => .err .regexForm

/-! ## The attributes -/

variable [DecidableEq κ]

/-- How a parameter is read: see `Attr.Key.read`. -/
def readKey (E : Env τ α κ) (other : Meta τ → String) : (k : Key) → Meta τ → Out (Message α) (k.Val α κ)
  | .padding | .loc | .port | .atl | .ip | .ipv4 | .nan => metaWord E.syn other ["Must", "Allow", "Disallow"] triAllowOf
  | .comment | .nonAscii | .conflict => metaWord E.syn other ["Allow", "Disallow"] allowOf
  | .range => fun m => (metaRangeOption E.syn other E.full E.num m).bind (tokens E.num)
  | .bounds => metaRange E.syn other E.full E.num
  | .ignoreCase => metaBool E.syn other
  | .case => metaWord E.syn other ["Any", "Upper", "Lower"] caseOf
  | .separator => metaSeparator E.syn other
  | .length => fun m => (metaLength E.syn other E.usize m).map fun l => (decide (m.name = some "byte_length"), l)
  | .countries => metaCountries E.syn E.country E.order
  | .regex => metaRegex E.syn E.regexOk
  | .min | .max => metaNumber E.syn other E.usize
  | .serde => metaFlags E.syn "serde" E.serde "Serialize" "Deserialize"
  | .rocket => metaFlags E.syn "rocket" E.rocket "FromFormField" "FromParam"

/-- `correct_parameters` of each `build_from_meta`: `common/attributes/base_xx_attribute.rs` L18, `basic_attribute.rs` L17,
`http_xx_url_attribute.rs` L18, `ip_xx_attribute.rs` L19, `range_attribute.rs` L27, `utf8_attribute.rs` L18, `bit/bit_attribute.rs` L18,
`byte/byte_attribute.rs` L22, `domain/domain_attribute.rs` L25-26, `email/email_attribute.rs` L26-35, `host/host_attribute.rs` L20,
`length/length_attribute.rs` L17, `mac_address/mac_address_attribute.rs` L22, `uuid/uuid_attribute.rs` L22,
`number/number_attribute.rs` L31, `phone/phone_attribute.rs` L22, `regex/regex_attribute.rs` L20. -/
def listed : Validator → List String
  | .base32 | .base32_decoded | .base64 | .base64_decoded | .base64_url | .base64_url_decoded => ["padding", "serde", "rocket"]
  | .bit => ["range", "serde", "rocket"]
  | .boolean | .json | .semver | .semver_req | .url => ["serde", "rocket"]
  | .byte => ["range", "ignore_case", "serde", "rocket"]
  | .domain => ["ipv4", "local", "port", "at_least_two_labels", "conflict", "serde", "rocket"]
  | .email => ["comment", "ip", "local", "at_least_two_labels", "non_ascii", "conflict", "serde", "rocket"]
  | .host => ["local", "port", "at_least_two_labels", "serde", "rocket"]
  | .http_url | .http_ftp_url => ["local", "serde", "rocket"]
  | .ip | .ipv4 | .ipv6 => ["local", "port", "serde", "rocket"]
  | .length => ["min", "max", "serde"]
  | .line | .text => ["char_length", "byte_length", "serde", "rocket"]
  | .mac_address | .uuid => ["case", "separator", "serde", "rocket"]
  | .number => ["range", "nan", "conflict", "serde", "rocket"]
  | .phone => ["countries", "serde", "rocket"]
  | .regex => ["regex", "serde", "rocket"]
  | .signed_integer | .unsigned_integer => ["range", "serde", "rocket"]

/-- The arms of each `handler`: `common/attributes/base_xx_attribute.rs` L37-84, `basic_attribute.rs` L34-68,
`http_xx_url_attribute.rs` L37-84, `ip_xx_attribute.rs` L40-100, `range_attribute.rs` L46-93, `utf8_attribute.rs` L37-97,
`bit/bit_attribute.rs` L37-84, `byte/byte_attribute.rs` L43-103, `domain/domain_attribute.rs` L53-152, `email/email_attribute.rs` L64-176,
`host/host_attribute.rs` L43-116, `length/length_attribute.rs` L36-83, `mac_address/mac_address_attribute.rs` L43-103,
`uuid/uuid_attribute.rs` L43-103, `number/number_attribute.rs` L54-127, `phone/phone_attribute.rs` L41-86,
`regex/regex_attribute.rs` L39-86. -/
def arms : Validator → List (String × Key)
  | .base32 | .base32_decoded | .base64 | .base64_decoded | .base64_url | .base64_url_decoded => ("padding", .padding) :: serdeRocket
  | .bit => ("range", .bounds) :: serdeRocket
  | .boolean | .json | .semver | .semver_req | .url => serdeRocket
  | .byte => ("range", .bounds) :: ("ignore_case", .ignoreCase) :: serdeRocket
  | .domain => ("ipv4", .ipv4) :: ("local", .loc) :: ("port", .port) :: ("at_least_two_labels", .atl) :: ("conflict", .conflict) ::
      serdeRocket
  | .email => ("comment", .comment) :: ("ip", .ip) :: ("local", .loc) :: ("at_least_two_labels", .atl) :: ("non_ascii", .nonAscii) ::
      ("conflict", .conflict) :: serdeRocket
  | .host => ("local", .loc) :: ("port", .port) :: ("at_least_two_labels", .atl) :: serdeRocket
  | .http_url | .http_ftp_url => ("local", .loc) :: serdeRocket
  | .ip | .ipv4 | .ipv6 => ("local", .loc) :: ("port", .port) :: serdeRocket
  | .length => [("min", .min), ("max", .max), ("serde", .serde)]
  | .line | .text => ("char_length", .length) :: ("byte_length", .length) :: serdeRocket
  | .mac_address | .uuid => ("case", .case) :: ("separator", .separator) :: serdeRocket
  | .number => ("range", .range) :: ("nan", .nan) :: ("conflict", .conflict) :: serdeRocket
  | .phone => ("countries", .countries) :: serdeRocket
  | .regex => ("regex", .regex) :: serdeRocket
  | .signed_integer | .unsigned_integer => ("range", .range) :: serdeRocket

/-- The `build_from_meta` of each validator, up to the end of the `match meta`. -/
def table (E : Env τ α κ) (other : Meta τ → String) (v : Validator) : Table τ α (Key.Val α κ) where
  listed := listed v
  key n := (arms v).lookup n
  checkFirst k := decide (k = .countries)
  read := readKey E other

/-- The tests after the parameters are read: `length/length_attribute.rs` L96-101, `regex/regex_attribute.rs` L99-107 and the conflicts in
the handlers of structs (`domain/mod.rs` L126-140, `email/mod.rs` L168-182, `number/mod.rs` L42-59). -/
def finish (v : Validator) (s : State (Key.Val α κ)) : Out (Message α) Unit :=
  match v with
  | .length => notAbove "min" (s Key.min) "max" (s Key.max)
  | .regex => if (s Key.regex : Option Expr).isSome then .ok () else .err (.missing "regex")
  | .domain =>
    if (s Key.ipv4).getD TriAllow.allow = .must ∧ (s Key.atl).getD TriAllow.allow = .disallow then
      if (s Key.conflict).getD Allow.disallow = .disallow then .err (.conflict "ipv4(Must)" "at_least_two_labels(Disallow)") else .ok ()
    else .ok ()
  | .email =>
    if (s Key.ip).getD TriAllow.allow = .must ∧ (s Key.atl).getD TriAllow.allow = .disallow then
      if (s Key.conflict).getD Allow.disallow = .disallow then .err (.conflict "ip(Must)" "at_least_two_labels(Disallow)") else .ok ()
    else .ok ()
  | .number =>
    if (s Key.nan).getD TriAllow.allow = .must ∧
        (match (s Key.range).getD RangeOption.unlimited with | .inside _ => true | _ => false) = true ∧
        (s Key.conflict).getD Allow.disallow = .disallow then .err (.conflict "nan(Must)" "range(Inside)")
    else .ok ()
  | _ => .ok ()

/-- Reading the attribute of a struct: the parameters, then the tests. -/
def readAttribute (E : Env τ α κ) (other : Meta τ → String) (v : Validator) (m : Meta τ) : Out (Message α) Unit :=
  (params E.syn other (table E other v) m).bind fun s => finish v s

/-! ## The validators -/

/-- The variants of `Validator` in order: `supported_validators.rs` L41-104, without `_Nothing`. -/
def variants : List (Validator × String) :=
  [(.base32, "base32"), (.base32_decoded, "base32_decoded"), (.base64, "base64"), (.base64_decoded, "base64_decoded"),
    (.base64_url, "base64_url"), (.base64_url_decoded, "base64_url_decoded"), (.bit, "bit"), (.boolean, "boolean"), (.byte, "byte"),
    (.domain, "domain"), (.email, "email"), (.host, "host"), (.http_url, "http_url"), (.http_ftp_url, "http_ftp_url"), (.ip, "ip"),
    (.ipv4, "ipv4"), (.ipv6, "ipv6"), (.json, "json"), (.length, "length"), (.line, "line"), (.mac_address, "mac_address"),
    (.number, "number"), (.phone, "phone"), (.regex, "regex"), (.semver, "semver"), (.semver_req, "semver_req"),
    (.signed_integer, "signed_integer"), (.text, "text"), (.unsigned_integer, "unsigned_integer"), (.url, "url"), (.uuid, "uuid")]

/-- `DisplayValidators`: `Validator::VARIANTS` without the last one, each as `{:?}`. `panic.rs` L27-39. A variant exists if its feature is
enabled. -/
def available (enabled : Validator → Bool) : List String := ((variants.filter fun x => enabled x.1).map Prod.snd)

/-- The messages of `derive_input_handler`: `panic.rs` L41-69. -/
inductive SelectMessage where
  /-- a syntax error found by `syn` -/
  | syn
  /-- ``"`validator` can be used only one at a time"`` -/
  | onlyOne
  /-- ``"unsupported validator `{path}`, available validators:{..}"`` -/
  | unsupported (path : String) (available : List String)
  /-- ``"you are using an incorrect format of the `Validator` attribute"`` -/
  | format
  /-- ``"you are using `Validator` in the `derive` attribute, but it has not been set up yet"`` -/
  | notSetUp
  deriving DecidableEq, Repr

/-- The kind of a message. -/
def SelectMessage.kind : SelectMessage → DeriveError
  | .syn => .syn
  | .onlyOne => .onlyOne
  | .unsupported _ _ => .unsupported
  | .format => .format
  | .notSetUp => .notSetUp

/-- The same without the messages. -/
def forgetSelect : Out SelectMessage β → Out DeriveError β
  | .ok b => .ok b
  | .err e => .err e.kind
  | .panic => .panic

/-- The loop of `derive_input_handler`: `lib.rs` L29-51. -/
def select (syn : Syn τ) (other : Meta τ → String) (enabled : Validator → Bool) :
    (used : Option (Validator × Meta τ)) → List (Meta τ) → Out SelectMessage (Option (Validator × Meta τ))
  | used, [] => .ok used
  | used, attr :: rest =>
    if attr.name = some "validator" then
      match attr with
      | .list _ tokens =>
        match syn.one tokens with
        | none => .err .syn
        | some m =>
          match fromPath enabled m.name with
          | some v => if used.isSome then .err .onlyOne else select syn other enabled (some (v, m)) rest
          | none => .err (.unsupported (shown other m) (available enabled))
      | _ => .err .format
    else select syn other enabled used rest

/-- `derive_input_handler` up to the choice of the handler: `lib.rs` L26-53, L199. -/
def choose (syn : Syn τ) (other : Meta τ → String) (enabled : Validator → Bool) (attrs : List (Meta τ)) :
    Out SelectMessage (Validator × Meta τ) :=
  (select syn other enabled none attrs).bind fun used =>
    match used with
    | some x => .ok x
    | none => .err .notSetUp

end Verif.Diag
