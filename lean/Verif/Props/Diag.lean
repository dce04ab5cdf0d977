import Verif.Proof.DiagWords
import Verif.Proof.AttrFixture

/-!
# C72: the messages of the derive macro are true

`Verif.Spec.Diag.Truthful` says what each message claims. `shown` texts of paths that are not identifiers are a parameter.
-/

namespace Verif.Props.Diag

open Verif.Attr Verif.Diag Verif.Derive Verif.Spec.Attr Verif.Spec.Diag
open Verif.Range (Bounds RangeOption CmpOp evalOp)

variable {τ α κ : Type} [DecidableEq κ] (E : Env τ α κ) (other : Meta τ → String)

/-! ## The model with messages is the model of C53 -/

/-- An attribute is read, refused or panics as in C53; the message is of that kind. -/
theorem C72_same_outcome (m : Meta τ) :
    (∀ v ∈ [Validator.base32, .base32_decoded, .base64, .base64_decoded, .base64_url, .base64_url_decoded],
      forget (readAttribute E other v m) = (baseAttribute E m).void) ∧
    (∀ v ∈ [Validator.boolean, .json, .semver, .semver_req, .url], forget (readAttribute E other v m) = (basicAttribute E m).void) ∧
    (∀ v ∈ [Validator.http_url, .http_ftp_url], forget (readAttribute E other v m) = (urlAttribute E m).void) ∧
    (∀ v ∈ [Validator.ip, .ipv4, .ipv6], forget (readAttribute E other v m) = (ipAttribute E m).void) ∧
    (∀ v ∈ [Validator.signed_integer, .unsigned_integer], forget (readAttribute E other v m) = (rangeAttribute E m).void) ∧
    (∀ v ∈ [Validator.line, .text], forget (readAttribute E other v m) = (utf8Attribute E m).void) ∧
    forget (readAttribute E other .mac_address m) = (macAttribute E m).void ∧
    forget (readAttribute E other .uuid m) = (uuidAttribute E m).void ∧
    forget (readAttribute E other .bit m) = (bitAttribute E m).void ∧
    forget (readAttribute E other .byte m) = (byteAttribute E m).void ∧
    forget (readAttribute E other .domain m) = (domainConfig E m).void ∧
    forget (readAttribute E other .email m) = (emailConfig E m).void ∧
    forget (readAttribute E other .host m) = (hostAttribute E m).void ∧
    forget (readAttribute E other .length m) = (lengthAttribute E m).void ∧
    forget (readAttribute E other .number m) = (numberConfig E m).void ∧
    forget (readAttribute E other .phone m) = (phoneAttribute E m).void ∧
    forget (readAttribute E other .regex m) = (regexAttribute E m).void := by
  refine ⟨?_, ?_, ?_, ?_, ?_, ?_, ?_, ?_, ?_, ?_, ?_, ?_, ?_, ?_, ?_, ?_, ?_⟩
  all_goals first
    | (intro v hv
       simp only [List.mem_cons, List.not_mem_nil, or_false] at hv
       rcases hv with hv | hv | hv | hv | hv | hv <;> subst hv <;> exact same_map E other _ _ rfl m _ fun s => rfl)
    | (intro v hv
       simp only [List.mem_cons, List.not_mem_nil, or_false] at hv
       rcases hv with hv | hv | hv | hv | hv <;> subst hv <;> exact same_map E other _ _ rfl m _ fun s => rfl)
    | (intro v hv
       simp only [List.mem_cons, List.not_mem_nil, or_false] at hv
       rcases hv with hv | hv | hv <;> subst hv <;> exact same_map E other _ _ rfl m _ fun s => rfl)
    | (intro v hv
       simp only [List.mem_cons, List.not_mem_nil, or_false] at hv
       rcases hv with hv | hv <;> subst hv <;> exact same_map E other _ _ rfl m _ fun s => rfl)
    | exact same_map E other _ _ rfl m _ fun s => rfl
    | skip
  · refine same_config E other _ .domain rfl m _ _ fun s => ?_
    simp only [finish]
    split <;> [split <;> rfl; rfl]
  · refine same_config E other _ .email rfl m _ _ fun s => ?_
    simp only [finish]
    split <;> [split <;> rfl; rfl]
  · refine same E other _ .length rfl m _ fun s => ?_
    simp only [finish, forget_notAbove]
    cases Attr.notAbove (s Key.min) (s Key.max) <;> rfl
  · refine same_config E other _ .number rfl m _ _ fun s => ?_
    simp only [finish]
    apply ite_same
    cases (s Key.range).getD RangeOption.unlimited <;> exact Iff.rfl
  · refine same E other _ .regex rfl m _ fun s => ?_
    simp only [finish]
    cases (s Key.regex : Option Expr) <;> rfl

/-! ## What the messages claim -/

/-- Whatever an attribute is refused with, the message is true of it. Missing: the message on `char_length` and `byte_length` given
together, which is false (`C72_violation_reset`). -/
theorem C72_truthful_partial (v : Validator) (m : Meta τ) (e : Message α) (h : readAttribute E other v m = .err e)
    (h1 : e ≠ .reset "char_length") (h2 : e ≠ .reset "byte_length") : Truthful E other m e :=
  readAttribute_true E other v m e h h1 h2

/-- `line(char_length(min = 1), byte_length(max = 3))`: "you are trying to reset the `byte_length` parameter", which is given once. -/
theorem C72_violation_reset : ∃ m : Meta Toks, ∀ other, readAttribute env other .line m = .err (.reset "byte_length") ∧
    ¬ Truthful env other m (.reset "byte_length") := by
  refine ⟨.list (some "line") (.metas [.list (some "char_length") (.metas [.nameValue (some "min") (.lit (.int (ascii "1")))]),
    .list (some "byte_length") (.metas [.nameValue (some "max") (.lit (.int (ascii "3")))])]), fun other => ⟨rfl, ?_⟩⟩
  have nested : ∀ (q : Meta Toks) n e, Within toksSyn (.nameValue n e) q → q = .nameValue n e := by
    intro q n e h; cases h; rfl
  have inner : ∀ (q : Meta Toks) n n' e, Within toksSyn (.list n (.metas [.nameValue n' e])) q →
      q = .list n (.metas [.nameValue n' e]) ∨ q = .nameValue n' e := by
    intro q n n' e h
    cases h with
    | self => exact .inl rfl
    | param _ _ ps p _ hps hp h => cases hps; simp at hp; subst hp; exact .inr (nested _ _ _ h)
    | inner _ _ p _ hp h => cases hp; exact .inr (nested _ _ _ h)
  have all : ∀ ps, Params toksSyn (.list (some "line") (.metas [.list (some "char_length") (.metas [.nameValue (some "min") (.lit (.int (ascii "1")))]),
      .list (some "byte_length") (.metas [.nameValue (some "max") (.lit (.int (ascii "3")))])])) ps →
      (ps.map Meta.name).count (some "byte_length") ≤ 1 := by
    rintro ps ⟨q, hq, hg⟩
    have one : q = (.list (some "line") (.metas [.list (some "char_length") (.metas [.nameValue (some "min") (.lit (.int (ascii "1")))]),
        .list (some "byte_length") (.metas [.nameValue (some "max") (.lit (.int (ascii "3")))])])) ∨
        q = .list (some "char_length") (.metas [.nameValue (some "min") (.lit (.int (ascii "1")))]) ∨
        q = .nameValue (some "min") (.lit (.int (ascii "1"))) ∨
        q = .list (some "byte_length") (.metas [.nameValue (some "max") (.lit (.int (ascii "3")))]) ∨
        q = .nameValue (some "max") (.lit (.int (ascii "3"))) := by
      cases hq with
      | self => exact .inl rfl
      | param _ _ ps p _ hps hp h =>
        cases hps
        simp only [List.mem_cons, List.not_mem_nil, or_false] at hp
        rcases hp with rfl | rfl
        · rcases inner _ _ _ _ h with h | h
          · exact .inr (.inl h)
          · exact .inr (.inr (.inl h))
        · rcases inner _ _ _ _ h with h | h
          · exact .inr (.inr (.inr (.inl h)))
          · exact .inr (.inr (.inr (.inr h)))
      | inner _ _ p _ hp h => cases hp
    rcases one with rfl | rfl | rfl | rfl | rfl
    all_goals
      rcases hg with ⟨⟨_, h⟩, -⟩ | ⟨_, _, h, hg⟩ <;> cases h
    all_goals cases hg; decide
  rintro (⟨ps, hp, a, x, b, y, c, rfl, hx, hy⟩ | ⟨ws, ⟨n, t, hq, hw⟩, -⟩)
  · have := all _ hp
    simp [hx, hy, List.count_append] at this
    omega
  · cases hq with
    | self => cases hw
    | param _ _ ps p _ hps hp h =>
      cases hps
      simp only [List.mem_cons, List.not_mem_nil, or_false] at hp
      rcases hp with rfl | rfl
      · rcases inner _ _ _ _ h with h | h <;> cases h; cases hw
      · rcases inner _ _ _ _ h with h | h <;> cases h; cases hw
    | inner _ _ p _ hp h => cases hp

/-- What the message on the two lengths does mean: one of them is given, and then the one shown. -/
theorem C72_lengths_reset (v : Validator) (m : Meta τ) (n : String) (hn : n = "char_length" ∨ n = "byte_length")
    (h : readAttribute E other v m = .err (.reset n)) :
    ∃ ps, Gives E.syn m ps ∧ ∃ a q b q' c, ps = a ++ q :: (b ++ q' :: c) ∧ (q.name = some "char_length" ∨ q.name = some "byte_length") ∧
      q'.name = some n := by
  obtain ⟨ps, hg, a, q, b, q', c, h1, h2, h3, h4⟩ := lengths_reset E other v m n hn h
  refine ⟨ps, hg, a, q, b, q', c, h1, h2, ?_⟩
  rw [h4]
  rcases h3 with h3 | h3 <;> simp [shown, h3]

/-- The names shown are exactly the names understood: an attribute with one parameter is refused as having an unknown one, with the
list of the validator, if and only if the parameter is not in the list. -/
theorem C72_listed_names (v : Validator) (nm : Option String) (t : τ) (q : Meta τ) (n : String) (ht : E.syn.metas t = some [q])
    (hn : q.name = some n) : readAttribute E other v (.list nm t) = .err (.unknown n (listed v)) ↔ n ∉ listed v :=
  listed_names E other v nm t q n ht hn

/-- Every parameter of an attribute that is read has a name in the list. -/
theorem C72_listed_all (v : Validator) (m : Meta τ) (h : (readAttribute E other v m).IsOk) (ps : List (Meta τ)) (hg : Gives E.syn m ps) :
    ∀ q ∈ ps, ∃ n ∈ listed v, q.name = some n :=
  listed_all E other v m h ps hg

/-- The words shown are exactly the words taken. A message that shows words is about a parameter `n` of the attribute; with one word as
its value, `n` is accepted if and only if the word is shown. (`serde` and `rocket` take lists of words: no complaint about the word.) -/
theorem C72_shown_words (v : Validator) (m : Meta τ) (e : Message α) (ws : List String) (h : readAttribute E other v m = .err e)
    (hw : e = .word ws ∨ ∃ p, e = .wordForm p ws) :
    ∃ ps n, Gives E.syn m ps ∧ (∃ q ∈ ps, q.name = some n) ∧
      ((n ≠ "serde" ∧ n ≠ "rocket" ∧ ∀ nm t q w, E.syn.metas t = some [q] → q.name = some n → Word E.syn q w →
          ((readAttribute E other v (.list nm t)).IsOk ↔ w ∈ ws)) ∨
       ((n = "serde" ∨ n = "rocket") ∧ ∀ nm t u w, E.syn.metas t = some [.list (some n) u] → E.syn.idents u = some [w] →
          (readAttribute E other v (.list nm t) = .err (.word ws) ↔ w ∉ ws))) :=
  shown_words E other v m e ws h hw

/-! ## The choice of the validator -/

/-- The messages of the choice are those of C63. -/
theorem C72_same_choice (syn : Syn τ) (enabled : Validator → Bool) (attrs : List (Meta τ)) :
    forgetSelect (Diag.select syn other enabled none attrs) = Derive.select syn enabled none attrs := forget_select syn other enabled none attrs

/-- The validators shown are those whose feature is enabled, and exactly these names are understood. -/
theorem C72_available (enabled : Validator → Bool) (n : String) :
    (n ∈ available enabled ↔ ∃ v, enabled v = true ∧ n = Spec.Derive.name v) ∧ (n ∈ available enabled ↔ ∃ v, fromPath enabled (some n) = some v) := by
  refine ⟨available_iff enabled n, ?_⟩
  simp only [available_iff, fromPath_iff, Option.some.injEq]
  constructor
  · rintro ⟨v, h1, h2⟩; exact ⟨v, h2, h1⟩
  · rintro ⟨v, h1, h2⟩; exact ⟨v, h2, h1⟩

/-- The messages of the choice are true: the validator shown is not one of those listed; there are two attributes of the macro; an
attribute of the macro has no parentheses; there is none. -/
theorem C72_choice (syn : Syn τ) (enabled : Validator → Bool) (attrs : List (Meta τ)) (e : SelectMessage)
    (h : choose syn other enabled attrs = .err e) :
    match e with
    | .unsupported p names => ∃ t m, .list (some "validator") t ∈ attrs ∧ syn.one t = some m ∧ Shows other m p ∧ ∀ n, m.name = some n → n ∉ names
    | .onlyOne => Twice (fun a : Meta τ => a.name = some "validator") attrs
    | .format => ∃ a ∈ attrs, a.name = some "validator" ∧ ∀ n t, a ≠ .list n t
    | .notSetUp => ∀ a ∈ attrs, a.name ≠ some "validator"
    | .syn => ∃ t, .list (some "validator") t ∈ attrs ∧ syn.one t = none := choice_true other syn enabled attrs e h

/-! ## Examples: a small `syn` -/

/-- `email(port = Allow)`, `domain(ipv4 = Yes)`, `length(min = 3, max = 1)`, `unsigned_integer(range(Inside(min = 5, max = 1)))`,
`regex`, `phone(countries(TW, TW))`, `email(ip(Allow), ip(Allow))`. -/
example : readAttribute env (fun _ => "?") .email (.list (some "email") (.metas [.nameValue (some "port") (.path (some "Allow"))])) =
      .err (.unknown "port" ["comment", "ip", "local", "at_least_two_labels", "non_ascii", "conflict", "serde", "rocket"]) ∧
    readAttribute env (fun _ => "?") .domain (.list (some "domain") (.metas [.nameValue (some "ipv4") (.path (some "Yes"))])) =
      .err (.word ["Must", "Allow", "Disallow"]) ∧
    readAttribute env (fun _ => "?") .length (.list (some "length") (.metas [.nameValue (some "min") (.lit (.int (ascii "3"))),
      .nameValue (some "max") (.lit (.int (ascii "1")))])) = .err (.lengths "min" 3 "max" 1) ∧
    readAttribute env (fun _ => "?") .unsigned_integer (.list (some "unsigned_integer") (.metas [.list (some "range") (.one
      (.list (some "Inside") (.metas [.nameValue (some "min") (.lit (.int (ascii "5"))), .nameValue (some "max") (.lit (.int (ascii "1")))])))])) =
      .err (.above 5 1) ∧
    readAttribute env (fun _ => "?") .regex (.path (some "regex")) = .err (.missing "regex") ∧
    readAttribute env (fun _ => "?") .phone (.list (some "phone") (.metas [.list (some "countries") (.words ["TW", "TW"])])) =
      .err (.repeated "TW") ∧
    readAttribute env (fun _ => "?") .email (.list (some "email") (.metas [.list (some "ip") (.word "Allow"), .list (some "ip") (.word "Allow")])) =
      .err (.reset "ip") := by decide +kernel

/-- `domain(ipv4(Must), at_least_two_labels(Disallow))`, `line(serde(Serialise))`, `bit(range(minimum = 1))`,
`#[validator(e_mail)]`, `#[validator]`. -/
example : readAttribute env (fun _ => "?") .domain (.list (some "domain") (.metas [.list (some "ipv4") (.word "Must"),
      .list (some "at_least_two_labels") (.word "Disallow")])) = .err (.conflict "ipv4(Must)" "at_least_two_labels(Disallow)") ∧
    readAttribute env (fun _ => "?") .line (.list (some "line") (.metas [.list (some "serde") (.words ["Serialise"])])) =
      .err (.word ["Serialize", "Deserialize"]) ∧
    readAttribute env (fun _ => "?") .bit (.list (some "bit") (.metas [.list (some "range") (.metas [.nameValue (some "minimum") (.lit (.int (ascii "1")))])])) =
      .err (.unknown "minimum" ["min", "max", "inclusive"]) ∧
    choose toksSyn (fun _ => "?") (fun v => v = .email) [.list (some "validator") (.one (.path (some "e_mail")))] =
      .err (.unsupported "e_mail" ["email"]) ∧
    choose toksSyn (fun _ => "?") (fun v => v = .email) [.path (some "validator")] = .err .format := by
  refine ⟨by decide +kernel, by decide +kernel, by decide +kernel, rfl, rfl⟩

end Verif.Props.Diag
