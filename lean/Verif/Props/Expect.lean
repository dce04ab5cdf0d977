import Verif.Proof.Expect

/-!
# C75: what `Deserialize` says it expects

When a value of the wrong type is deserialized, the error says what the generated `Deserialize` expected: "an IPv4 string without
ports". The theorems are about items that the macro accepts, and the strings that the generated `parse_str` accepts.
-/

namespace Verif.Props.Expect

open Verif Verif.Attr Verif.Derive Verif.Generated Verif.Expect Verif.Spec.Generated Verif.Spec.Expect Verif.Props.Generated
open Verif.BaseN (strBytes)
open Verif.Range (Bounds RangeOption)

variable {τ φ κ N U V ε : Type} [LinearOrder φ] [DecidableEq κ]

/-- C75: everything that the text says is true of every string that is accepted and of its value (see `Truthful`). Missing: what the
violations below show, namely that `text` says "a line", that an "ASCII email" may have other characters in its comments and its
domain, that an "at-least-two-labels" domain may be a local one, that a number "in" a range may be NaN, and that any integer is
accepted as "not in ..". The exception `LargestMax` is the finding C73. -/
theorem C75_true_partial (M : Macro τ φ κ) (ast : Input τ) (p : Plan φ κ) (h : derive M ast = .ok p) (L : Libs φ κ N U V ε)
    (hu : Spec.Url.HostsPresent L.url) (I : Impl (Error ε) (Value φ κ N U V)) (hI : generate L p = some I) (hm : ¬ LargestMax L.ptr p) (s : List Char)
    (x : Value φ κ N U V) (hx : I.parseStr s = .ok x) (t : List (Piece φ κ)) (ht : expect p = some t) : Truthful L t s x :=
  expect_truthful L p t ht s x (C71_sound_partial M ast p h L hu I hI hm s x hx).2

/-- C75: the text says everything that matters: two items for the same validator that have the same text accept the same strings.
Missing: the options that no text mentions, listed in `SameUnsaid`. -/
theorem C75_complete_partial (M : Macro τ φ κ) (ast ast' : Input τ) (p q : Plan φ κ) (hp : derive M ast = .ok p) (hq : derive M ast' = .ok q)
    (L : Libs φ κ N U V ε) (hu : Spec.Url.HostsPresent L.url) (I J : Impl (Error ε) (Value φ κ N U V)) (hI : generate L p = some I)
    (hJ : generate L q = some J) (hmp : ¬ LargestMax L.ptr p) (hmq : ¬ LargestMax L.ptr q) (hk : SameKind p q) (hs : SameUnsaid p q)
    (ht : expect p = expect q) (hn : expect p ≠ none) (s : List Char) : (I.parseStr s).IsOk ↔ (J.parseStr s).IsOk := by
  rcases same_accepted L p q hk hs ht hn with h | h
  · rw [hI, hJ] at h
    cases h
    exact .rfl
  · rw [C71_accepts_partial M ast p hp L hu I hI hmp, C71_accepts_partial M ast' q hq L hu J hJ hmq]
    exact h s

/-- C75: the validators that go through another type have no text, the others do. -/
theorem C75_present (M : Macro τ φ κ) (ast : Input τ) (p : Plan φ κ) (h : derive M ast = .ok p) :
    ∃ v, Written M ast v p ∧ (expect p = none ↔ v ∈ [.bit, .json, .length, .semver, .semver_req, .url]) := by
  obtain ⟨v, hw⟩ := C71_written M ast p h
  refine ⟨v, hw, ?_⟩
  obtain ⟨_, _, ps, -, -, -, ho, -⟩ := hw
  cases p with
  | base w a =>
    obtain ⟨rfl, hv, -⟩ := ho
    simp only [List.mem_cons, List.not_mem_nil, or_false] at hv
    rcases hv with rfl | rfl | rfl | rfl | rfl | rfl <;> simp [expect]
  | basic w a =>
    obtain ⟨rfl, hv, -⟩ := ho
    simp only [List.mem_cons, List.not_mem_nil, or_false] at hv
    rcases hv with rfl | rfl | rfl | rfl | rfl <;> simp [expect]
  | url w a =>
    obtain ⟨rfl, hv, -⟩ := ho
    simp only [List.mem_cons, List.not_mem_nil, or_false] at hv
    rcases hv with rfl | rfl <;> simp [expect]
  | ip w a =>
    obtain ⟨rfl, hv, -⟩ := ho
    simp only [List.mem_cons, List.not_mem_nil, or_false] at hv
    rcases hv with rfl | rfl | rfl <;> simp [expect]
  | utf8 w a =>
    obtain ⟨rfl, hv, -⟩ := ho
    simp only [List.mem_cons, List.not_mem_nil, or_false] at hv
    rcases hv with rfl | rfl <;> simp [expect]
  | hex w a =>
    obtain ⟨rfl, hv, -⟩ := ho
    simp only [List.mem_cons, List.not_mem_nil, or_false] at hv
    rcases hv with rfl | rfl <;> simp [expect]
  | int signed w a =>
    have := ho.1
    cases signed <;> subst this <;> simp [expect]
  | bit a | byte a | domain a | email a | host a | length a | number d a | phone a | regex a =>
    have := ho.1
    subst this
    simp [expect]

/-! ## The hypotheses are met -/

/-- `#[validator(name(params))]` on a structure with these fields. -/
def item (n : String) (ps : List (Meta Toks)) (fs : Fields) : Input Toks := ⟨[Derive.attr (.list (some n) (.metas ps))], .struct fs⟩

/-- A parameter with one word. -/
def word (n w : String) : Meta Toks := .list (some n) (.word w)

/-- `#[validator(ipv4(port(Disallow)))] struct S(Ipv4Addr);`. -/
example : ∃ p, derive Derive.full (item "ipv4" [word "port" "Disallow"] (.unnamed ["Ipv4Addr"])) = .ok p ∧
    expect p = some [.words "an IPv4 string", .words " without ports"] ∧ Has (φ := Int) (κ := Nat) [.words "an IPv4 string", .words " without ports"] withoutPort ∧
    ∃ I, generate libs p = some I ∧ I.parseStr "1.2.3.4".toList = .ok (.ipv4 ⟨1, 2, 3, 4⟩ none) ∧ ¬ (I.parseStr "1.2.3.4:5".toList).IsOk :=
  ⟨_, rfl, rfl, ⟨" without ports", by simp [withoutPort], by simp⟩, _, rfl, by decide +kernel, by decide +kernel⟩

/-- `#[validator(signed_integer(range(Inside(min = 1, max = 5))))] struct S(i8);`: the text has the form that `Truthful` looks for. -/
example : ∃ p r, derive Derive.full (item "signed_integer" [.list (some "range") (.one (.list (some "Inside") (.range ⟨some (some (.int (ascii "1"))),
      some (some (.int (ascii "5"))), false⟩)))] (.unnamed ["i8"])) = .ok p ∧ expect p = some (.words "a signed integer" :: rangeText .int r) ∧
    rangeText (φ := Int) (κ := Nat) .int r = [.words " in ", .int 1, .words "..", .words "=", .int 5] ∧
    ∃ I, generate libs p = some I ∧ I.parseStr "+5".toList = .ok (.int 5) ∧ ¬ (I.parseStr "6".toList).IsOk :=
  ⟨_, .inside ⟨some 1, some 5, true⟩, rfl, rfl, rfl, _, rfl, by decide +kernel, by decide +kernel⟩

/-- Two items with the same text that differ in an option: `domain(ipv4(Must))` with and without `at_least_two_labels(Must)`. -/
example : ∃ p q, derive Derive.full (item "domain" [word "ipv4" "Must", word "port" "Disallow"] (.unnamed ["String"])) = .ok p ∧
    derive Derive.full (item "domain" [word "ipv4" "Must", word "at_least_two_labels" "Must", word "conflict" "Allow", word "port" "Disallow"]
      (.named [("domain", "String"), ("is_local", "bool")])) = .ok q ∧
    p ≠ q ∧ expect p = expect q ∧ expect p ≠ none ∧ SameKind p q ∧ SameUnsaid p q := by
  refine ⟨.domain ⟨.must, .allow, .disallow, .allow, .disallow, Flags.both, Flags.both⟩,
    .domain ⟨.must, .allow, .disallow, .must, .allow, Flags.both, Flags.both⟩, rfl, rfl, ?_, rfl, nofun, trivial, ?_⟩
  · simp
  · simp [SameUnsaid]

/-! ## Where the texts are wrong or silent -/

/-- C75 is false for `text`: its text says "a line", and it accepts texts of several lines. -/
theorem C75_violated_text : ∃ p t, derive Derive.full (item "text" [] (.unnamed ["String"])) = .ok p ∧ expect p = some t ∧ t = [.words "a line"] ∧
    ∃ I, generate libs p = some I ∧ I.parseStr "a\nb".toList = .ok (.text "a\nb".toList) :=
  ⟨_, _, rfl, rfl, rfl, _, rfl, by decide +kernel⟩

/-- C75 is false for `email(non_ascii(Disallow))`: "an ASCII email" may have a comment that is not ASCII. -/
theorem C75_violated_ascii : ∃ p t, derive Derive.full (item "email" [word "non_ascii" "Disallow"] (.named [("local_part", "String"), ("need_quoted", "bool"),
      ("domain_part", "Host"), ("comment_before_local_part", "Option<String>"), ("comment_after_local_part", "Option<String>"),
      ("comment_before_domain_part", "Option<String>"), ("comment_after_domain_part", "Option<String>")])) = .ok p ∧ expect p = some t ∧
    t = [.words "an ASCII email"] ∧ ∃ I, generate libs p = some I ∧ (I.parseStr "(é)a@b.com".toList).IsOk :=
  ⟨_, _, rfl, rfl, rfl, _, rfl, by decide +kernel⟩

/-- C75 is false for the domain part of the same emails: `é` stands for a name that IDNA accepts. -/
theorem C75_violated_ascii_domain : ∃ p t, derive Derive.full (item "email" [word "non_ascii" "Disallow", word "comment" "Disallow"] (.named [("local_part", "String"),
      ("need_quoted", "bool"), ("domain_part", "Host")])) = .ok p ∧ expect p = some t ∧ t = [.words "an ASCII email"] ∧
    ∃ I, generate { libs with idna := fun s => if s = strBytes "é.com".toList then some (ascii "xn--9ca.com") else none } p = some I ∧
      (I.parseStr "a@é.com".toList).IsOk :=
  ⟨_, _, rfl, rfl, rfl, _, rfl, by decide +kernel⟩

/-- C75 is false for `at_least_two_labels(Must)`: local names are exempt, and the text does not say so. -/
theorem C75_violated_labels : ∃ p t, derive Derive.full (item "domain" [word "at_least_two_labels" "Must", word "port" "Disallow"]
      (.named [("domain", "String"), ("is_ipv4", "bool"), ("is_local", "bool")])) = .ok p ∧ expect p = some t ∧
    t = [.words "a correct ", .words "at-least-two-labels ", .words "domain name", .words " without ports"] ∧
    ∃ I, generate libs p = some I ∧ (I.parseStr "localhost".toList).IsOk :=
  ⟨_, _, rfl, rfl, rfl, _, rfl, by decide +kernel⟩

/-- C75 is false for a `number` in a range: NaN is accepted too unless `nan(Disallow)` is given, and the text does not say so. -/
theorem C75_violated_nan : ∃ p t, derive Derive.full (item "number" [.list (some "range") (.one (.list (some "Inside") (.range ⟨some (some (.int (ascii "1"))),
      some (some (.int (ascii "5"))), false⟩)))] (.unnamed ["f64"])) = .ok p ∧ expect p = some t ∧
    t = [.words "a number", .words " in ", .float 1, .words "..", .words "=", .float 5] ∧
    ∃ I, generate { libs with f64 := fun s => if s = ascii "NaN" then some none else none } p = some I ∧ (I.parseStr "NaN".toList).IsOk :=
  ⟨_, _, rfl, rfl, rfl, _, rfl, by decide +kernel⟩

/-- C75 is false for `range(Outside())`: "not in .." excludes every number, and every number is accepted. -/
theorem C75_violated_outside : ∃ p t, derive Derive.full (item "signed_integer" [.list (some "range") (.one (.list (some "Outside") (.metas [])))]
      (.unnamed ["i8"])) = .ok p ∧ expect p = some t ∧ t = [.words "a signed integer", .words " not in ", .words ".."] ∧
    ∃ I, generate libs p = some I ∧ (I.parseStr "5".toList).IsOk :=
  ⟨_, _, rfl, rfl, rfl, _, rfl, by decide +kernel⟩

/-- The text is silent about an option: two items for the same validator have the same text, and one accepts a string that the other
refuses. -/
def Silent (L : Libs Int Nat Unit Unit Unit Unit) (ast ast' : Input Toks) (s : String) : Prop :=
  ∃ p q, derive Derive.full ast = .ok p ∧ derive Derive.full ast' = .ok q ∧ SameKind p q ∧ expect p = expect q ∧ expect p ≠ none ∧
    ∃ I J, generate L p = some I ∧ generate L q = some J ∧ (I.parseStr s.toList).IsOk ∧ ¬ (J.parseStr s.toList).IsOk

/-- C75: `domain(ipv4(Disallow))` does not say that it asks for one label. -/
theorem C75_silent_one_label : Silent libs
    (item "domain" [word "ipv4" "Disallow", word "port" "Disallow"] (.unnamed ["String"]))
    (item "domain" [word "ipv4" "Disallow", word "at_least_two_labels" "Disallow", word "port" "Disallow"] (.named [("domain", "String"), ("is_local", "bool")]))
    "example.com" :=
  ⟨_, _, rfl, rfl, trivial, rfl, nofun, _, _, rfl, rfl, by decide +kernel, by decide +kernel⟩

/-- C75: `email` does not say whether comments are allowed. -/
theorem C75_silent_comment : Silent libs
    (item "email" [] (.named [("local_part", "String"), ("need_quoted", "bool"), ("domain_part", "Host"), ("comment_before_local_part", "Option<String>"),
      ("comment_after_local_part", "Option<String>"), ("comment_before_domain_part", "Option<String>"), ("comment_after_domain_part", "Option<String>")]))
    (item "email" [word "comment" "Disallow"] (.named [("local_part", "String"), ("need_quoted", "bool"), ("domain_part", "Host")]))
    "a(b)@c.com" :=
  ⟨_, _, rfl, rfl, trivial, rfl, nofun, _, _, rfl, rfl, by decide +kernel, by decide +kernel⟩

/-- C75: `email` does not say that it asks for a local host. -/
theorem C75_silent_local : Silent libs
    (item "email" [word "comment" "Disallow"] (.named [("local_part", "String"), ("need_quoted", "bool"), ("domain_part", "Host")]))
    (item "email" [word "comment" "Disallow", word "local" "Must"] (.named [("local_part", "String"), ("need_quoted", "bool"), ("domain_part", "Host")]))
    "a@c.com" :=
  ⟨_, _, rfl, rfl, trivial, rfl, nofun, _, _, rfl, rfl, by decide +kernel, by decide +kernel⟩

/-- A length. -/
def upTo (n : String) : Meta Toks := .list (some n) (.metas [.nameValue (some "max") (.lit (.int (ascii "1")))])

/-- C75: `line` does not say whether lengths are in characters or in bytes. -/
theorem C75_silent_unit : Silent libs
    (item "line" [upTo "char_length"] (.unnamed ["String"])) (item "line" [upTo "byte_length"] (.unnamed ["String"])) "é" :=
  ⟨_, _, rfl, rfl, rfl, rfl, nofun, _, _, rfl, rfl, by decide +kernel, by decide +kernel⟩

/-- C75: `byte` does not say which sizes it accepts. -/
theorem C75_silent_byte : Silent { libs with byte := fun _ s => if s = ascii "1 KB" then some 1000 else none }
    (item "byte" [] (.unnamed ["Byte"]))
    (item "byte" [.list (some "range") (.range ⟨none, some (some (.int (ascii "500"))), false⟩)] (.unnamed ["Byte"])) "1 KB" :=
  ⟨_, _, rfl, rfl, trivial, rfl, nofun, _, _, rfl, rfl, by decide +kernel, by decide +kernel⟩

end Verif.Props.Expect
