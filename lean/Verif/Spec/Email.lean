import Verif.Spec.Host
import Verif.Model.Email

/-!
# Specification of the `email` validator

An email is `(c1) local (c2) @ (c3) host (c4)`; the comments are optional and the local part may be in quotation marks.
Of the model only the option and value types, and the printed form of a host, are used.
-/

namespace Verif.Spec.Email

open Verif.Spec Verif.Spec.Ip Verif.Spec.Domain Verif.Spec.Host Verif.StdIp Verif.Email
open Verif.Host (Host)

/-! ## Pieces -/

/-- The characters of an atom (RFC 5322 §3.2.3). -/
def atext : List UInt8 := ascii "ABCDEFGHIJKLMNOPQRSTUVWXYZabcdefghijklmnopqrstuvwxyz0123456789!#$%&'*+-/=?^_`{|}~"

/-- The characters that a quoted local part may only contain after a backslash. -/
def specials : List UInt8 := ascii "(),:;<>@[]\""

/-- A byte of a non-ASCII character, where these are allowed. -/
def Wide (na : Allow) (b : UInt8) : Prop := na = .allow ∧ 128 ≤ b.toNat

/-- A local part that needs no quotation marks: atoms separated by dots, the last one possibly empty. -/
def Unquoted (na : Allow) (t : List UInt8) : Prop :=
  t ≠ [] ∧ t.head? ≠ some (asc '.') ∧ (∀ b ∈ t, b ∈ atext ∨ b = asc '.' ∨ Wide na b) ∧ ¬ ascii ".." <:+: t

/-- What the validator takes for an escape: in the run of backslashes and blanks at the end of `pre` the number of
backslashes is odd. -/
def Escape (pre : List UInt8) : Prop := ((pre.reverse.takeWhile (· ∈ ascii "\\ \t")).count (asc '\\')) % 2 = 1

/-- What an escape is (RFC 5322 §3.2.1): `pre` ends with an odd number of backslashes. -/
def RealEscape (pre : List UInt8) : Prop := (pre.reverse.takeWhile (· = asc '\\')).length % 2 = 1

/-- The inside of a quoted local part, given what an escape is: special characters are escaped, and the closing quotation
mark is not. -/
def Quoted (escape : List UInt8 → Prop) (na : Allow) (t : List UInt8) : Prop :=
  t ≠ [] ∧ (∀ pre b post, t = pre ++ b :: post → b ∈ atext ∨ b ∈ ascii ".\\ \t" ∨ Wide na b ∨ b ∈ specials ∧ escape pre) ∧ ¬ escape t

/-- A text placed at index `start` has no ASCII byte at index `limit`. -/
def Fits (limit start : Nat) (t : List UInt8) : Prop := ∀ i b, t[i]? = some b → start + i = limit → 128 ≤ b.toNat

/-- A text in quotation marks, or as it is. -/
def quote (q : Bool) (t : List UInt8) : List UInt8 := if q then ascii "\"" ++ t ++ ascii "\"" else t

/-- An optional comment, written. -/
def comment : Option (List UInt8) → List UInt8
  | some c => ascii "(" ++ c ++ ascii ")"
  | none => []

/-- A comment ends at its first closing parenthesis. -/
def Closed (c : Option (List UInt8)) : Prop := ∀ t, c = some t → asc ')' ∉ t

/-! ## The two sides -/

/-- The comment before the local part and the local part. -/
structure LocalText (o : Opts) (c1 : Option (List UInt8)) (q : Bool) (t : List UInt8) : Prop where
  closed : Closed c1
  allowed : c1 ≠ none → o.comment = .allow
  short : ∀ c, c1 = some c → c.length ≤ 61
  unquoted : q = false → Unquoted o.nonAscii t ∧ Fits 64 (comment c1).length t
  quoted : q = true → Quoted Escape o.nonAscii t ∧ Fits 63 ((comment c1).length + 1) t ∧ (comment c1).length ≠ 62

/-- The comment after the local part: it ends within the first 64 bytes. Without overflow checks it has no limit when it
starts outside of them. -/
def Comment2 (o : Opts) (before : Nat) (c2 : Option (List UInt8)) : Prop :=
  Closed c2 ∧ (c2 ≠ none → o.comment = .allow ∧ (before + (comment c2).length ≤ 64 ∨ o.checked = false ∧ 64 ≤ before))

/-- The text `h` denotes a host. -/
inductive HostText (idna : List UInt8 → Option (List UInt8)) : List UInt8 → Host → Prop
  | ipv4 {x : V4} : HostText idna (ascii "[" ++ x.text ++ ascii "]") (.ipv4 x)
  | ipv6 {t : List UInt8} {x : V6} : V6Text t x.segs → HostText idna (ascii "[IPv6:" ++ t ++ ascii "]") (.ipv6 x)
  | domain {h a : List UInt8} : h ≠ [] → h.head? ≠ some (asc '[') → asc '(' ∉ h → (¬ ∃ c, h = c ++ ascii ".") → idna h = some a →
      HostText idna h (.domain a)

/-- What the options ask of a host. -/
def HostOk (o : Opts) : Host → Prop
  | .domain a => o.ip ≠ .must ∧ LabelsOk o.atl (LocalName a) (ManyLabels a) ∧ LocalOk o.loc (LocalName a)
  | h => o.ip ≠ .disallow ∧ o.atl ≠ .disallow ∧ LocalOk o.loc (LocalHost h)

/-- The comment after the host. What follows it is not looked at. -/
def Tail (o : Opts) (c4 : Option (List UInt8)) (tail : List UInt8) : Prop :=
  Closed c4 ∧ (c4 ≠ none → o.comment = .allow) ∧ ∃ junk, tail = comment c4 ++ junk ∧ (c4 = none → junk = [])

/-- What follows the `@`. `saved` is what the length check gives back for quotation marks. -/
structure DomainText (o : Opts) (idna : List UInt8 → Option (List UInt8)) (saved : Nat) (t : List UInt8) (c3 : Option (List UInt8)) (x : Host)
    (c4 : Option (List UInt8)) (h tail : List UInt8) : Prop where
  text : t = comment c3 ++ h ++ tail
  closed : Closed c3
  allowed : c3 ≠ none → o.comment = .allow
  host : HostText idna h x
  ok : HostOk o x
  after : Tail o c4 tail
  short : t.length ≤ 255
  printed : (showHost x).length ≤ h.length + saved ∨ (comment c3 ++ showHost x ++ tail).length ≤ 255 + saved

/-- The string `s` is an email with this value. -/
structure Denotes (o : Opts) (idna : List UInt8 → Option (List UInt8)) (s : List UInt8) (v : Value) (q : Bool) (t h tail : List UInt8) : Prop where
  text : s = comment v.comment1 ++ quote q v.text ++ comment v.comment2 ++ ascii "@" ++ t
  short : s.length ≤ 320
  localText : LocalText o v.comment1 q v.text
  comment2 : Comment2 o (comment v.comment1 ++ quote q v.text).length v.comment2
  needQuoted : v.needQuoted = true ↔ q = true ∧ ¬ Unquoted o.nonAscii v.text
  domainText : DomainText o idna (if v.needQuoted = true then 2 else 0) t v.comment3 v.host v.comment4 h tail
  isLocal : Tells (o.loc = .allow ∧ o.atl ≠ .allow) v.isLocal (LocalHost v.host)

/-! ## Failures -/

/-- When the second comment makes the validator panic. -/
def Overflows (o : Opts) (p r : List UInt8) : Prop :=
  o.comment = .allow ∧ o.checked = true ∧ 64 ≤ p.length ∧ ∃ t, t ≠ [] ∧ r = asc '(' :: t

/-- The option that a host violates. -/
def Blames (o : Opts) (x : Host) (e : EmailError) : Prop :=
  e = .ipMust ∧ o.ip = .must ∧ (∃ a, x = .domain a) ∨
  e = .ipDisallow ∧ o.ip = .disallow ∧ (¬ ∃ a, x = .domain a) ∨
  e = .localMust ∧ o.loc = .must ∧ ¬ LocalHost x ∨
  e = .localDisallow ∧ o.loc = .disallow ∧ LocalHost x ∨
  e = .atLeastTwoLabelsMust ∧ o.atl = .must ∧ ¬ LocalHost x ∧ (∃ a, x = .domain a ∧ ¬ ManyLabels a) ∨
  e = .atLeastTwoLabelsDisallow ∧ o.atl = .disallow ∧ ((¬ ∃ a, x = .domain a) ∨ ¬ LocalHost x ∧ ∃ a, x = .domain a ∧ ManyLabels a)

/-- The options that restrict the comments and the host are lifted. -/
def relaxed (o : Opts) : Opts := { o with comment := .allow, ip := .allow, loc := .allow, atl := .allow }

/-- The option that an email violates. -/
def BlamesAll (o : Opts) (v : Value) (e : EmailError) : Prop :=
  Blames o v.host e ∨
  e = .commentDisallow ∧ o.comment = .disallow ∧ ¬ (v.comment1 = none ∧ v.comment2 = none ∧ v.comment3 = none ∧ v.comment4 = none)

/-- The option that an error names is set. -/
def Names (o : Opts) (e : EmailError) : Prop :=
  e = .invalid ∨ e = .ipMust ∧ o.ip = .must ∨ e = .ipDisallow ∧ o.ip = .disallow ∨ e = .localMust ∧ o.loc = .must ∨
  e = .localDisallow ∧ o.loc = .disallow ∨ e = .atLeastTwoLabelsMust ∧ o.atl = .must ∨
  e = .atLeastTwoLabelsDisallow ∧ o.atl = .disallow ∨ e = .commentDisallow ∧ o.comment = .disallow

end Verif.Spec.Email
