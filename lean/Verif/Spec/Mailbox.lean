import Verif.Spec.Email

/-!
# A reader of mail addresses (RFC 5322 §3.2 and §3.4.1)
-/

namespace Verif.Spec.Mailbox

open Verif.Spec.Email

/-- Skip comments and blanks. A comment may contain comments and escaped characters; `depth` counts the open ones. -/
def skip : (depth : Nat) → (escaped : Bool) → List UInt8 → Option (List UInt8)
  | 0, _, [] => some []
  | 0, _, b :: r => if b = asc '(' then skip 1 false r else if b ∈ ascii " \t" then skip 0 false r else some (b :: r)
  | _ + 1, _, [] => none
  | d + 1, true, _ :: r => skip (d + 1) false r
  | d + 1, false, b :: r =>
    if b = asc '\\' then skip (d + 1) true r
    else if b = asc '(' then skip (d + 2) false r
    else if b = asc ')' then skip d false r
    else skip (d + 1) false r

/-- The inside of a quoted string after its opening quotation mark, and what follows the closing one. -/
def quoted : (escaped : Bool) → List UInt8 → Option (List UInt8 × List UInt8)
  | _, [] => none
  | true, b :: r => (quoted false r).map fun x => (b :: x.1, x.2)
  | false, b :: r => if b = asc '"' then some ([], r) else (quoted (b == asc '\\') r).map fun x => (b :: x.1, x.2)

/-- The characters of atoms and the dots between them; also those that are not ASCII (RFC 6532). -/
def atomChar (b : UInt8) : Bool := atext.contains b || b == asc '.' || decide (128 ≤ b.toNat)

/-- Atoms with dots between them. -/
def DotAtom (t : List UInt8) : Prop := t ≠ [] ∧ t.head? ≠ some (asc '.') ∧ t.getLast? ≠ some (asc '.') ∧ ¬ ascii ".." <:+: t

instance (t : List UInt8) : Decidable (DotAtom t) := inferInstanceAs (Decidable (_ ∧ _ ∧ _ ∧ ¬ _))

/-- The local part, without its quotation marks, and what follows. -/
def localPart : List UInt8 → Option (List UInt8 × List UInt8)
  | [] => none
  | b :: r =>
    if b = asc '"' then quoted false r
    else
      let t := (b :: r).takeWhile atomChar
      if DotAtom t then some (t, (b :: r).dropWhile atomChar) else none

/-- The domain and what follows: an address in brackets, or a name. -/
def domain : List UInt8 → Option (List UInt8 × List UInt8)
  | [] => none
  | b :: r =>
    if b = asc '[' then
      match r.dropWhile (· != asc ']') with
      | [] => none
      | _ :: r' => some (b :: r.takeWhile (· != asc ']') ++ ascii "]", r')
    else
      let t := (b :: r).takeWhile atomChar
      if t ≠ [] then some (t, (b :: r).dropWhile atomChar) else none

/-- Read an address, with comments and blanks around its parts: the local part and the domain. -/
def read (s : List UInt8) : Option (List UInt8 × List UInt8) := do
  let s ← skip 0 false s
  let (l, s) ← localPart s
  let s ← skip 0 false s
  match s with
  | [] => none
  | b :: s =>
    if b = asc '@' then
      let s ← skip 0 false s
      let (d, s) ← domain s
      let s ← skip 0 false s
      if s = [] then some (l, d) else none
    else none

/-- A quoted text that ends at its closing quotation mark: every quotation mark in it is escaped, and the closing one is not. -/
def Sealed (t : List UInt8) : Prop := (∀ pre post, t = pre ++ asc '"' :: post → RealEscape pre) ∧ ¬ RealEscape t

/-- What is assumed of IDNA where a theorem says so: with the STD3 rules a name has no ASCII characters but letters, digits, `-` and `.`. -/
def Strict (idna : List UInt8 → Option (List UInt8)) : Prop :=
  ∀ h a, idna h = some a → ∀ b ∈ h, b ∈ ascii "abcdefghijklmnopqrstuvwxyzABCDEFGHIJKLMNOPQRSTUVWXYZ0123456789-." ∨ 128 ≤ b.toNat

/-- A comment in which no other one begins and nothing is escaped. -/
def Harmless (c : Option (List UInt8)) : Prop := ∀ t, c = some t → asc '(' ∉ t ∧ asc '\\' ∉ t

/-- A value without comments. -/
def NoComments (v : Verif.Email.Value) : Prop := v.comment1 = none ∧ v.comment2 = none ∧ v.comment3 = none ∧ v.comment4 = none

/-- A value with harmless comments before the host, and without a blank directly after a backslash in the local part (C45). -/
def Tame (v : Verif.Email.Value) : Prop :=
  Harmless v.comment1 ∧ Harmless v.comment2 ∧ Harmless v.comment3 ∧ ∀ b : UInt8, b = asc ' ' ∨ b = asc '\t' → ¬ [asc '\\', b] <:+: v.text

/-- The reader at work. -/
example : read (ascii "(a(b\\)))\"x\\\" y\" @ [127.0.0.1] (c)") = some (ascii "x\\\" y", ascii "[127.0.0.1]") ∧
    read (ascii "a.b@x.yy") = some (ascii "a.b", ascii "x.yy") ∧ read (ascii "a.@x.yy") = none ∧ read (ascii "a@x.yy)") = none := by
  decide +kernel

/-- Two strings that an email validator accepts as addresses at `good.com`, and the reader as addresses at `evil.com`. -/
example : read (ascii "((x)a@good.com(y))eve@evil.com") = some (ascii "eve", ascii "evil.com") ∧
    read (ascii "\"\\ \\\"@good.com(\"@evil.com(x)") = some (ascii "\\ \\\"@good.com(", ascii "evil.com") := by
  decide +kernel

end Verif.Spec.Mailbox
