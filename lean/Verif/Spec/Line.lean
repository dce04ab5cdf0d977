import Verif.Model.Line

/-!
# Specification of `line` and `text`

Only `Kind` and `strBytes` (UTF-8) come from the model.
-/

namespace Verif.Spec.Line

open Verif.Line (Kind)
open Verif.BaseN (strBytes)

/-- Control characters a line (text) may not contain: all ASCII control characters but tab, and for texts also but line
feed, vertical tab and carriage return. -/
def Forbidden (k : Kind) (c : Char) : Prop :=
  (c.toNat < 0x20 ∨ c.toNat = 0x7F) ∧ c ≠ '\t' ∧ (k = .text → c ≠ '\n' ∧ c ≠ '\x0B' ∧ c ≠ '\r')

/-- The string has no forbidden character. -/
def Clean (k : Kind) (s : List Char) : Prop := ∀ c ∈ s, ¬ Forbidden k c

/-- Length in bytes of the UTF-8 encoding, or in characters. -/
def size (byteLength : Bool) (s : List Char) : Nat := if byteLength then (strBytes s).length else s.length

/-- The 25 characters that Unicode calls white space: tab, line feed, vertical tab, form feed, carriage return, space, next line,
no-break space, Ogham space, the spaces from en quad to hair space, line and paragraph separator, narrow no-break space, medium
mathematical space and ideographic space. -/
def whiteSpace : List Char :=
  ['\t', '\n', '\x0B', '\x0C', '\r', ' ', '\u0085', '\u00A0', '\u1680', '\u2000', '\u2001', '\u2002', '\u2003', '\u2004', '\u2005',
    '\u2006', '\u2007', '\u2008', '\u2009', '\u200A', '\u2028', '\u2029', '\u202F', '\u205F', '\u3000']

/-- The string without leading white space. -/
def trimStart (s : List Char) : List Char := s.dropWhile (· ∈ whiteSpace)

/-- The leading white space. -/
def leadingSpace (s : List Char) : List Char := s.takeWhile (· ∈ whiteSpace)

/-- The string without surrounding white space. -/
def trim (s : List Char) : List Char := ((trimStart s).reverse.dropWhile (· ∈ whiteSpace)).reverse

/-- The length is within the bounds. -/
def SizeOk (byteLength : Bool) (min max : Option Nat) (s : List Char) : Prop :=
  (∀ m, min = some m → m ≤ size byteLength s) ∧ (∀ m, max = some m → size byteLength s ≤ m)

/-- The trimmed length is at least the required one. -/
def TrimmedOk (byteLength : Bool) (trimmedMin : Option Nat) (s : List Char) : Prop :=
  ∀ m, trimmedMin = some m → m ≤ size byteLength (trim s)

end Verif.Spec.Line
