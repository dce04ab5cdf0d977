import Verif.Props.Derive
import Verif.Model.Generated
import Verif.Model.Constants
import Verif.Proof.Ldh

/-!
# The project's own tests, run on the model

`validators/tests/*.rs` derives validators for structs with many combinations of options and runs each on a list of strings.
`tools/conformance.py` translates these files into the modules of this directory: item, strings, and for each string the
condition for being accepted, which reads the constants `V_..` of the feature `test`. Here is what runs them: the item goes through the
model of the derive macro, the plan through the model of the generated code, and the constants come from their model.

The examples of the manual (`validators/src/lib.rs`) are in `Manual`.

These are tests of the model, not proofs of properties: they show that the model does what the authors of the code expect of it
on these inputs. Where the generated code calls a library, its answers on the strings of the tests are listed here.
-/

namespace Verif.Conformance

open Verif.Attr Verif.Derive Verif.Constants Verif.Generated
open Verif.BaseN (strBytes)

export Verif.Props.Derive (attr)

/-- The macro with every feature. -/
def macros : Macro Toks Int Nat := Props.Derive.full

/-- `idna::domain_to_ascii` on the strings of the tests: two names in Chinese, and ASCII names. -/
def idna : Domain.Idna := fun s =>
  if s = strBytes "中文.com".toList then some (ascii "xn--fiq228c.com")
  else if s = strBytes "臺灣.tw".toList then some (ascii "xn--nnx388a.tw")
  else if s = strBytes "臺灣.tw.".toList then some (ascii "xn--nnx388a.tw.")
  else Domain.ldh s

/-- `Url::parse` and `Url::host` on the strings of the tests. -/
def url : Url.Lib Host.Host where
  parse s :=
    if s = ascii "https://example.org/" ∨ s = ascii "http://example.org/" ∨ s = ascii "ftp://example.org/" then some (.domain (ascii "example.org"))
    else if s = ascii "http://localhost:3000/" then some (.domain (ascii "localhost"))
    else if s = ascii "http://127.0.0.1:3000/" then some (.ipv4 ⟨127, 0, 0, 1⟩)
    else none
  host u := some u

/-- `phonenumber` on the strings of the tests; the countries are Taiwan (0) and the United States (1). `0912345678` can be read as
a number of the United States, but not a valid one. -/
def phone : Phone.Lib Nat Nat where
  parse c s :=
    if s = ascii "+886912345678" then some 0
    else if s = ascii "+14155552671" then some 1
    else if s = ascii "0912345678" ∧ c = some 0 then some 0
    else if s = ascii "0912345678" ∧ c = some 1 then some 2
    else none
  country n := some (min n 1)
  isValid n := n < 2

/-- Sizes without a unit. -/
def size (s : List UInt8) : Option Nat := (IntV.fromStr false 64 s).toOption.map Int.toNat

/-- Floats that are integers, and NaN. -/
def float (s : List UInt8) : Option (Number.Fl Int) :=
  if s = ascii "NaN" then some none else (IntV.fromStr true 64 s).toOption.map some

/-- The libraries. -/
def libs : Libs Int Nat Nat Host.Host Unit Unit where
  idna := idna
  url := url
  phone := phone
  isMatch _ _ := true
  lib _ _ := .error ()
  f32 := float
  f64 := float
  bit := size
  byte _ := size
  checked := true
  ptr := .p64

/-- The constants of a type. -/
abbrev Consts := List (Constant Int Nat)

/-- The value of a constant. -/
def value (c : Consts) (name : String) : Option (Constants.Value Int Nat) := (c.find? (·.name == name)).map (·.value)

/-- A constant of type `TriAllow`. -/
def tri (c : Consts) (name : String) : Tri := match value c name with | some (.tri t) => t | _ => .must

/-- A constant of type `CaseOption`. -/
def case (c : Consts) (name : String) : Constants.Case := match value c name with | some (.case t) => t | _ => .any

/-- A constant of type `SeparatorOption`. -/
def separator (c : Consts) (name : String) : Separator := match value c name with | some (.separator t) => t | _ => .disallow

/-- A constant of type `RangeOption`. -/
def limits (c : Consts) (name : String) : Limits (Literal Int) := match value c name with | some (.limits t) => t | _ => .unlimited

/-- The number of a literal. -/
def literal : Literal Int → Int
  | .int _ i => i
  | .float _ x => x

/-- A constant of type `Option<usize>`. -/
def number (c : Consts) (name : String) : Option Int := match value c name with | some (.number t) => t.map literal | _ => none

/-- `check_range` of the tests: `unsigned_integer.rs` L5-57. -/
def checkRange (v : Int) : Limits (Literal Int) → Bool
  | .inside min max inclusive =>
    min.all (fun m => literal m ≤ v) && max.all (fun m => if inclusive then v ≤ literal m else v < literal m)
  | .outside (some min) (some max) inclusive =>
    !(literal min ≤ v && if inclusive then v ≤ literal max else v < literal max)
  | .outside (some min) none _ => v < literal min
  | .outside none (some max) inclusive => if inclusive then literal max < v else literal max ≤ v
  | .outside none none _ => true
  | .unlimited => true

/-- `check_range` of `bit.rs` and `byte.rs` L8-34: anything but `Inside` fails. -/
def insideOnly (v : Int) : Limits (Literal Int) → Bool
  | .inside min max inclusive => checkRange v (.inside min max inclusive)
  | _ => false

/-- `str::trim`. -/
def trimmed (s : List Char) : List Char := ((s.dropWhile Line.isWhitespace).reverse.dropWhile Line.isWhitespace).reverse

/-- The comparisons of the next two functions. -/
def inLength (n t : Nat) (min max trimmedMin : Option Int) : Bool :=
  min.all (fun m => m ≤ (n : Int)) && max.all (fun m => (n : Int) ≤ m) && trimmedMin.all (fun m => m ≤ (t : Int))

/-- `check_char_length` of the tests: `line.rs` L5-33. -/
def charLength (s : String) : Option Int → Option Int → Option Int → Bool := inLength s.toList.length (trimmed s.toList).length

/-- `check_byte_length` of the tests: `line.rs` L35-63. -/
def byteLength (s : String) : Option Int → Option Int → Option Int → Bool :=
  inLength (strBytes s.toList).length (strBytes (trimmed s.toList)).length

/-- A string of a test and the condition for being accepted. -/
structure Case where
  input : String
  expected : Consts → Bool

/-- `Result::is_ok`. -/
def isOk {ε α : Type} : Out ε α → Bool
  | .ok _ => true
  | _ => false

/-- `Result::is_err`. -/
def isErr {ε α : Type} : Out ε α → Bool
  | .err _ => true
  | _ => false

/-- The outcome is the expected one, and not a panic. -/
def agrees {ε α : Type} (o : Out ε α) (expected : Bool) : Bool := if expected then isOk o else isErr o

/-- The macro accepts the item, its output compiles, and `validate_str` (with `parse`, `parse_str` and `parse_string`
also) gives what is expected. -/
def passes (parse : Bool) (cases : List Case) (item : Input Toks) : Bool :=
  match derive macros item with
  | .ok p => match generate libs p with
    | some I => cases.all fun c =>
      agrees (I.validateStr c.input.toList) (c.expected (constants p)) &&
        (!parse || agrees (I.parseStr c.input.toList) (c.expected (constants p)) &&
          agrees (I.parseString c.input.toList) (c.expected (constants p)))
    | none => false
  | _ => false

/-- The macro accepts the item and its output compiles. -/
def compiles (item : Input Toks) : Bool := passes false [] item

/-- For `length`: sizes of collections, and whether they are accepted. -/
def passesLength (cases : List (Nat × Bool)) (item : Input Toks) : Bool :=
  match derive macros item with
  | .ok (.length a) => match Range.compileLength (Range.lengthCode a.min a.max) with
    | some chk => cases.all fun c => agrees (Verif.Length.parseCollection chk id c.1) c.2
    | none => false
  | _ => false

end Verif.Conformance
