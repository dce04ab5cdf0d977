import Verif.Model.BaseN

/-!
# The `line` and `text` handlers

`line/mod.rs` and `text/mod.rs` (under `validators-derive/src/validator_handlers/`) differ only in the class of
rejected characters and have the same line numbers; citations below are to both. A `&str` is the list of its characters.
-/

namespace Verif.Line

open Verif.BaseN (strBytes)

/-- Which of the two handlers. -/
inductive Kind where
  | line
  | text
  deriving DecidableEq, Repr

/-- `validators/src/errors/line.rs`, `validators/src/errors/text.rs`. -/
inductive LineError where
  | invalid
  | tooLong
  | tooShort
  deriving DecidableEq, Repr

/-- The pattern `'\x00'..='\x08' | '\x0A'..='\x1F' | '\x7F'` (`line/mod.rs` L108 and all other places) or
`'\x00'..='\x08' | '\x0C' | '\x0E'..='\x1F' | '\x7F'` (`text/mod.rs` L108 and all other places), on a code point. The
byte loops (L235, L416, L575, L709) use the same numbers on bytes. -/
def bad : Kind → Nat → Bool
  | .line, n => (decide (n ≤ 0x08)) || (decide (0x0A ≤ n) && decide (n ≤ 0x1F)) || decide (n = 0x7F)
  | .text, n => (decide (n ≤ 0x08)) || decide (n = 0x0C) || (decide (0x0E ≤ n) && decide (n ≤ 0x1F)) || decide (n = 0x7F)

/-- `char::is_whitespace` of the standard library: the Unicode property White_Space (trusted base). -/
def isWhitespace (c : Char) : Bool :=
  let n := c.toNat
  (decide (9 ≤ n) && decide (n ≤ 13)) || n == 0x20 || n == 0x85 || n == 0xA0 || n == 0x1680 ||
  (decide (0x2000 ≤ n) && decide (n ≤ 0x200A)) || n == 0x2028 || n == 0x2029 || n == 0x202F || n == 0x205F || n == 0x3000

/-- `char::len_utf8` of the standard library (trusted base). -/
def lenUtf8 (c : Char) : Nat :=
  if c.toNat < 0x80 then 1 else if c.toNat < 0x800 then 2 else if c.toNat < 0x10000 then 3 else 4

/-- The amount a character adds to the counters: `c.len_utf8()` if `is_byte_length` (e.g. L101), 1 otherwise (e.g. L177). -/
def step (byteLength : Bool) (c : Char) : Nat := if byteLength then lenUtf8 c else 1

/-- `if counter > #max { return Err(TooLong) }` where the template has that line (`some max`), nothing elsewhere. -/
def tooLong (early : Option Nat) (counter : Nat) : Bool :=
  match early with
  | some max => decide (counter > max)
  | none => false

/-- The inner loop `while let Some(c) = chars.next()`: L117-136 (with the early `TooLong`), L190-206, L306-322, L373-389,
L487-503, L536-552, L635-647, L677-689 (without). Returns `counter` and `trimmed_counter`. The templates without
`min` and `max` (L635, L677) keep no `counter`; here it is computed and not used. -/
def inner (k : Kind) (byteLength : Bool) (early : Option Nat) :
    List Char → (counter trimmed temp : Nat) → Out LineError (Nat × Nat)
  | [], counter, trimmed, _ => .ok (counter, trimmed)
  | c :: cs, counter, trimmed, temp =>
    if bad k c.toNat then .err .invalid
    else
      let len := step byteLength c
      let counter := counter + len
      if tooLong early counter then .err .tooLong
      else if isWhitespace c then inner k byteLength early cs counter trimmed (temp + len)
      else inner k byteLength early cs counter (trimmed + (temp + len)) 0

/-- The outer loop: L97-115 and L138 on (early `TooLong` for byte counting with a maximum), L174-188, L288-304, L356-371,
L472-485, L521-534, L623-633, L665-675. It looks for the first character that is not white space and then runs the inner
loop on the rest. The result is `counter` and, if such a character was found, `trimmed_counter`. -/
def outer (k : Kind) (byteLength : Bool) (earlyOuter earlyInner : Option Nat) :
    List Char → (counter : Nat) → Out LineError (Nat × Option Nat)
  | [], counter => .ok (counter, none)
  | c :: cs, counter =>
    let len := step byteLength c
    let counter := counter + len
    if tooLong earlyOuter counter then .err .tooLong
    else if isWhitespace c then outer k byteLength earlyOuter earlyInner cs counter
    else if bad k c.toNat then .err .invalid
    else (inner k byteLength earlyInner cs counter len 0).map fun p => (p.1, some p.2)

/-- `for e in s.bytes() { match e { .. => return Err(Invalid) } }`: L233-241, L414-422, L573-581, L707-715. -/
def checkBytes (k : Kind) : List UInt8 → Out LineError Unit
  | [] => .ok ()
  | e :: es => if bad k e.toNat then .err .invalid else checkBytes k es

/-- The counting loop of the templates without `trimmed_min`: L249-256, L430-437, L589-596. -/
def countChars (k : Kind) : List Char → Nat → Out LineError Nat
  | [], counter => .ok counter
  | c :: cs, counter => if bad k c.toNat then .err .invalid else countChars k cs (counter + 1)

/-- `v_parse_str`: `handle_str`, L74-720, one branch per template, in the order of the code. `s.chars().take(#max + 1)` is
`List.take`. (`#max + 1` overflows for `max = usize::MAX`: `Model/LineMax.lean`.) -/
def check (k : Kind) (byteLength : Bool) (min trimmedMin max : Option Nat) (s : List Char) : Out LineError Unit :=
  match max with
  | some max =>
    match min with
    | some min =>
      match trimmedMin with
      | some trimmedMin =>
        if byteLength then -- L79-154
          (outer k true (some max) (some max) s 0).bind fun
            | (counter, some trimmed) =>
              if trimmed ≥ trimmedMin ∧ counter ≥ min then
                if counter ≤ max then .ok () else .err .tooLong
              else .err .tooShort
            | (counter, none) =>
              if trimmedMin = 0 then
                if counter < min then .err .tooShort else .ok ()
              else .err .tooShort
        else -- L155-222
          (outer k false none none (s.take (max + 1)) 0).bind fun
            | (counter, some trimmed) =>
              if trimmed ≥ trimmedMin ∧ counter ≥ min then
                if counter ≤ max then .ok () else .err .tooLong
              else .err .tooShort
            | (counter, none) =>
              if trimmedMin = 0 then
                if counter < min then .err .tooShort else if counter > max then .err .tooLong else .ok ()
              else .err .tooShort
      | none =>
        if byteLength then -- L225-243
          if (strBytes s).length > max then .err .tooLong
          else if (strBytes s).length < min then .err .tooShort
          else checkBytes k (strBytes s)
        else -- L244-266
          (countChars k (s.take (max + 1)) 0).bind fun counter =>
            if counter < min then .err .tooShort else if counter > max then .err .tooLong else .ok ()
    | none =>
      match trimmedMin with
      | some trimmedMin =>
        if byteLength then -- L271-339
          (outer k true (some max) none s 0).bind fun
            | (counter, some trimmed) =>
              if trimmed ≥ trimmedMin then
                if counter ≤ max then .ok () else .err .tooLong
              else .err .tooShort
            | (_, none) => if trimmedMin = 0 then .ok () else .err .tooShort
        else -- L340-405
          (outer k false none none (s.take (max + 1)) 0).bind fun
            | (counter, some trimmed) =>
              if trimmed ≥ trimmedMin then
                if counter ≤ max then .ok () else .err .tooLong
              else .err .tooShort
            | (counter, none) =>
              if trimmedMin = 0 then
                if counter ≤ max then .ok () else .err .tooLong
              else .err .tooShort
      | none =>
        if byteLength then -- L408-424
          if (strBytes s).length > max then .err .tooLong
          else checkBytes k (strBytes s)
        else -- L425-445
          (countChars k (s.take (max + 1)) 0).bind fun counter =>
            if counter ≤ max then .ok () else .err .tooLong
  | none =>
    match min with
    | some min =>
      match trimmedMin with
      | some trimmedMin => -- L451-565, byte counting L467-515, character counting L516-564
        (outer k byteLength none none s 0).bind fun
          | (counter, some trimmed) =>
            if trimmed ≥ trimmedMin ∧ counter ≥ min then .ok () else .err .tooShort
          | (counter, none) =>
            if trimmedMin = 0 then
              if counter ≥ min then .ok () else .err .tooShort
            else .err .tooShort
      | none =>
        if byteLength then -- L567-583
          if (strBytes s).length < min then .err .tooShort
          else checkBytes k (strBytes s)
        else -- L584-604
          (countChars k s 0).bind fun counter =>
            if counter ≥ min then .ok () else .err .tooShort
    | none =>
      match trimmedMin with
      | some trimmedMin => -- L608-704, byte counting L620-661, character counting L662-703
        (outer k byteLength none none s 0).bind fun
          | (_, some trimmed) => if trimmed ≥ trimmedMin then .ok () else .err .tooShort
          | (_, none) => if trimmedMin = 0 then .ok () else .err .tooShort
      | none => checkBytes k (strBytes s) -- L705-718

/-- `parse_string` and `parse_str`: L736-754. The value is the input. -/
def parseStr (k : Kind) (byteLength : Bool) (min trimmedMin max : Option Nat) (s : List Char) : Out LineError (List Char) :=
  (check k byteLength min trimmedMin max s).bind fun _ => .ok s

/-- `validate_str`: L756-761. -/
def validateStr (k : Kind) (byteLength : Bool) (min trimmedMin max : Option Nat) (s : List Char) : Out LineError Unit :=
  (check k byteLength min trimmedMin max s).bind fun _ => .ok ()

end Verif.Line
