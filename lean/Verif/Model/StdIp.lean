import Verif.Model.Hex
import Verif.Model.Int

/-!
# IP addresses of the standard library (`core::net`, outside `/repo`)

Written from knowledge of `library/core/src/net/parser.rs`, `ip_addr.rs` (trusted base). A reader of the parser is a
function from the remaining input to a value and the new remaining input; returning `none` leaves the input as it was,
which is what `read_atomically` does.
-/

namespace Verif.StdIp

/-- `Ipv4Addr`: four octets. -/
structure V4 where
  a : UInt8
  b : UInt8
  c : UInt8
  d : UInt8
  deriving DecidableEq, Repr

/-- `Ipv6Addr`: eight segments. -/
structure V6 where
  s0 : UInt16
  s1 : UInt16
  s2 : UInt16
  s3 : UInt16
  s4 : UInt16
  s5 : UInt16
  s6 : UInt16
  s7 : UInt16
  deriving DecidableEq, Repr

/-- `Ipv6Addr::segments`. -/
def V6.segments (x : V6) : List UInt16 := [x.s0, x.s1, x.s2, x.s3, x.s4, x.s5, x.s6, x.s7]

/-- `Ipv6Addr::from([u16; 8])`; the parser only calls it with eight segments. -/
def V6.ofSegments (l : List UInt16) : V6 :=
  ⟨l.getD 0 0, l.getD 1 0, l.getD 2 0, l.getD 3 0, l.getD 4 0, l.getD 5 0, l.getD 6 0, l.getD 7 0⟩

/-! ## Parsing -/

/-- `char::to_digit` for radix 10 or 16. -/
def toDigit (radix : Nat) (b : UInt8) : Option Nat :=
  if radix = 16 then Hex.digit .any b else IntV.decDigit b

/-- The loop of `read_number`: reads digits while there are some; more than `maxDigits` is a failure. `count` digits have
been read so far with value `acc`. -/
def readDigits (radix maxDigits : Nat) : List UInt8 → (count acc : Nat) → Option (Nat × Nat × List UInt8)
  | [], count, acc => some (count, acc, [])
  | b :: rest, count, acc =>
    match toDigit radix b with
    | none => some (count, acc, b :: rest)
    | some d =>
      if count + 1 > maxDigits then none
      else readDigits radix maxDigits rest (count + 1) (acc * radix + d)

/-- `read_number` with `max_digits` given; `limit` is the number of values of the target type (`result.try_into().ok()`). -/
def readNumber (radix maxDigits : Nat) (allowZeroPrefix : Bool) (limit : Nat) (s : List UInt8) :
    Option (Nat × List UInt8) :=
  let hasLeadingZero := s.head? == some (asc '0')
  match readDigits radix maxDigits s 0 0 with
  | none => none
  | some (count, n, rest) =>
    if count = 0 then none
    else if !allowZeroPrefix && hasLeadingZero && decide (count > 1) then none
    else if n < limit then some (n, rest) else none

/-- `read_given_char`. -/
def readChar (c : UInt8) (s : List UInt8) : Option (List UInt8) :=
  match s with
  | b :: rest => if b = c then some rest else none
  | [] => none

/-- `read_separator`: the separator is only read when `index > 0`. -/
def readSeparator {α : Type} (sep : UInt8) (index : Nat) (inner : List UInt8 → Option (α × List UInt8)) (s : List UInt8) :
    Option (α × List UInt8) :=
  if index > 0 then
    match readChar sep s with
    | none => none
    | some rest => inner rest
  else inner s

/-- One octet: `p.read_number(10, Some(3), false)`. -/
def readOctet (s : List UInt8) : Option (Nat × List UInt8) := readNumber 10 3 false 256 s

/-- One group: `p.read_number(16, Some(4), true)`. -/
def readGroup (s : List UInt8) : Option (Nat × List UInt8) := readNumber 16 4 true 65536 s

/-- `read_ipv4_addr`: the loop over the four slots, written out. -/
def readV4 (s : List UInt8) : Option (V4 × List UInt8) := do
  let (a, s) ← readSeparator (asc '.') 0 readOctet s
  let (b, s) ← readSeparator (asc '.') 1 readOctet s
  let (c, s) ← readSeparator (asc '.') 2 readOctet s
  let (d, s) ← readSeparator (asc '.') 3 readOctet s
  return (⟨a.toUInt8, b.toUInt8, c.toUInt8, d.toUInt8⟩, s)

/-- The two segments of an embedded IPv4 address. -/
def V4.segments (x : V4) : List UInt16 := [(x.a.toNat * 256 + x.b.toNat).toUInt16, (x.c.toNat * 256 + x.d.toNat).toUInt16]

/-- `read_groups`: `left` slots are left, `i` have been filled. Returns the groups read from here on, whether an embedded
IPv4 address was read, and the remaining input. -/
def readGroups : (left i : Nat) → List UInt8 → List UInt16 × Bool × List UInt8
  | 0, _, s => ([], false, s)
  | left + 1, i, s =>
    let group : List UInt16 × Bool × List UInt8 :=
      match readSeparator (asc ':') i readGroup s with
      | some (g, s) =>
        let (gs, v4, s) := readGroups left (i + 1) s
        (g.toUInt16 :: gs, v4, s)
      | none => ([], false, s)
    if left + 1 > 1 then
      match readSeparator (asc ':') i readV4 s with
      | some (a, s) => (a.segments, true, s)
      | none => group
    else group

/-- `read_ipv6_addr`. -/
def readV6 (s : List UInt8) : Option (V6 × List UInt8) :=
  match readGroups 8 0 s with
  | (head, headV4, s) =>
    if head.length = 8 then some (V6.ofSegments head, s)
    else if headV4 then none
    else
      match readChar (asc ':') s with
      | none => none
      | some s =>
        match readChar (asc ':') s with
        | none => none
        | some s =>
          match readGroups (8 - (head.length + 1)) 0 s with
          | (tail, _, s) =>
            some (V6.ofSegments (head ++ List.replicate (8 - head.length - tail.length) 0 ++ tail), s)

/-- `parse_with`: all the input must have been read. -/
def whole {α : Type} : Option (α × List UInt8) → Option α
  | some (a, []) => some a
  | _ => none

/-- `Ipv4Addr::from_str`: nothing longer than 15 bytes is looked at. -/
def parseV4 (s : List UInt8) : Option V4 := if s.length > 15 then none else whole (readV4 s)

/-- `Ipv6Addr::from_str`. -/
def parseV6 (s : List UInt8) : Option V6 := whole (readV6 s)

/-! ## Printing -/

/-- `Display` of `Ipv4Addr`. -/
def showV4 (x : V4) : List UInt8 :=
  IntV.showNat x.a.toNat ++ asc '.' :: IntV.showNat x.b.toNat ++ asc '.' :: IntV.showNat x.c.toNat ++
    asc '.' :: IntV.showNat x.d.toNat

/-- `{:x}` of a segment. -/
def showSeg (x : UInt16) : List UInt8 := (Hex.revDigits 16 4 x.toNat).reverse.map (Hex.hexChar false)

/-- `fmt_subslice`: segments separated by `:`. -/
def showSegs : List UInt16 → List UInt8
  | [] => []
  | [x] => showSeg x
  | x :: y :: rest => showSeg x ++ asc ':' :: showSegs (y :: rest)

/-- The search for the longest run of zero segments: `(longestStart, longestLen)`; the first of several longest. `i` is the
index of the first element of the list. -/
def zeroRun : (i : Nat) → (curStart curLen bestStart bestLen : Nat) → List UInt16 → Nat × Nat
  | _, _, _, bs, bl, [] => (bs, bl)
  | i, cs, cl, bs, bl, x :: rest =>
    if x = 0 then
      let cs := if cl = 0 then i else cs
      let cl := cl + 1
      if cl > bl then zeroRun (i + 1) cs cl cs cl rest else zeroRun (i + 1) cs cl bs bl rest
    else zeroRun (i + 1) 0 0 bs bl rest

/-- `Ipv6Addr::to_ipv4_mapped`. -/
def V6.toIpv4Mapped (x : V6) : Option V4 :=
  if x.s0 = 0 ∧ x.s1 = 0 ∧ x.s2 = 0 ∧ x.s3 = 0 ∧ x.s4 = 0 ∧ x.s5 = 0xFFFF then
    some ⟨(x.s6.toNat / 256).toUInt8, (x.s6.toNat % 256).toUInt8, (x.s7.toNat / 256).toUInt8, (x.s7.toNat % 256).toUInt8⟩
  else none

/-- `Display` of `Ipv6Addr`: mapped addresses as `::ffff:a.b.c.d`, others with the longest run of at least two zero
segments replaced by `::`. -/
def showV6 (x : V6) : List UInt8 :=
  match x.toIpv4Mapped with
  | some a => ascii "::ffff:" ++ showV4 a
  | none =>
    let r := zeroRun 0 0 0 0 0 x.segments
    if r.2 > 1 then showSegs (x.segments.take r.1) ++ ascii "::" ++ showSegs (x.segments.drop (r.1 + r.2))
    else showSegs x.segments

/-! ## Predicates -/

/-- `Ipv4Addr::is_private`. -/
def V4.isPrivate (x : V4) : Bool :=
  x.a == 10 || (x.a == 172 && decide (16 ≤ x.b) && decide (x.b ≤ 31)) || (x.a == 192 && x.b == 168)

/-- `Ipv4Addr::is_loopback`. -/
def V4.isLoopback (x : V4) : Bool := x.a == 127

/-- `Ipv4Addr::is_link_local`. -/
def V4.isLinkLocal (x : V4) : Bool := x.a == 169 && x.b == 254

/-- `Ipv4Addr::is_broadcast`. -/
def V4.isBroadcast (x : V4) : Bool := x == ⟨255, 255, 255, 255⟩

/-- `Ipv4Addr::is_documentation`. -/
def V4.isDocumentation (x : V4) : Bool :=
  (x.a == 192 && x.b == 0 && x.c == 2) || (x.a == 198 && x.b == 51 && x.c == 100) || (x.a == 203 && x.b == 0 && x.c == 113)

/-- `Ipv4Addr::is_unspecified`. -/
def V4.isUnspecified (x : V4) : Bool := x == ⟨0, 0, 0, 0⟩

/-- `Ipv6Addr::to_ipv4`: IPv4-compatible or IPv4-mapped. -/
def V6.toIpv4 (x : V6) : Option V4 :=
  if x.s0 = 0 ∧ x.s1 = 0 ∧ x.s2 = 0 ∧ x.s3 = 0 ∧ x.s4 = 0 ∧ (x.s5 = 0 ∨ x.s5 = 0xFFFF) then
    some ⟨(x.s6.toNat / 256).toUInt8, (x.s6.toNat % 256).toUInt8, (x.s7.toNat / 256).toUInt8, (x.s7.toNat % 256).toUInt8⟩
  else none

end Verif.StdIp
