import Verif.Model.Host

/-!
# The `email` handler

Line numbers are those of `validators-derive/src/validator_handlers/email/mod.rs`.
-/

namespace Verif.Email

open Verif.StdIp
open Verif.Ip (strSlice strSliceFrom isLocalV4 isLocalV6)
open Verif.Domain (Idna isLocalDomain isAtLeastTwoLabelsDomain)
open Verif.Host (Host)

/-- `EmailError`: `validators/src/errors/email.rs`. -/
inductive EmailError where
  | invalid
  | ipMust
  | ipDisallow
  | localMust
  | localDisallow
  | atLeastTwoLabelsMust
  | atLeastTwoLabelsDisallow
  | commentDisallow
  deriving DecidableEq, Repr

/-- The options of the `email` validator, and whether the program is built with overflow checks (debug builds). -/
structure Opts where
  comment : Allow
  ip : TriAllow
  loc : TriAllow
  atl : TriAllow
  nonAscii : Allow
  checked : Bool
  deriving DecidableEq, Repr

/-- `iter().copied().position(|e| e == b)`: the index of the first occurrence. -/
def position (b : UInt8) : List UInt8 → Option Nat
  | [] => none
  | x :: xs => if x = b then some 0 else (position b xs).map (· + 1)

/-- The bytes of the first arm of the matches at L1019-1031, L1051-1063, L1144-1156, L1176-1188. -/
def isAtext (b : UInt8) : Bool :=
  inRange 'A' 'Z' b || inRange 'a' 'z' b || inRange '0' '9' b || b == asc '!' || inRange '#' '\'' b || b == asc '*' || b == asc '+' ||
    b == asc '-' || b == asc '/' || b == asc '=' || b == asc '?' || inRange '^' '`' b || inRange '{' '~' b

/-- The bytes that need a backslash, except the quotation mark: L1102. -/
def isSpecial (b : UInt8) : Bool :=
  b == asc '(' || b == asc ')' || b == asc ',' || inRange ':' '<' b || b == asc '>' || b == asc '@' || b == asc '[' || b == asc ']'

/-- `handle_unrecognized_*`: L607-660, as a condition: the byte is let through. -/
def otherByte (na : Allow) (b : UInt8) : Bool := na == .allow && decide (128 ≤ b.toNat)

/-- `handle_comment_1` (limit 62) and `handle_comment_3` (limit 253): L863-891, L930-958, including the test of the first
byte at L1000-1005 and L1239-1244. Returns the length up to and including the comment. -/
def leadComment (c : Allow) (limit : Nat) (s : List UInt8) : Out EmailError (Nat × Option (List UInt8)) :=
  (idx s 0).bind fun b =>
    if b = asc '(' then
      if c = .disallow then .err .commentDisallow
      else if s.length > 1 then
        (sliceFrom s 1).bind fun r =>
          match position (asc ')') (r.take limit) with
          | some i =>
            let index := i + 1
            (strSlice s 1 index).bind fun comment =>
              let len := index + 1
              if len = s.length then .err .invalid else .ok (len, some comment)
          | none => .err .invalid
      else .err .invalid
    else .ok (0, none)

/-- The loop over a quoted local part: L1042-1138. The list is `bytes[p..]`. Returns the index of the closing quotation mark
and `need_quoted`. -/
def quotedLoop (na : Allow) : List UInt8 → (p : Nat) → (escaping needQuoted lastDot : Bool) → Out EmailError (Nat × Bool)
  | [], _, _, _, _ => .err .invalid
  | e :: rest, p, escaping, needQuoted, lastDot =>
    if isAtext e then
      if p = 63 then .err .invalid else quotedLoop na rest (p + 1) false needQuoted false
    else if e = asc '.' then
      if p = 63 then .err .invalid else quotedLoop na rest (p + 1) false (if lastDot then true else needQuoted) true
    else if e = asc '\\' then
      if p = 63 then .err .invalid else quotedLoop na rest (p + 1) (!escaping) true lastDot
    else if e = asc ' ' ∨ e = asc '\t' then
      if p = 63 then .err .invalid else quotedLoop na rest (p + 1) escaping true lastDot
    else if isSpecial e then
      if p = 63 ∨ escaping = false then .err .invalid else quotedLoop na rest (p + 1) false needQuoted lastDot
    else if e = asc '"' then
      if escaping then
        if p = 63 then .err .invalid else quotedLoop na rest (p + 1) false needQuoted lastDot
      else .ok (p, needQuoted)
    else if otherByte na e then quotedLoop na rest (p + 1) false needQuoted false
    else .err .invalid

/-- The first byte of a quoted local part: L1018-1038. Returns `escaping`, `need_quoted`, `last_dot`. -/
def quotedFirst (na : Allow) (e : UInt8) : Out EmailError (Bool × Bool × Bool) :=
  if isAtext e then .ok (false, false, false)
  else if e = asc '.' then .ok (false, true, true)
  else if e = asc '\\' then .ok (true, true, false)
  else if e = asc ' ' ∨ e = asc '\t' then .ok (false, true, false)
  else if otherByte na e then .ok (false, false, false)
  else .err .invalid

/-- The loop over an unquoted local part: L1167-1218. The list is `bytes[p..]`. Returns the index of the `@` or `(`. -/
def unquotedLoop (na : Allow) : List UInt8 → (p : Nat) → (lastDot : Bool) → Out EmailError Nat
  | [], _, _ => .err .invalid
  | e :: rest, p, lastDot =>
    if isAtext e then
      if p = 64 then .err .invalid else unquotedLoop na rest (p + 1) false
    else if e = asc '.' then
      if p = 64 ∨ lastDot = true then .err .invalid else unquotedLoop na rest (p + 1) true
    else if e = asc '@' ∨ e = asc '(' then .ok p
    else if otherByte na e then unquotedLoop na rest (p + 1) false
    else .err .invalid

/-- A local part: its text, `need_quoted`, `quoted`, and the new `local_part_length`. -/
structure Local where
  text : List UInt8
  needQuoted : Bool
  quoted : Bool
  len : Nat
  deriving DecidableEq, Repr

/-- The local part: L1007-1219. -/
def localPart (na : Allow) (s : List UInt8) (start : Nat) : Out EmailError Local :=
  (idx s start).bind fun b =>
    if b = asc '"' then
      let p := start + 1
      if p = 63 ∨ p = s.length then .err .invalid
      else
        (idx s p).bind fun e =>
          (quotedFirst na e).bind fun (escaping, needQuoted, lastDot) =>
            (quotedLoop na (s.drop (p + 1)) (p + 1) escaping needQuoted lastDot).bind fun (q, needQuoted) =>
              (strSlice s (start + 1) q).bind fun text =>
                if q + 1 = s.length then .err .invalid else .ok ⟨text, needQuoted, true, q + 1⟩
    else if isAtext b ∨ otherByte na b then
      (unquotedLoop na (s.drop (start + 1)) (start + 1) false).bind fun p =>
        (strSlice s start p).bind fun text => .ok ⟨text, false, false, p⟩
    else .err .invalid

/-- `64 - local_part_length` on `usize`: panics when it would be negative, and wraps around without overflow checks (64 bit
words; on 32 bit ones the result exceeds every possible length as well). -/
def budget (checked : Bool) (len : Nat) : Out EmailError Nat :=
  if len ≤ 64 then .ok (64 - len) else if checked then .panic else .ok (2 ^ 64 + 64 - len)

/-- Comment 2: L1221-1226 with `handle_comment_2`, L893-928. Returns the new `local_part_length`. -/
def afterLocal (o : Opts) (s : List UInt8) (len : Nat) : Out EmailError (Nat × Option (List UInt8)) :=
  (idx s len).bind fun b =>
    if b = asc '(' then
      if o.comment = .disallow then .err .commentDisallow
      else
        let len := len + 1
        if s.length > len then
          (sliceFrom s len).bind fun r =>
            (budget o.checked len).bind fun n =>
              match position (asc ')') (r.take n) with
              | some i =>
                let index := i + len
                (strSlice s len index).bind fun comment =>
                  if index + 1 = s.length then .err .invalid else .ok (index + 1, some comment)
              | none => .err .invalid
        else .err .invalid
    else .ok (len, none)

/-- `check_local`: L662-680. -/
def checkLocal (opt : TriAllow) (isLocal : Bool) : Out EmailError Unit :=
  match opt with
  | .allow => .ok ()
  | .must => if !isLocal then .err .localMust else .ok ()
  | .disallow => if isLocal then .err .localDisallow else .ok ()

/-- `handle_local_ipv6`, `handle_local_ipv4`, `handle_local_domain`: L691-713, L784-794. -/
def localOf (o : Opts) (f : Bool) : Bool := if o.atl = .allow ∧ o.loc = .allow then false else f

/-- `check_at_least_two_labels`: L796-814. -/
def checkLabels (opt : TriAllow) (isLocal : Bool) (ascii : List UInt8) : Out EmailError Unit :=
  match opt with
  | .allow => .ok ()
  | .must => if !isLocal && !isAtLeastTwoLabelsDomain ascii then .err .atLeastTwoLabelsMust else .ok ()
  | .disallow => if !isLocal && isAtLeastTwoLabelsDomain ascii then .err .atLeastTwoLabelsDisallow else .ok ()

/-- What the host of a domain part gives: host, `is_local`, the new `domain_part_length`, and what is added to
`domain_part_length_offset`. -/
structure HostPart where
  host : Host
  isLocal : Bool
  len : Nat
  offset : Int
  deriving DecidableEq, Repr

/-- `handle_ip`: L682-777. -/
def ipPart (o : Opts) (t : List UInt8) (start : Nat) : Out EmailError HostPart :=
  if o.ip = .disallow then .err .ipDisallow
  else if o.atl = .disallow then .err .atLeastTwoLabelsDisallow
  else
    let len := start + 1
    if t.length > len then
      (sliceFrom t len).bind fun r =>
        if ascii "IPv6:" <+: r then
          let len := len + 5
          if t.length > len then
            (sliceFrom t len).bind fun r =>
              match position (asc ']') r with
              | some i =>
                let closing := i + len
                (strSlice t len closing).bind fun ipStr =>
                  match parseV6 ipStr with
                  | some ip => .ok ⟨.ipv6 ip, localOf o (isLocalV6 ip), closing + 1, ((showV6 ip).length : Int) - ipStr.length⟩
                  | none => .err .invalid
              | none => .err .invalid
          else .err .invalid
        else
          match position (asc ']') r with
          | some i =>
            let closing := i + len
            (strSlice t len closing).bind fun ipStr =>
              match parseV4 ipStr with
              | some ip => .ok ⟨.ipv4 ip, localOf o (isLocalV4 ip), closing + 1, 0⟩
              | none => .err .invalid
          | none => .err .invalid
    else .err .invalid

/-- `handle_domain`: L779-853. -/
def domainPart (o : Opts) (idna : Idna) (t : List UInt8) (start : Nat) : Out EmailError HostPart :=
  if o.ip = .must then .err .ipMust
  else
    (sliceFrom t start).bind fun r =>
      (match position (asc '(') r with
        | some i => strSlice t start (i + start)
        | none => strSliceFrom t start).bind fun domainStr =>
        if domainStr.getLast? = some (asc '.') then .err .invalid
        else
          match idna domainStr with
          | some asciiDomain =>
            let isLocal := localOf o (isLocalDomain asciiDomain)
            (checkLabels o.atl isLocal asciiDomain).bind fun _ =>
              .ok ⟨.domain asciiDomain, isLocal, start + domainStr.length, (asciiDomain.length : Int) - domainStr.length⟩
          | none => .err .invalid

/-- Comment 4: L1268-1273 with `handle_comment_4`, L960-987. -/
def afterDomain (c : Allow) (t : List UInt8) (len : Nat) : Out EmailError (Option (List UInt8)) :=
  if t.length > len then
    if c = .disallow then .err .commentDisallow
    else
      (idx t len).bind fun b =>
        if b = asc '(' then
          let len := len + 1
          if t.length > len then
            (sliceFrom t len).bind fun r =>
              match position (asc ')') r with
              | some i => (strSlice t len (i + len)).bind fun comment => .ok (some comment)
              | none => .err .invalid
          else .err .invalid
        else .err .invalid
  else .ok none

/-- What `v_parse_str` returns. -/
structure Parsed where
  text : List UInt8
  needQuoted : Bool
  host : Host
  comment1 : Option (List UInt8)
  comment2 : Option (List UInt8)
  comment3 : Option (List UInt8)
  comment4 : Option (List UInt8)
  isLocal : Bool
  deriving DecidableEq, Repr

/-- What follows the `@`: L1232-1273. `offset` is the start value of `domain_part_length_offset`. Returns host, `is_local`
and the two comments. -/
def domainSide (o : Opts) (idna : Idna) (t : List UInt8) (offset : Int) :
    Out EmailError (Host × Bool × Option (List UInt8) × Option (List UInt8)) :=
  if t.length > 255 then .err .invalid
  else
    (leadComment o.comment 253 t).bind fun (start, comment3) =>
      (idx t start).bind fun b =>
        (if b = asc '(' then .err .invalid
          else if b = asc '[' then ipPart o t start
          else domainPart o idna t start).bind fun h =>
          (checkLocal o.loc h.isLocal).bind fun _ =>
            let offset := offset + h.offset
            if offset > 0 ∧ (t.length : Int) + offset > 255 then .err .invalid
            else (afterDomain o.comment t h.len).bind fun comment4 => .ok (h.host, h.isLocal, comment3, comment4)

/-- `v_parse_str`: L992-1285. -/
def parse (o : Opts) (idna : Idna) (s : List UInt8) : Out EmailError Parsed :=
  if s.length = 0 ∨ s.length > 320 then .err .invalid
  else
    (leadComment o.comment 62 s).bind fun (start, comment1) =>
      (localPart o.nonAscii s start).bind fun l =>
        (afterLocal o s l.len).bind fun (len, comment2) =>
          (idx s len).bind fun b =>
            if b ≠ asc '@' ∨ len + 1 = s.length then .err .invalid
            else
              (strSliceFrom s (len + 1)).bind fun t =>
                (domainSide o idna t (if l.quoted && l.needQuoted then -2 else 0)).bind fun (host, isLocal, comment3, comment4) =>
                  .ok ⟨l.text, l.needQuoted, host, comment1, comment2, comment3, comment4, isLocal⟩

/-- A value of the annotated type. The comments are fields with `comment(Allow)` only, `is_local` under some options only. -/
structure Value where
  text : List UInt8
  needQuoted : Bool
  host : Host
  comment1 : Option (List UInt8)
  comment2 : Option (List UInt8)
  comment3 : Option (List UInt8)
  comment4 : Option (List UInt8)
  isLocal : Option Bool
  deriving DecidableEq, Repr

/-- `create_instance`: L1289-1497. The field `domain_part` is a `Host`, an `IpAddr` with `ip(Must)` or a `String` with
`ip(Disallow)`; the conversions have an `unreachable!()` arm. -/
def create (o : Opts) (p : Parsed) : Out EmailError Value :=
  let isLocal := if o.loc = .allow ∧ o.atl ≠ .allow then some p.isLocal else none
  let v : Value :=
    if o.comment = .allow then ⟨p.text, p.needQuoted, p.host, p.comment1, p.comment2, p.comment3, p.comment4, isLocal⟩
    else ⟨p.text, p.needQuoted, p.host, none, none, none, none, isLocal⟩
  match o.ip, p.host with
  | .must, .domain _ => .panic
  | .disallow, .ipv4 _ => .panic
  | .disallow, .ipv6 _ => .panic
  | _, _ => .ok v

/-- `parse_string`, `parse_str`: L1504-1516. -/
def parseStr (o : Opts) (idna : Idna) (s : List UInt8) : Out EmailError Value := (parse o idna s).bind (create o)

/-- `validate_str`: L1518-1523. -/
def validateStr (o : Opts) (idna : Idna) (s : List UInt8) : Out EmailError Unit := (parse o idna s).bind fun _ => .ok ()

/-- The host as `to_email_string` writes it: L1536-1540, L1642-1646. -/
def showHost : Host → List UInt8
  | .ipv4 ip => asc '[' :: showV4 ip ++ [asc ']']
  | .ipv6 ip => ascii "[IPv6:" ++ showV6 ip ++ [asc ']']
  | .domain d => d

/-- `if let Some(comment) { s.push('('); s.push_str(comment); s.push(')'); }`. -/
def showComment : Option (List UInt8) → List UInt8
  | some c => asc '(' :: c ++ [asc ')']
  | none => []

/-- `to_email_string`: L1526-1677. -/
def toEmail (o : Opts) (v : Value) : List UInt8 :=
  if o.comment = .disallow then v.text ++ asc '@' :: showHost v.host
  else
    showComment v.comment1 ++ (if v.needQuoted then [asc '"'] else []) ++ v.text ++ (if v.needQuoted then [asc '"'] else []) ++
      showComment v.comment2 ++ asc '@' :: showComment v.comment3 ++ showHost v.host ++ showComment v.comment4

end Verif.Email
