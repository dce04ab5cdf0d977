import Verif.Model.StdIp

/-!
# Locality functions and the `ipv4`, `ipv6` and `ip` handlers
-/

namespace Verif.Ip

open Verif.StdIp

/-- `is_local_ipv4`: `validators/src/functions/ipv4.rs` L6-13. -/
def isLocalV4 (x : V4) : Bool :=
  x.isPrivate || x.isLoopback || x.isLinkLocal || x.isBroadcast || x.isDocumentation || x.isUnspecified

/-- `is_local_ipv6`: `validators/src/functions/ipv6.rs` L7-45. -/
def isLocalV6 (x : V6) : Bool :=
  let first := x.s0
  if first &&& 0xFF00 = 0xFF00 then first &&& 0x000F ≠ 14
  else if x = ⟨0, 0, 0, 0, 0, 0, 0, 0⟩ ∨ x = ⟨0, 0, 0, 0, 0, 0, 0, 1⟩ then true
  else if first &&& 0xFFC0 = 0xFE80 ∨ first &&& 0xFFC0 = 0xFEC0 then true
  else if first &&& 0xFE00 = 0xFC00 ∨ (first = 0x2001 ∧ x.s1 = 0xDB8) then true
  else
    match x.toIpv4 with
    | some a => isLocalV4 a
    | none => false

/-- `std::net::IpAddr`. -/
inductive IpAddr where
  | v4 (a : V4)
  | v6 (a : V6)
  deriving DecidableEq, Repr

/-- `is_local_ip`: `validators/src/functions/ip.rs` L7-12. -/
def isLocalIp : IpAddr → Bool
  | .v4 a => isLocalV4 a
  | .v6 a => isLocalV6 a

/-- `Ipv4Error`, `Ipv6Error`, `IpError`: `validators/src/errors/ipv4.rs`, `ipv6.rs`, `ip.rs`. -/
inductive IpError where
  | invalid
  | localMust
  | localDisallow
  | portMust
  | portDisallow
  deriving DecidableEq, Repr

/-- `bytes.iter().copied().rposition(|e| e == b)`: the index of the last occurrence. -/
def rposition (b : UInt8) : List UInt8 → Option Nat
  | [] => none
  | x :: xs =>
    match rposition b xs with
    | some i => some (i + 1)
    | none => if x = b then some 0 else none

/-- `str::is_char_boundary`: the start, the end, or a byte that is not of the form `10xxxxxx`. -/
def isCharBoundary (s : List UInt8) (i : Nat) : Bool :=
  i == 0 || i == s.length || (match s[i]? with | some b => decide (b.toNat < 128) || decide (192 ≤ b.toNat) | none => false)

/-- `&s[a..b]` on a `&str`: panics when out of range, in the wrong order, or when `a` or `b` is not on a character
boundary. -/
def strSlice {ε : Type} (s : List UInt8) (a b : Nat) : Out ε (List UInt8) :=
  if a ≤ b ∧ b ≤ s.length ∧ isCharBoundary s a = true ∧ isCharBoundary s b = true then .ok ((s.drop a).take (b - a))
  else .panic

/-- `&s[a..]`. -/
def strSliceFrom {ε : Type} (s : List UInt8) (a : Nat) : Out ε (List UInt8) := strSlice s a s.length

/-- `port_str.parse::<u16>()`. -/
def parsePort (s : List UInt8) : Option Nat :=
  match IntV.fromStr false 16 s with
  | .ok v => some v.toNat
  | .error _ => none

/-- `check_local`: `ipv4/mod.rs` L133-150 (also `ipv6/mod.rs` L133-150, `ip/mod.rs` L133-150). -/
def checkLocal (opt : TriAllow) (isLocal : Bool) : Out IpError Unit :=
  match opt with
  | .allow => .ok ()
  | .must => if isLocal then .ok () else .err .localMust
  | .disallow => if isLocal then .err .localDisallow else .ok ()

/-- `handle_local_ipv4` / `handle_local_ipv6`: `ipv4/mod.rs` L153-161, `ipv6/mod.rs` L153-161: only computed when it
matters. -/
def localOf (opt : TriAllow) (f : Bool) : Bool := if opt = .allow then false else f

/-- What `v_parse_str` returns: address, port, locality. -/
abbrev Parsed (α : Type) := α × Option Nat × Bool

/-- End of every path that found an address: `is_local`, `check_local`, the triple. -/
def finish {α : Type} (opt : TriAllow) (isLocal : α → Bool) (ip : α) (port : Option Nat) : Out IpError (Parsed α) :=
  (checkLocal opt (localOf opt (isLocal ip))).bind fun _ => .ok (ip, port, localOf opt (isLocal ip))

/-- The `match bytes.iter().copied().rposition(|e| e == b':')` part of `ipv4/mod.rs` L163-213 (also
`ip/mod.rs` L249-299). -/
def v4Part (loc port : TriAllow) (s : List UInt8) : Out IpError (Parsed V4) :=
  match rposition (asc ':') s with
  | some colon =>
    if port = .disallow then .err .portDisallow
    else
      (strSlice s 0 colon).bind fun ipStr =>
        match parseV4 ipStr with
        | some ip =>
          (strSliceFrom s (colon + 1)).bind fun portStr =>
            match parsePort portStr with
            | some port => finish loc isLocalV4 ip (some port)
            | none => .err .invalid
        | none => .err .invalid
  | none =>
    if port = .must then .err .portMust
    else
      match parseV4 s with
      | some ip => finish loc isLocalV4 ip none
      | none => .err .invalid

/-- `v_parse_str` of `ipv4/mod.rs` L217-232. -/
def parseIpv4 (loc port : TriAllow) (s : List UInt8) : Out IpError (Parsed V4) :=
  if s = [] then .err .invalid else v4Part loc port s

/-- The bracketed part of `ipv6/mod.rs`: L163-219 and L250-257 (also `ip/mod.rs` L163-219, L312-319). -/
def bracketPart (loc port : TriAllow) (s : List UInt8) : Out IpError (Parsed V6) :=
  let lastIndex := s.length - 1
  (idx s lastIndex).bind fun last =>
    if last = asc ']' then
      if port = .must then .err .portMust
      else
        (strSlice s 1 lastIndex).bind fun ipStr =>
          match parseV6 ipStr with
          | some ip => finish loc isLocalV6 ip none
          | none => .err .invalid
    else if port = .disallow then .err .portDisallow
    else
      match rposition (asc ':') s with
      | some colon =>
        if colon > 2 then
          (idx s (colon - 1)).bind fun b =>
            if b = asc ']' then
              (strSlice s 1 (colon - 1)).bind fun ipStr =>
                match parseV6 ipStr with
                | some ip =>
                  (strSliceFrom s (colon + 1)).bind fun portStr =>
                    match parsePort portStr with
                    | some port => finish loc isLocalV6 ip (some port)
                    | none => .err .invalid
                | none => .err .invalid
            else .err .invalid
        else .err .invalid
      | none => .err .invalid

/-- `handle_ipv6_non_bracket`: `ipv6/mod.rs` L221-237 (also `ip/mod.rs` L221-237). -/
def barePart (loc port : TriAllow) (ip : V6) : Out IpError (Parsed V6) :=
  if port = .must then .err .portMust else finish loc isLocalV6 ip none

/-- `v_parse_str` of `ipv6/mod.rs` L241-264. -/
def parseIpv6 (loc port : TriAllow) (s : List UInt8) : Out IpError (Parsed V6) :=
  match s with
  | [] => .err .invalid
  | b :: _ =>
    if b = asc '[' then bracketPart loc port s
    else
      match parseV6 s with
      | some ip => barePart loc port ip
      | none => .err .invalid

/-- Wrap the address: `IpAddr::V4(ip)` / `IpAddr::V6(ip)`. -/
def wrap {α β : Type} (f : α → β) (p : Parsed α) : Parsed β := (f p.1, p.2.1, p.2.2)

/-- `v_parse_str` of `ip/mod.rs` L303-333. -/
def parseIp (loc port : TriAllow) (s : List UInt8) : Out IpError (Parsed IpAddr) :=
  match s with
  | [] => .err .invalid
  | b :: _ =>
    if b = asc '[' then (bracketPart loc port s).map (wrap .v6)
    else
      match parseV6 s with
      | some ip => (barePart loc port ip).map (wrap .v6)
      | none => (v4Part loc port s).map (wrap .v4)

/-- `create_instance`: `ipv4/mod.rs` L236-260, `ipv6/mod.rs` L268-292, `ip/mod.rs` L337-361: address and port; with
`port(Must)` the port is unwrapped, with `port(Disallow)` it is dropped. -/
def create {α : Type} (port : TriAllow) (p : Parsed α) : Out IpError (α × Option Nat) :=
  match port with
  | .allow => .ok (p.1, p.2.1)
  | .must =>
    match p.2.1 with
    | some x => .ok (p.1, some x)
    | none => .panic
  | .disallow => .ok (p.1, none)

/-- `parse_string` / `parse_str` given the parser. -/
def parseStr {α : Type} (parse : TriAllow → TriAllow → List UInt8 → Out IpError (Parsed α)) (loc port : TriAllow)
    (s : List UInt8) : Out IpError (α × Option Nat) := (parse loc port s).bind (create port)

/-- `validate_str` given the parser. -/
def validateStr {α : Type} (parse : TriAllow → TriAllow → List UInt8 → Out IpError (Parsed α)) (loc port : TriAllow)
    (s : List UInt8) : Out IpError Unit := (parse loc port s).bind fun _ => .ok ()

/-- `to_uri_authority_string` of `ipv4/mod.rs` L288-329. -/
def uriV4 (p : V4 × Option Nat) : List UInt8 :=
  match p.2 with
  | some port => showV4 p.1 ++ asc ':' :: IntV.showNat port
  | none => showV4 p.1

/-- `to_uri_authority_string` of `ipv6/mod.rs` L320-361. -/
def uriV6 (p : V6 × Option Nat) : List UInt8 :=
  match p.2 with
  | some port => asc '[' :: showV6 p.1 ++ asc ']' :: asc ':' :: IntV.showNat port
  | none => asc '[' :: showV6 p.1 ++ [asc ']']

/-- `to_uri_authority_string` of `ip/mod.rs` L389-441. -/
def uriIp (p : IpAddr × Option Nat) : List UInt8 :=
  match p.1 with
  | .v4 a => uriV4 (a, p.2)
  | .v6 a => uriV6 (a, p.2)

end Verif.Ip
