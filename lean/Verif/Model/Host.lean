import Verif.Model.Domain

/-!
# The `host` handler
-/

namespace Verif.Host

open Verif.StdIp
open Verif.Ip (rposition strSlice strSliceFrom parsePort isLocalV4 isLocalV6)
open Verif.Domain (Idna isLocalDomain isAtLeastTwoLabelsDomain)

/-- `HostError`: `validators/src/errors/host.rs`. -/
inductive HostError where
  | invalid
  | localMust
  | localDisallow
  | atLeastTwoLabelsMust
  | atLeastTwoLabelsDisallow
  | portMust
  | portDisallow
  deriving DecidableEq, Repr

/-- `Host`: `validators/src/models/host.rs`. -/
inductive Host where
  | ipv4 (a : V4)
  | ipv6 (a : V6)
  | domain (d : List UInt8)
  deriving DecidableEq, Repr

/-- `Display for Host`: `validators/src/models/host.rs` L14-23. -/
def Host.display : Host → List UInt8
  | .domain s => s
  | .ipv4 ip => showV4 ip
  | .ipv6 ip => showV6 ip

/-- `From<Ipv4Addr> for Host`: `models/host.rs` L25-30. -/
def Host.ofV4 (value : V4) : Host := .ipv4 value

/-- `From<Ipv6Addr> for Host`: `models/host.rs` L32-37. -/
def Host.ofV6 (value : V6) : Host := .ipv6 value

/-- The options of the `host` validator. -/
structure Opts where
  loc : TriAllow
  port : TriAllow
  atl : TriAllow
  deriving DecidableEq, Repr

/-- `check_local`: `host/mod.rs` L259-277. -/
def checkLocal (opt : TriAllow) (isLocal : Bool) : Out HostError Unit :=
  match opt with
  | .allow => .ok ()
  | .must => if !isLocal then .err .localMust else .ok ()
  | .disallow => if isLocal then .err .localDisallow else .ok ()

/-- `handle_local_ipv6`, `handle_local_ipv4`, `handle_local_domain`: `host/mod.rs` L279-289, L434-444, L487-497. -/
def localOf (o : Opts) (f : Bool) : Bool := if o.atl = .allow ∧ o.loc = .allow then false else f

/-- What `v_parse_str` returns: host, port, `is_local`. -/
abbrev Parsed := Host × Option Nat × Bool

/-- The end of every path: `is_local`, `check_local`, the triple. -/
def finish (o : Opts) (f : Bool) (h : Host) (port : Option Nat) : Out HostError Parsed :=
  let isLocal := localOf o f
  (checkLocal o.loc isLocal).bind fun _ => .ok (h, port, isLocal)

/-- `handle_ipv6_bracket` with `handle_ipv6_without_port` and `handle_ipv6_with_port`: `host/mod.rs` L291-363. -/
def bracketPart (o : Opts) (s : List UInt8) : Out HostError Parsed :=
  if o.atl = .disallow then .err .atLeastTwoLabelsDisallow
  else
    let lastIndex := s.length - 1
    (idx s lastIndex).bind fun last =>
      if last = asc ']' then
        if o.port = .must then .err .portMust
        else
          (strSlice s 1 lastIndex).bind fun ipStr =>
            match parseV6 ipStr with
            | some ip => finish o (isLocalV6 ip) (.ipv6 ip) none
            | none => .err .invalid
      else if o.port = .disallow then .err .portDisallow
      else
        match rposition (asc ':') s with
        | some colon =>
          if colon > 2 then
            (idx s (colon - 1)).bind fun b =>
              if b = asc ']' then
                (strSlice s 1 (colon - 1)).bind fun ipStr =>
                  match parseV6 ipStr with
                  | some ip =>
                    (strSliceFrom s (colon + 1)).bind fun portStr =>
                      match parsePort portStr with
                      | some port => finish o (isLocalV6 ip) (.ipv6 ip) (some port)
                      | none => .err .invalid
                  | none => .err .invalid
              else .err .invalid
          else .err .invalid
        | none => .err .invalid

/-- `handle_ipv6_non_bracket`: `host/mod.rs` L365-387. -/
def barePart (o : Opts) (ip : V6) : Out HostError Parsed :=
  if o.atl = .disallow then .err .atLeastTwoLabelsDisallow
  else if o.port = .must then .err .portMust
  else finish o (isLocalV6 ip) (.ipv6 ip) none

/-- `handle_domain_and_port`, `handle_domain_none_port`: `host/mod.rs` L389-414, L539-544. -/
def splitPort (port : TriAllow) (s : List UInt8) : Out HostError (List UInt8 × Option (List UInt8)) :=
  match rposition (asc ':') s with
  | some colon =>
    if port = .disallow then .err .portDisallow
    else
      (strSlice s 0 colon).bind fun domainStr =>
        (strSliceFrom s (colon + 1)).bind fun portStr => .ok (domainStr, some portStr)
  | none => if port = .must then .err .portMust else .ok (s, none)

/-- `handle_port`: `host/mod.rs` L416-432. -/
def handlePort (port : TriAllow) (portStr : Option (List UInt8)) : Out HostError (Option Nat) :=
  if port = .disallow then .ok none
  else
    match portStr with
    | some u =>
      match parsePort u with
      | some n => .ok (some n)
      | none => .err .invalid
    | none => .ok none

/-- `check_at_least_two_labels`: `host/mod.rs` L467-485. -/
def checkLabels (opt : TriAllow) (isLocal : Bool) (ascii : List UInt8) : Out HostError Unit :=
  match opt with
  | .allow => .ok ()
  | .must => if !isLocal && !isAtLeastTwoLabelsDomain ascii then .err .atLeastTwoLabelsMust else .ok ()
  | .disallow => if !isLocal && isAtLeastTwoLabelsDomain ascii then .err .atLeastTwoLabelsDisallow else .ok ()

/-- `handle_ipv4`: `host/mod.rs` L446-464. -/
def ipv4Arm (o : Opts) (portStr : Option (List UInt8)) (ip : V4) : Out HostError Parsed :=
  if o.atl = .disallow then .err .atLeastTwoLabelsDisallow
  else (handlePort o.port portStr).bind fun port => finish o (isLocalV4 ip) (.ipv4 ip) port

/-- `handle_none_ipv4`: `host/mod.rs` L466-520. -/
def nameArm (o : Opts) (idna : Idna) (domainStr : List UInt8) (portStr : Option (List UInt8)) : Out HostError Parsed :=
  match idna domainStr with
  | some asciiDomain =>
    (handlePort o.port portStr).bind fun port =>
      (checkLabels o.atl (localOf o (isLocalDomain asciiDomain)) asciiDomain).bind fun _ =>
        finish o (isLocalDomain asciiDomain) (.domain asciiDomain) port
  | none => .err .invalid

/-- The part of `v_parse_str` after the IPv6 attempts: `host/mod.rs` L539-555. -/
def namePart (o : Opts) (idna : Idna) (s : List UInt8) : Out HostError Parsed :=
  (splitPort o.port s).bind fun (domainStr, portStr) =>
    if domainStr.getLast? = some (asc '.') then .err .invalid
    else
      match parseV4 domainStr with
      | some ip => ipv4Arm o portStr ip
      | none => nameArm o idna domainStr portStr

/-- `v_parse_str`: `host/mod.rs` L524-559. -/
def parse (o : Opts) (idna : Idna) (s : List UInt8) : Out HostError Parsed :=
  match s with
  | [] => .err .invalid
  | b :: _ =>
    if b = asc '[' then bracketPart o s
    else
      match parseV6 s with
      | some ip => barePart o ip
      | none => namePart o idna s

/-- A value of the annotated type; `is_local` is a field only under some options. -/
structure Value where
  host : Host
  isLocal : Option Bool
  port : Option Nat
  deriving DecidableEq, Repr

/-- `create_instance`: `host/mod.rs` L563-619. -/
def create (o : Opts) (p : Parsed) : Out HostError Value :=
  let isLocal := if o.loc = .allow ∧ o.atl ≠ .allow then some p.2.2 else none
  match o.port with
  | .allow => .ok ⟨p.1, isLocal, p.2.1⟩
  | .must =>
    match p.2.1 with
    | some port => .ok ⟨p.1, isLocal, some port⟩
    | none => .panic
  | .disallow => .ok ⟨p.1, isLocal, none⟩

/-- `parse_string`, `parse_str`: `host/mod.rs` L626-638. -/
def parseStr (o : Opts) (idna : Idna) (s : List UInt8) : Out HostError Value := (parse o idna s).bind (create o)

/-- `validate_str`: `host/mod.rs` L640-645. -/
def validateStr (o : Opts) (idna : Idna) (s : List UInt8) : Out HostError Unit := (parse o idna s).bind fun _ => .ok ()

/-- `to_uri_authority_string`: `host/mod.rs` L649-729. -/
def toUri (v : Value) : List UInt8 :=
  match v.host with
  | .ipv4 ip =>
    match v.port with
    | some port => showV4 ip ++ asc ':' :: IntV.showNat port
    | none => showV4 ip
  | .ipv6 ip =>
    match v.port with
    | some port => asc '[' :: showV6 ip ++ asc ']' :: asc ':' :: IntV.showNat port
    | none => asc '[' :: showV6 ip ++ [asc ']']
  | .domain d =>
    match v.port with
    | some port => d ++ asc ':' :: IntV.showNat port
    | none => d

end Verif.Host
