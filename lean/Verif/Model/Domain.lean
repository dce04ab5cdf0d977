import Verif.Model.Ip

/-!
# Domain functions and the `domain` handler

The conversion `idna::Config::default().use_std3_ascii_rules(true).verify_dns_length(true).check_hyphens(true).to_ascii` is a
parameter: a function from texts to ASCII texts or failure.
-/

namespace Verif.Domain

open Verif.StdIp Verif.Ip

/-- `to_ascii` of the `idna` crate with the configuration of `domain/mod.rs` L591-595, L682-686, `host/mod.rs` L500-504 and
`email/mod.rs` L831-835. -/
abbrev Idna := List UInt8 → Option (List UInt8)

/-- `s.strip_suffix('.').unwrap_or(s)`. -/
def stripDot (s : List UInt8) : List UInt8 := if s.getLast? = some (asc '.') then s.dropLast else s

/-- `u8::to_ascii_lowercase`. -/
def toLower (b : UInt8) : UInt8 := if inRange 'A' 'Z' b then b + 32 else b

/-- `str::eq_ignore_ascii_case`. -/
def eqIgnoreAsciiCase (a b : List UInt8) : Bool := a.map toLower == b.map toLower

/-- `is_local_domain`: `validators/src/functions/domain.rs` L3-7. -/
def isLocalDomain (s : List UInt8) : Bool := eqIgnoreAsciiCase (stripDot s) (ascii "localhost")

/-- `is_at_least_two_labels_domain`: `validators/src/functions/domain.rs` L11-15. -/
def isAtLeastTwoLabelsDomain (s : List UInt8) : Bool := (stripDot s).contains (asc '.')

/-- `parse_ipv4_allow_an_ended_dot`: `validators/src/functions/ipv4.rs` L17-21. -/
def parseV4Dot (s : List UInt8) : Option V4 := parseV4 (stripDot s)

/-- `DomainError`: `validators/src/errors/domain.rs`. -/
inductive DomainError where
  | invalid
  | ipv4Must
  | ipv4Disallow
  | localMust
  | localDisallow
  | atLeastTwoLabelsMust
  | atLeastTwoLabelsDisallow
  | portMust
  | portDisallow
  deriving DecidableEq, Repr

/-- The options of the `domain` validator. -/
structure Opts where
  ipv4 : TriAllow
  loc : TriAllow
  port : TriAllow
  atl : TriAllow
  deriving DecidableEq, Repr

/-- `handle_domain_and_port` and `handle_none_port`: `domain/mod.rs` L520-545, L733-738: the domain and the port texts. -/
def splitPort (port : TriAllow) (s : List UInt8) : Out DomainError (List UInt8 × Option (List UInt8)) :=
  match rposition (asc ':') s with
  | some colon =>
    if port = .disallow then .err .portDisallow
    else
      (strSlice s 0 colon).bind fun domainStr =>
        (strSliceFrom s (colon + 1)).bind fun portStr => .ok (domainStr, some portStr)
  | none => if port = .must then .err .portMust else .ok (s, none)

/-- `handle_port`: `domain/mod.rs` L547-563. -/
def handlePort (port : TriAllow) (portStr : Option (List UInt8)) : Out DomainError (Option Nat) :=
  if port = .disallow then .ok none
  else
    match portStr with
    | some u =>
      match parsePort u with
      | some n => .ok (some n)
      | none => .err .invalid
    | none => .ok none

/-- `check_local`: `domain/mod.rs` L565-583. -/
def checkLocal (opt : TriAllow) (isLocal : Bool) : Out DomainError Unit :=
  match opt with
  | .allow => .ok ()
  | .must => if !isLocal then .err .localMust else .ok ()
  | .disallow => if isLocal then .err .localDisallow else .ok ()

/-- `handle_local_ipv4` and `handle_local_domain`: `domain/mod.rs` L619-629, L649-659. -/
def localOf (o : Opts) (f : Bool) : Bool := if o.loc = .allow ∧ o.atl = .allow then false else f

/-- `check_at_least_two_labels`: `domain/mod.rs` L661-679. -/
def checkLabels (opt : TriAllow) (isLocal : Bool) (ascii : List UInt8) : Out DomainError Unit :=
  match opt with
  | .allow => .ok ()
  | .must => if !isLocal && !isAtLeastTwoLabelsDomain ascii then .err .atLeastTwoLabelsMust else .ok ()
  | .disallow => if !isLocal && isAtLeastTwoLabelsDomain ascii then .err .atLeastTwoLabelsDisallow else .ok ()

/-- What `v_parse_str` returns: domain, port, `is_ipv4`, `is_local`. -/
abbrev Parsed := List UInt8 × Option Nat × Bool × Bool

/-- `handle_ipv4`: `domain/mod.rs` L606-642. The domain stored is the whole input `s` (L639). -/
def ipv4Arm (o : Opts) (s : List UInt8) (portStr : Option (List UInt8)) (ip : V4) : Out DomainError Parsed :=
  if o.ipv4 = .disallow then .err .ipv4Disallow
  else if o.atl = .disallow then .err .atLeastTwoLabelsDisallow
  else
    (handlePort o.port portStr).bind fun port =>
      let isLocal := localOf o (isLocalV4 ip)
      (checkLocal o.loc isLocal).bind fun _ => .ok (s, port, true, isLocal)

/-- `handle_none_ipv4`: `domain/mod.rs` L644-702. -/
def nameArm (o : Opts) (idna : Idna) (domainStr : List UInt8) (portStr : Option (List UInt8)) : Out DomainError Parsed :=
  if o.ipv4 = .must then .err .ipv4Must
  else
    match idna domainStr with
    | some asciiDomain =>
      (handlePort o.port portStr).bind fun port =>
        let isLocal := localOf o (isLocalDomain asciiDomain)
        (checkLabels o.atl isLocal asciiDomain).bind fun _ =>
          (checkLocal o.loc isLocal).bind fun _ => .ok (asciiDomain, port, false, isLocal)
    | none => .err .invalid

/-- `handle_domain_str_and_port_str`: `domain/mod.rs` L585-713. -/
def domainPart (o : Opts) (idna : Idna) (s domainStr : List UInt8) (portStr : Option (List UInt8)) : Out DomainError Parsed :=
  if o.ipv4 = .allow ∧ o.loc = .allow ∧ o.atl = .allow then
    match idna domainStr with
    | some asciiDomain => (handlePort o.port portStr).bind fun port => .ok (asciiDomain, port, false, false)
    | none => .err .invalid
  else
    match parseV4Dot domainStr with
    | some ip => ipv4Arm o s portStr ip
    | none => nameArm o idna domainStr portStr

/-- `v_parse_str`: `domain/mod.rs` L726-741. -/
def parse (o : Opts) (idna : Idna) (s : List UInt8) : Out DomainError Parsed :=
  if s = [] then .err .invalid
  else (splitPort o.port s).bind fun (domainStr, portStr) => domainPart o idna s domainStr portStr

/-- A value of the annotated type. `is_ipv4` and `is_local` are fields only under some options (`none` otherwise). -/
structure Value where
  domain : List UInt8
  isIpv4 : Option Bool
  isLocal : Option Bool
  port : Option Nat
  deriving DecidableEq, Repr

/-- `create_instance`: `domain/mod.rs` L745-867. -/
def create (o : Opts) (p : Parsed) : Out DomainError Value :=
  let isIpv4 := if o.ipv4 = .allow ∧ o.loc = .allow ∧ o.atl ≠ .allow then some p.2.2.1 else none
  let isLocal := if o.loc = .allow ∧ o.atl ≠ .allow then some p.2.2.2 else none
  match o.port with
  | .allow => .ok ⟨p.1, isIpv4, isLocal, p.2.1⟩
  | .must =>
    match p.2.1 with
    | some port => .ok ⟨p.1, isIpv4, isLocal, some port⟩
    | none => .panic
  | .disallow => .ok ⟨p.1, isIpv4, isLocal, none⟩

/-- `parse_string`, `parse_str`: `domain/mod.rs` L873-885. -/
def parseStr (o : Opts) (idna : Idna) (s : List UInt8) : Out DomainError Value := (parse o idna s).bind (create o)

/-- `validate_str`: `domain/mod.rs` L887-892. -/
def validateStr (o : Opts) (idna : Idna) (s : List UInt8) : Out DomainError Unit := (parse o idna s).bind fun _ => .ok ()

/-- `is_fully_qualified`: `domain/mod.rs` L903-906, L921-924. -/
def isFullyQualified (v : Value) : Bool := v.domain.getLast? == some (asc '.')

/-- `get_domain_non_fully_qualified`: `domain/mod.rs` L908-915, L926-933. -/
def nonFullyQualified (v : Value) : Out Empty (List UInt8) :=
  if isFullyQualified v then strSlice v.domain 0 (v.domain.length - 1) else .ok v.domain

/-- `to_uri_authority_string`: `domain/mod.rs` L939-980. -/
def toUri (v : Value) : Out Empty (List UInt8) :=
  (nonFullyQualified v).bind fun domain =>
    match v.port with
    | some port => .ok (domain ++ asc ':' :: IntV.showNat port)
    | none => .ok domain

end Verif.Domain
