import Verif.Spec.Host

/-!
# Specification of the order of the checks

A validator is described by the list of its checks: what is wrong with the string, and the error that says so. The first
check that finds something decides.
-/

namespace Verif.Spec.Order

open Verif.Spec Verif.Spec.Ip Verif.Spec.Domain Verif.StdIp

/-- `e` is the error of the first check that finds something. -/
def FirstOf {ε : Type} (checks : List (Prop × ε)) (e : ε) : Prop :=
  ∃ before wrong after, checks = before ++ (wrong, e) :: after ∧ wrong ∧ ∀ c ∈ before, ¬ c.1

/-- The outcome is the one that the checks ask for. -/
def Decide {ε α : Type} (checks : List (Prop × ε)) : Out ε α → Prop
  | .ok _ => ∀ c ∈ checks, ¬ c.1
  | .err e => FirstOf checks e
  | .panic => False

/-- `s` is the host text `d` and, after the last colon, the port text `u`. -/
def Parts (s d : List UInt8) (u : Option (List UInt8)) : Prop :=
  u = none ∧ s = d ∧ asc ':' ∉ s ∨ ∃ t, u = some t ∧ s = d ++ ascii ":" ++ t ∧ asc ':' ∉ t

/-- The port text is there and not a port. -/
def BadPort (u : Option (List UInt8)) : Prop := ∃ t, u = some t ∧ ∀ n, ¬ PortText t n

/-! ## Addresses -/

/-- `[` at the front and `]` at the end. -/
def Bracketed (s : List UInt8) : Prop := s.head? = some (asc '[') ∧ s.getLast? = some (asc ']')

/-- `[` at the front, but not `]` at the end: there would be a port. -/
def OpenBracket (s : List UInt8) : Prop := s.head? = some (asc '[') ∧ s.getLast? ≠ some (asc ']')

/-- The text of an IPv6 address, without brackets. -/
def Bare6 (s : List UInt8) : Prop := ∃ x : V6, V6Text s x.segs

/-- `ipv4` -/
def ipv4 (loc port : TriAllow) (s : List UInt8) : List (Prop × Verif.Ip.IpError) :=
  [(s = [], .invalid),
   (port = .must ∧ asc ':' ∉ s, .portMust),
   (port = .disallow ∧ asc ':' ∈ s, .portDisallow),
   (¬ ∃ x p, V4Input s x p, .invalid),
   (loc = .must ∧ ∃ x p, V4Input s x p ∧ ¬ Local4 x.number, .localMust),
   (loc = .disallow ∧ ∃ x p, V4Input s x p ∧ Local4 x.number, .localDisallow)]

/-- `ipv6` -/
def ipv6 (loc port : TriAllow) (s : List UInt8) : List (Prop × Verif.Ip.IpError) :=
  [(port = .must ∧ (Bracketed s ∨ Bare6 s), .portMust),
   (port = .disallow ∧ OpenBracket s, .portDisallow),
   (¬ ∃ x p, V6Input s x p, .invalid),
   (loc = .must ∧ ∃ x p, V6Input s x p ∧ ¬ Local6 x.number, .localMust),
   (loc = .disallow ∧ ∃ x p, V6Input s x p ∧ Local6 x.number, .localDisallow)]

/-- The text is looked at as an IPv6 address. -/
def Looks6 (s : List UInt8) : Prop := s.head? = some (asc '[') ∨ Bare6 s

/-! ## Names -/

/-- `domain`. With every option at `Allow` an IPv4 address is a name like any other. -/
def domain (o : Verif.Domain.Opts) (idna : List UInt8 → Option (List UInt8)) (s d : List UInt8) (u : Option (List UInt8)) :
    List (Prop × Verif.Domain.DomainError) :=
  [(s = [], .invalid),
   (o.port = .must ∧ u = none, .portMust),
   (o.port = .disallow ∧ u ≠ none, .portDisallow),
   (o.ipv4 = .disallow ∧ ∃ x, QuadDot d x, .ipv4Disallow),
   (o.ipv4 = .must ∧ ¬ ∃ x, QuadDot d x, .ipv4Must),
   (o.atl = .disallow ∧ ∃ x, QuadDot d x, .atLeastTwoLabelsDisallow),
   ((Plain o ∨ ¬ ∃ x, QuadDot d x) ∧ idna d = none, .invalid),
   (BadPort u, .invalid),
   (o.atl = .must ∧ (¬ ∃ x, QuadDot d x) ∧ ∃ a, idna d = some a ∧ ¬ LocalName a ∧ ¬ ManyLabels a, .atLeastTwoLabelsMust),
   (o.atl = .disallow ∧ (¬ ∃ x, QuadDot d x) ∧ ∃ a, idna d = some a ∧ ¬ LocalName a ∧ ManyLabels a, .atLeastTwoLabelsDisallow),
   (o.loc = .must ∧ ((∃ x, QuadDot d x ∧ ¬ Local4 x.number) ∨ (¬ ∃ x, QuadDot d x) ∧ ∃ a, idna d = some a ∧ ¬ LocalName a), .localMust),
   (o.loc = .disallow ∧ ((∃ x, QuadDot d x ∧ Local4 x.number) ∨ (¬ ∃ x, QuadDot d x) ∧ ∃ a, idna d = some a ∧ LocalName a), .localDisallow)]

/-- `host`, for a text that is looked at as an IPv6 address. -/
def host6 (o : Verif.Host.Opts) (s : List UInt8) : List (Prop × Verif.Host.HostError) :=
  [(o.atl = .disallow, .atLeastTwoLabelsDisallow),
   (o.port = .must ∧ (Bracketed s ∨ Bare6 s), .portMust),
   (o.port = .disallow ∧ OpenBracket s, .portDisallow),
   (¬ ∃ x p, V6Input s x p, .invalid),
   (o.loc = .must ∧ ∃ x p, V6Input s x p ∧ ¬ Local6 x.number, .localMust),
   (o.loc = .disallow ∧ ∃ x p, V6Input s x p ∧ Local6 x.number, .localDisallow)]

/-- `host`, for any other text. -/
def host (o : Verif.Host.Opts) (idna : List UInt8 → Option (List UInt8)) (s d : List UInt8) (u : Option (List UInt8)) :
    List (Prop × Verif.Host.HostError) :=
  [(s = [], .invalid),
   (o.port = .must ∧ u = none, .portMust),
   (o.port = .disallow ∧ u ≠ none, .portDisallow),
   (∃ c, d = c ++ ascii ".", .invalid),
   (o.atl = .disallow ∧ ∃ x : V4, d = x.text, .atLeastTwoLabelsDisallow),
   ((¬ ∃ x : V4, d = x.text) ∧ idna d = none, .invalid),
   (BadPort u, .invalid),
   (o.atl = .must ∧ (¬ ∃ x : V4, d = x.text) ∧ ∃ a, idna d = some a ∧ ¬ LocalName a ∧ ¬ ManyLabels a, .atLeastTwoLabelsMust),
   (o.atl = .disallow ∧ (¬ ∃ x : V4, d = x.text) ∧ ∃ a, idna d = some a ∧ ¬ LocalName a ∧ ManyLabels a, .atLeastTwoLabelsDisallow),
   (o.loc = .must ∧ ((∃ x : V4, d = x.text ∧ ¬ Local4 x.number) ∨ (¬ ∃ x : V4, d = x.text) ∧ ∃ a, idna d = some a ∧ ¬ LocalName a), .localMust),
   (o.loc = .disallow ∧ ((∃ x : V4, d = x.text ∧ Local4 x.number) ∨ (¬ ∃ x : V4, d = x.text) ∧ ∃ a, idna d = some a ∧ LocalName a),
     .localDisallow)]

end Verif.Spec.Order
