import Verif.Spec.Domain
import Verif.Model.Host

/-!
# Specification of the `host` validator
-/

namespace Verif.Spec.Host

open Verif.Spec Verif.Spec.Ip Verif.Spec.Domain Verif.StdIp Verif.Host

/-- `is_local` is a field only with `local(Allow)` and a label option. -/
def ShowsLocal (o : Opts) : Prop := o.loc = .allow ∧ o.atl ≠ .allow

/-- `s` is accepted as an IPv6 address. -/
def AsIpv6 (o : Opts) (s : List UInt8) (v : Value) : Prop :=
  ∃ x, v.host = .ipv6 x ∧ V6Input s x v.port ∧ o.atl ≠ .disallow ∧ LocalOk o.loc (Local6 x.number) ∧ Tells (ShowsLocal o) v.isLocal (Local6 x.number)

/-- `s` is accepted as an IPv4 address. -/
def AsIpv4 (o : Opts) (s : List UInt8) (v : Value) : Prop :=
  ∃ x, v.host = .ipv4 x ∧ V4Input s x v.port ∧ o.atl ≠ .disallow ∧ LocalOk o.loc (Local4 x.number) ∧ Tells (ShowsLocal o) v.isLocal (Local4 x.number)

/-- The host text `d` is a name: not empty or in brackets, no address, no final dot. -/
def NameText (s d : List UInt8) : Prop :=
  s ≠ [] ∧ s.head? ≠ some (asc '[') ∧ (∀ x : V6, ¬ V6Text s x.segs) ∧ (¬ ∃ c, d = c ++ ascii ".") ∧ ∀ x : V4, d ≠ x.text

/-- `s` is accepted as a name that IDNA converts to the returned domain. -/
def AsName (o : Opts) (idna : List UInt8 → Option (List UInt8)) (s : List UInt8) (v : Value) : Prop :=
  ∃ d a, v.host = .domain a ∧ HostPort s d v.port ∧ NameText s d ∧ idna d = some a ∧ LabelsOk o.atl (LocalName a) (ManyLabels a) ∧
    LocalOk o.loc (LocalName a) ∧ Tells (ShowsLocal o) v.isLocal (LocalName a)

/-- Local hosts. -/
def LocalHost : Host → Prop
  | .ipv4 x => Local4 x.number
  | .ipv6 x => Local6 x.number
  | .domain a => LocalName a

end Verif.Spec.Host
