import Verif.Spec.Host

/-!
# What a `host` validator can read from the text of a `Host`
-/

namespace Verif.Spec.HostText

open Verif.Host Verif.Spec Verif.Spec.Ip Verif.Spec.Domain Verif.Spec.Host Verif.StdIp

/-- A host that a validator can return: an address, or a name from IDNA. -/
def Known (idna : List UInt8 → Option (List UInt8)) : Host → Prop
  | .domain a => ∃ s, idna s = some a
  | _ => True

/-- A host whose text can be read back: an address, or a name from IDNA that has no final dot and is not the text of an IPv4
address. -/
def Readable (idna : List UInt8 → Option (List UInt8)) : Host → Prop
  | .domain a => (∃ s, idna s = some a) ∧ (¬ ∃ c, a = c ++ ascii ".") ∧ ∀ x : V4, a ≠ x.text
  | _ => True

/-- The options admit a host. -/
def Admits (o : Opts) (h : Host) : Prop :=
  LocalOk o.loc (LocalHost h) ∧
    match h with
    | .domain a => LabelsOk o.atl (LocalName a) (ManyLabels a)
    | _ => o.atl ≠ .disallow

end Verif.Spec.HostText
