import Verif.Spec.Host
import Verif.Model.Url

/-!
# Specification of the URL validators
-/

namespace Verif.Spec.Url

open Verif.Spec Verif.Spec.Ip Verif.Spec.Domain Verif.Spec.Host Verif.Host Verif.Url

/-- `s` begins with the scheme and a colon, in any mixture of cases. -/
def HasScheme (scheme s : List UInt8) : Prop := ∃ a rest, s = a ++ asc ':' :: rest ∧ a.map lowered = scheme

/-- The text of each protocol. -/
def schemeOf : Protocol → List UInt8
  | .http => ascii "http"
  | .https => ascii "https"
  | .ftp => ascii "ftp"

/-- The part of the URL standard the handlers rely on: a URL of one of the three schemes has a host. -/
def HostsPresent {U : Type} (lib : Lib U) : Prop :=
  ∀ p s u, HasScheme (schemeOf p) s → lib.parse s = some u → ∃ h, lib.host u = some h

/-- The URL's host is local. -/
def LocalUrl {U : Type} (lib : Lib U) (u : U) : Prop := ∃ h, lib.host u = some h ∧ LocalHost h

end Verif.Spec.Url
