import Verif.Spec.IpAddr
import Verif.Model.Domain

/-!
# Specification of domain names and of the `domain` and `host` validators
-/

namespace Verif.Spec.Domain

open Verif.Spec Verif.Spec.Ip Verif.StdIp

/-- `b` is `a` without one final dot, if there is one. -/
def Stem (a b : List UInt8) : Prop := a = b ++ ascii "." ∨ a = b ∧ ¬ ∃ c, a = c ++ ascii "."

/-- An ASCII capital letter in lower case, any other byte unchanged. -/
def lowered (b : UInt8) : UInt8 := if 65 ≤ b.toNat ∧ b.toNat ≤ 90 then UInt8.ofNat (b.toNat + 32) else b

/-- `localhost` in any case, possibly with a final dot. -/
def LocalName (a : List UInt8) : Prop := ∃ b, Stem a b ∧ b.map lowered = ascii "localhost"

/-- Two or more labels: not counting a final dot there is a dot. -/
def ManyLabels (a : List UInt8) : Prop := ∃ l r, Stem a (l ++ ascii "." ++ r)

/-- `s` consists of the text `d` and the port `p`: what precedes and what follows the last `:`. -/
def HostPort (s d : List UInt8) : Option Nat → Prop
  | none => s = d ∧ asc ':' ∉ s
  | some n => ∃ u, s = d ++ ascii ":" ++ u ∧ PortText u n

/-- `d` is the dotted quad of the address `x`, possibly with a final dot. -/
def QuadDot (d : List UInt8) (x : V4) : Prop := d = x.text ∨ d = x.text ++ ascii "."

/-- What the label option asks of a name. Local names are exempt. -/
def LabelsOk : TriAllow → (isLocal many : Prop) → Prop
  | .allow, _, _ => True
  | .must, l, m => l ∨ m
  | .disallow, l, m => l ∨ ¬ m

/-- A field that exists when `shown`, and then tells whether `p` holds. -/
def Tells (shown : Prop) (f : Option Bool) (p : Prop) : Prop := (shown → ∃ b, f = some b ∧ (b = true ↔ p)) ∧ (¬ shown → f = none)

/-- No option restricts the domain. -/
def Plain (o : Verif.Domain.Opts) : Prop := o.ipv4 = .allow ∧ o.loc = .allow ∧ o.atl = .allow

/-- What the fields of a value tell: `is_ipv4` and `is_local` exist under some options only. -/
def Fields (o : Verif.Domain.Opts) (v : Verif.Domain.Value) (isIpv4 isLocal : Prop) : Prop :=
  Tells (o.ipv4 = .allow ∧ o.loc = .allow ∧ o.atl ≠ .allow) v.isIpv4 isIpv4 ∧ Tells (o.loc = .allow ∧ o.atl ≠ .allow) v.isLocal isLocal

/-- `s` is accepted as the IPv4 address `x` with host text `d`: the stored domain is the host text if there is no port. -/
def AsIpv4 (o : Verif.Domain.Opts) (d : List UInt8) (x : V4) (v : Verif.Domain.Value) : Prop :=
  ¬ Plain o ∧ QuadDot d x ∧ o.ipv4 ≠ .disallow ∧ o.atl ≠ .disallow ∧ LocalOk o.loc (Local4 x.number) ∧ Fields o v True (Local4 x.number)

/-- A host text `d` is accepted as a name that IDNA converts to the stored domain. -/
def AsName (o : Verif.Domain.Opts) (idna : List UInt8 → Option (List UInt8)) (d : List UInt8) (v : Verif.Domain.Value) : Prop :=
  (Plain o ∨ ∀ x, ¬ QuadDot d x) ∧ o.ipv4 ≠ .must ∧ idna d = some v.domain ∧ LabelsOk o.atl (LocalName v.domain) (ManyLabels v.domain) ∧
    LocalOk o.loc (LocalName v.domain) ∧ Fields o v False (LocalName v.domain)

/-- What is assumed of the IDNA conversion where a theorem says so. With the STD3 rules the result has only lower-case
letters, digits, hyphens and dots; converting again changes nothing; with the DNS length check labels are not empty and a
final dot can be dropped. -/
structure IdnaLaws (idna : List UInt8 → Option (List UInt8)) : Prop where
  symbols : ∀ s a, idna s = some a → ∀ b ∈ a, b ∈ ascii "abcdefghijklmnopqrstuvwxyz0123456789-."
  again : ∀ s a, idna s = some a → idna a = some a
  nonempty : ∀ s a, idna s = some a → a ≠ []
  root : ∀ s a, idna s = some (a ++ ascii ".") → idna a = some a ∧ ¬ ∃ c, a = c ++ ascii "."

end Verif.Spec.Domain
