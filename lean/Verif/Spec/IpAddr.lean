import Verif.Spec.Ip
import Verif.Model.Ip

/-!
# Specification of the IP validators

Addresses of the model as numbers, the inputs that name an address and a port, and locality. Of the model only the data
types are used.
-/

namespace Verif.StdIp

open Verif.Spec.Ip

/-- The octets, the number and the text of an IPv4 address. -/
def V4.octets (x : V4) : List Nat := [x.a.toNat, x.b.toNat, x.c.toNat, x.d.toNat]
def V4.number (x : V4) : Nat := numberOf 256 x.octets
def V4.text (x : V4) : List UInt8 := dotted x.a.toNat x.b.toNat x.c.toNat x.d.toNat

/-- The segments and the number of an IPv6 address. -/
def V6.segs (x : V6) : List Nat :=
  [x.s0.toNat, x.s1.toNat, x.s2.toNat, x.s3.toNat, x.s4.toNat, x.s5.toNat, x.s6.toNat, x.s7.toNat]
def V6.number (x : V6) : Nat := numberOf 65536 x.segs

end Verif.StdIp

namespace Verif.Spec.Ip

open Verif.StdIp Verif.Ip

/-- `s` names the IPv4 address `x` and the port `p`: a dotted quad, possibly followed by `:` and a port. -/
def V4Input (s : List UInt8) (x : V4) : Option Nat → Prop
  | none => s = x.text
  | some n => ∃ u, s = x.text ++ ascii ":" ++ u ∧ PortText u n

/-- `s` names the IPv6 address `x` and the port `p`: a text of the address, bare or in brackets, or in brackets followed by
`:` and a port. -/
def V6Input (s : List UInt8) (x : V6) : Option Nat → Prop
  | none => V6Text s x.segs ∨ ∃ t, s = ascii "[" ++ t ++ ascii "]" ∧ V6Text t x.segs
  | some n => ∃ t u, s = ascii "[" ++ t ++ ascii "]:" ++ u ∧ V6Text t x.segs ∧ PortText u n

/-- `s` names the address `x` and the port `p`. -/
def IpInput (s : List UInt8) : IpAddr → Option Nat → Prop
  | .v4 x, p => V4Input s x p
  | .v6 x, p => V6Input s x p

/-- Local addresses. -/
def LocalIp : IpAddr → Prop
  | .v4 x => Local4 x.number
  | .v6 x => Local6 x.number

end Verif.Spec.Ip
