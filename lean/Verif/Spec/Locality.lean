import Verif.Model.BaseN
import Verif.Model.Email
import Verif.Spec.Url

/-!
# Specification of C97: the hosts that validators return
-/

namespace Verif.Spec.Locality

open _root_.Verif.BaseN (strBytes)
open Verif.Spec.Domain Verif.StdIp
open Verif.Host (Host)

/-- One of the network validators, with this `local` option and any other options, returns this host for some string. The value of `domain` does
not say whether its text is an address, unless the options do; so these are the ones with `ipv4(Disallow)` and `ipv4(Must)`. -/
inductive Returns {U : Type} (idna : List UInt8 → Option (List UInt8)) (lib : Url.Lib U) (loc : TriAllow) : Host → Prop
  | ipv4 {port cs x p} : Ip.parseStr Ip.parseIpv4 loc port (strBytes cs) = .ok (x, p) → Returns idna lib loc (.ipv4 x)
  | ipv6 {port cs x p} : Ip.parseStr Ip.parseIpv6 loc port (strBytes cs) = .ok (x, p) → Returns idna lib loc (.ipv6 x)
  | ip4 {port cs x p} : Ip.parseStr Ip.parseIp loc port (strBytes cs) = .ok (.v4 x, p) → Returns idna lib loc (.ipv4 x)
  | ip6 {port cs x p} : Ip.parseStr Ip.parseIp loc port (strBytes cs) = .ok (.v6 x, p) → Returns idna lib loc (.ipv6 x)
  | domain {port atl cs v} : Domain.parseStr ⟨.disallow, loc, port, atl⟩ idna (strBytes cs) = .ok v → Returns idna lib loc (.domain v.domain)
  | domain4 {port atl cs v d x} : Domain.parseStr ⟨.must, loc, port, atl⟩ idna (strBytes cs) = .ok v → HostPort (strBytes cs) d v.port → QuadDot d x →
      Returns idna lib loc (.ipv4 x)
  | host {port atl cs v} : Host.parseStr ⟨loc, port, atl⟩ idna (strBytes cs) = .ok v → Returns idna lib loc v.host
  | email {o cs v} : o.loc = loc → Email.parseStr o idna (strBytes cs) = .ok v → Returns idna lib loc v.host
  | httpUrl {s u b h} : Url.parseHttpStr lib loc s = .ok (u, b) → lib.host u = some h → Returns idna lib loc h
  | httpFtpUrl {s u p h} : Url.parseHttpFtpStr lib loc s = .ok (u, p) → lib.host u = some h → Returns idna lib loc h

end Verif.Spec.Locality
