import Verif.Spec.Host
import Verif.Spec.Domain

/-!
# Specification of the parts of a URL (RFC 3986, §3.2 and appendix B)
-/

namespace Verif.Spec.Uri

open Verif.Spec.Ip Verif.Spec.Domain Verif.StdIp

/-- The parts of a URL with an authority; `rest` is the path, the query and the fragment. -/
structure Parts where
  scheme : List UInt8
  userinfo : Option (List UInt8)
  host : List UInt8
  port : Option (List UInt8)
  rest : List UInt8
deriving DecidableEq

/-- A text up to the first of these characters, and from there on. -/
def cut (stops : List UInt8) (s : List UInt8) : List UInt8 × List UInt8 :=
  (s.takeWhile fun b => !stops.contains b, s.dropWhile fun b => !stops.contains b)

/-- The user information of an authority, which ends with `@`, and what follows. -/
def userinfo (a : List UInt8) : Option (List UInt8) × List UInt8 :=
  match cut (ascii "@") a with
  | (u, _ :: r) => (some u, r)
  | (u, []) => (none, u)

/-- The host and the port: an address in brackets ends with its bracket, another host with the first `:`. -/
def hostPort (a : List UInt8) : List UInt8 × Option (List UInt8) :=
  let (h, r) :=
    if a.head? = some (asc '[') then
      let (h, r) := cut (ascii "]") a
      (h ++ r.take 1, r.drop 1)
    else cut (ascii ":") a
  match r with
  | _ :: p => (h, some p)
  | [] => (h, none)

/-- Read a URL: the scheme ends with `://`, the authority with the first `/`, `?` or `#`. -/
def read (u : List UInt8) : Option Parts :=
  let (s, r) := cut (ascii ":/?#") u
  if s ≠ [] ∧ r.take 3 = ascii "://" then
    let (a, rest) := cut (ascii "/?#") (r.drop 3)
    let (user, hp) := userinfo a
    let (h, p) := hostPort hp
    some ⟨s, user, h, p, rest⟩
  else none

/-- Put into any URL, `a` is read as this host and this port, without user information, and the other parts stay what they are. -/
def Stays (a host : List UInt8) (port : Option Nat) : Prop :=
  ∀ scheme rest, scheme ≠ [] → (∀ b ∈ scheme, b ∉ ascii ":/?#") → (rest = [] ∨ ∃ b t, rest = b :: t ∧ b ∈ ascii "/?#") →
    read (scheme ++ ascii "://" ++ a ++ rest) = some ⟨scheme, none, host, port.map dec, rest⟩

/-- A registered name: letters, digits and `-`, `.`, `_`, `~`, with no need of percent-encoding. -/
def RegName (h : List UInt8) : Prop :=
  h ≠ [] ∧ ∀ b ∈ h, b ∈ ascii "abcdefghijklmnopqrstuvwxyzABCDEFGHIJKLMNOPQRSTUVWXYZ0123456789-._~"

/-- The host of a URL for an address: IPv4 as a dotted quad, IPv6 in brackets. -/
def IsV4Host (h : List UInt8) (x : V4) : Prop := h = x.text
def IsV6Host (h : List UInt8) (x : V6) : Prop := ∃ t, h = ascii "[" ++ t ++ ascii "]" ∧ V6Text t x.segs

/-- The host of a URL for a `Host`. -/
def HostText : Verif.Host.Host → List UInt8 → Prop
  | .ipv4 x, h => IsV4Host h x
  | .ipv6 x, h => IsV6Host h x
  | .domain a, h => h = a ∧ RegName h

/-- The reader at work. -/
example : read (ascii "http://u:p@[::1]:80/a:b@c?d#e") =
      some ⟨ascii "http", some (ascii "u:p"), ascii "[::1]", some (ascii "80"), ascii "/a:b@c?d#e"⟩ ∧
    read (ascii "http://a.b") = some ⟨ascii "http", none, ascii "a.b", none, []⟩ ∧
    read (ascii "//a.b/") = none := by
  decide +kernel

end Verif.Spec.Uri
