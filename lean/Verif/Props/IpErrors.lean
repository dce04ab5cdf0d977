import Verif.Proof.IpErrors
import Verif.Props.Ip

/-!
# Which error the IP validators give, exactly

For every option and every text: the condition under which `parse_str` returns each of the five errors. Together with
`C28_parse`, `C29_parse` and `C30_parse` these leave no outcome open.
-/

namespace Verif.Props.IpErrors

open Verif.StdIp Verif.Ip Verif.Spec.Ip Verif.Spec Verif.Props.Ip
open BaseN (strBytes)

/-- Helper: a parser with a local option that checks it last. -/
theorem from_port {α : Type} (P : TriAllow → TriAllow → List UInt8 → Out IpError (Parsed α)) (f : α → Bool) (loc port : TriAllow)
    (s : List UInt8) (L : α → Prop) (hL : ∀ a, f a = true ↔ L a) (I : α → Option Nat → Prop) (A B : Prop)
    (fac : P loc port s = (P .allow port s).bind (recheck loc f)) (np : P .allow port s ≠ .panic)
    (hok : ∀ x p, (∃ l, P .allow port s = .ok (x, p, l)) ↔ I x p ∧ PortOk port p)
    (hA : P .allow port s = .err .portMust ↔ A) (hB : P .allow port s = .err .portDisallow ↔ B)
    (h1 : P .allow port s ≠ .err .localMust) (h2 : P .allow port s ≠ .err .localDisallow) :
    (parseStr P loc port s = .err .portMust ↔ A) ∧ (parseStr P loc port s = .err .portDisallow ↔ B) ∧
    (parseStr P loc port s = .err .localMust ↔ loc = .must ∧ ∃ x p, I x p ∧ PortOk port p ∧ ¬ L x) ∧
    (parseStr P loc port s = .err .localDisallow ↔ loc = .disallow ∧ ∃ x p, I x p ∧ PortOk port p ∧ L x) ∧
    (parseStr P loc port s = .err .invalid ↔ ¬ A ∧ ¬ B ∧ ¬ ∃ x p, I x p ∧ PortOk port p) := by
  obtain ⟨e1, e2, e3⟩ := fac_err loc f (P .allow port s) ⟨h1, h2⟩
  simp only [parseStr_err, fac]
  refine ⟨by rw [e3 .portMust nofun nofun, hA], by rw [e3 .portDisallow nofun nofun, hB], ?_, ?_, ?_⟩
  · rw [e1]
    refine and_congr_right fun _ => exists_congr fun x => exists_congr fun p => ?_
    rw [← and_assoc, ← hok, ← hL, exists_and_right, Bool.not_eq_true]
  · rw [e2]
    refine and_congr_right fun _ => exists_congr fun x => exists_congr fun p => ?_
    rw [← and_assoc, ← hok, ← hL, exists_and_right]
  · rw [e3 .invalid nofun nofun, ← hA, ← hB]
    simp only [← hok]
    cases hr : P .allow port s with
    | ok v => obtain ⟨x, p, l⟩ := v; simp
    | err e => cases e <;> simp_all
    | panic => exact absurd hr np

/-- C28, the errors: which one an `ipv4` validator gives, for every text and all options. The port is looked at first, then
the text, then the locality. -/
theorem C28_errors (loc port : TriAllow) (cs : List Char) :
    (parseStr parseIpv4 loc port (strBytes cs) = .err .portMust ↔
      port = .must ∧ strBytes cs ≠ [] ∧ asc ':' ∉ strBytes cs) ∧
    (parseStr parseIpv4 loc port (strBytes cs) = .err .portDisallow ↔ port = .disallow ∧ asc ':' ∈ strBytes cs) ∧
    (parseStr parseIpv4 loc port (strBytes cs) = .err .localMust ↔
      loc = .must ∧ ∃ x p, V4Input (strBytes cs) x p ∧ PortOk port p ∧ ¬ Local4 x.number) ∧
    (parseStr parseIpv4 loc port (strBytes cs) = .err .localDisallow ↔
      loc = .disallow ∧ ∃ x p, V4Input (strBytes cs) x p ∧ PortOk port p ∧ Local4 x.number) ∧
    (parseStr parseIpv4 loc port (strBytes cs) = .err .invalid ↔
      ¬ (port = .must ∧ strBytes cs ≠ [] ∧ asc ':' ∉ strBytes cs) ∧ ¬ (port = .disallow ∧ asc ':' ∈ strBytes cs) ∧
      ¬ ∃ x p, V4Input (strBytes cs) x p ∧ PortOk port p) := by
  have hs : Str (strBytes cs) := ⟨cs, rfl⟩
  have c39 := fun e he => C39_ipv4 .allow port cs e ((parseStr_err _ _ _ _ e).2 he)
  refine from_port parseIpv4 isLocalV4 loc port (strBytes cs) (fun x => Local4 x.number) isLocalV4_iff
    (V4Input (strBytes cs)) _ _ (parseIpv4_fac loc port _) (parseIpv4_panic .allow port _ hs) ?_ ?_ ?_
    (fun h => nomatch ((c39 _ h).2.2.1 rfl).1) (fun h => nomatch ((c39 _ h).2.2.2 rfl).1)
  · intro x p
    simp [parseIpv4_ok .allow port _ hs, LocalOk]
  · unfold parseIpv4
    split
    · rename_i h; simp [h]
    · rename_i h; rw [(v4Part_port port _ hs).1]; simp [h]
  · unfold parseIpv4
    split
    · rename_i h; simp [h]
    · exact (v4Part_port port _ hs).2

/-- C29, the errors of an `ipv6` validator: with `port(Must)` a text in brackets or the text of an address has no port, with
`port(Disallow)` whatever begins with `[` and does not end with `]` has one. -/
theorem C29_errors (loc port : TriAllow) (cs : List Char) :
    (parseStr parseIpv6 loc port (strBytes cs) = .err .portMust ↔
      port = .must ∧ ((strBytes cs).head? = some (asc '[') ∧ (strBytes cs).getLast? = some (asc ']') ∨
        ∃ x : V6, V6Text (strBytes cs) x.segs)) ∧
    (parseStr parseIpv6 loc port (strBytes cs) = .err .portDisallow ↔
      port = .disallow ∧ (strBytes cs).head? = some (asc '[') ∧ (strBytes cs).getLast? ≠ some (asc ']')) ∧
    (parseStr parseIpv6 loc port (strBytes cs) = .err .localMust ↔
      loc = .must ∧ ∃ x p, V6Input (strBytes cs) x p ∧ PortOk port p ∧ ¬ Local6 x.number) ∧
    (parseStr parseIpv6 loc port (strBytes cs) = .err .localDisallow ↔
      loc = .disallow ∧ ∃ x p, V6Input (strBytes cs) x p ∧ PortOk port p ∧ Local6 x.number) ∧
    (parseStr parseIpv6 loc port (strBytes cs) = .err .invalid ↔
      ¬ (port = .must ∧ ((strBytes cs).head? = some (asc '[') ∧ (strBytes cs).getLast? = some (asc ']') ∨
        ∃ x : V6, V6Text (strBytes cs) x.segs)) ∧
      ¬ (port = .disallow ∧ (strBytes cs).head? = some (asc '[') ∧ (strBytes cs).getLast? ≠ some (asc ']')) ∧
      ¬ ∃ x p, V6Input (strBytes cs) x p ∧ PortOk port p) := by
  have hs : Str (strBytes cs) := ⟨cs, rfl⟩
  have c39 := fun e he => C39_ipv6 .allow port cs e ((parseStr_err _ _ _ _ e).2 he)
  refine from_port parseIpv6 isLocalV6 loc port (strBytes cs) (fun x => Local6 x.number) isLocalV6_iff
    (V6Input (strBytes cs)) _ _ (parseIpv6_fac loc port _) (parseIpv6_panic .allow port _ hs) ?_
    (parseIpv6_port port _ hs).1 (parseIpv6_port port _ hs).2
    (fun h => nomatch ((c39 _ h).2.2.1 rfl).1) (fun h => nomatch ((c39 _ h).2.2.2 rfl).1)
  intro x p
  simp [parseIpv6_ok .allow port _ hs, LocalOk]

/-- C30, the errors of an `ip` validator: those of `ipv6` for a text that begins with `[` or is the text of an IPv6 address,
those of `ipv4` for the others. -/
theorem C30_errors (loc port : TriAllow) (cs : List Char) :
    (parseStr parseIp loc port (strBytes cs) = .err .portMust ↔
      port = .must ∧ ((strBytes cs).head? = some (asc '[') ∧ (strBytes cs).getLast? = some (asc ']') ∨
        (∃ x : V6, V6Text (strBytes cs) x.segs) ∨
        strBytes cs ≠ [] ∧ (strBytes cs).head? ≠ some (asc '[') ∧ asc ':' ∉ strBytes cs)) ∧
    (parseStr parseIp loc port (strBytes cs) = .err .portDisallow ↔
      port = .disallow ∧ ((strBytes cs).head? = some (asc '[') ∧ (strBytes cs).getLast? ≠ some (asc ']') ∨
        (strBytes cs).head? ≠ some (asc '[') ∧ (¬ ∃ x : V6, V6Text (strBytes cs) x.segs) ∧ asc ':' ∈ strBytes cs)) ∧
    (parseStr parseIp loc port (strBytes cs) = .err .localMust ↔
      loc = .must ∧ ∃ x p, IpInput (strBytes cs) x p ∧ PortOk port p ∧ ¬ LocalIp x) ∧
    (parseStr parseIp loc port (strBytes cs) = .err .localDisallow ↔
      loc = .disallow ∧ ∃ x p, IpInput (strBytes cs) x p ∧ PortOk port p ∧ LocalIp x) ∧
    (parseStr parseIp loc port (strBytes cs) = .err .invalid ↔
      ¬ (port = .must ∧ ((strBytes cs).head? = some (asc '[') ∧ (strBytes cs).getLast? = some (asc ']') ∨
        (∃ x : V6, V6Text (strBytes cs) x.segs) ∨
        strBytes cs ≠ [] ∧ (strBytes cs).head? ≠ some (asc '[') ∧ asc ':' ∉ strBytes cs)) ∧
      ¬ (port = .disallow ∧ ((strBytes cs).head? = some (asc '[') ∧ (strBytes cs).getLast? ≠ some (asc ']') ∨
        (strBytes cs).head? ≠ some (asc '[') ∧ (¬ ∃ x : V6, V6Text (strBytes cs) x.segs) ∧ asc ':' ∈ strBytes cs)) ∧
      ¬ ∃ x p, IpInput (strBytes cs) x p ∧ PortOk port p) := by
  have hs : Str (strBytes cs) := ⟨cs, rfl⟩
  have c39 := fun e he => C39_ip .allow port cs e ((parseStr_err _ _ _ _ e).2 he)
  refine from_port parseIp isLocalIp loc port (strBytes cs) LocalIp C27_ip
    (IpInput (strBytes cs)) _ _ (parseIp_fac loc port _) (parseIp_panic .allow port _ hs) ?_
    (parseIp_port_err port _ hs).1 (parseIp_port_err port _ hs).2
    (fun h => nomatch ((c39 _ h).2.2.1 rfl).1) (fun h => nomatch ((c39 _ h).2.2.2 rfl).1)
  intro x p
  have := C30_parse .allow port cs x p
  rw [parseStr_ok _ _ _ _ (fun x p l h => parseIp_port _ _ _ hs _ _ _ h)] at this
  rw [this]
  simp [LocalOk]

/-- Every error occurs. With `port(Disallow)` the port is reported before the address is looked at; with `port(Must)` a text
that is no address at all lacks a port. -/
example : parseStr parseIpv4 .allow .disallow (ascii "no:address") = .err .portDisallow ∧
    parseStr parseIpv4 .allow .must (ascii "no address") = .err .portMust ∧
    parseStr parseIpv4 .must .allow (ascii "8.8.8.8:53") = .err .localMust ∧
    parseStr parseIpv4 .disallow .allow (ascii "127.0.0.1") = .err .localDisallow ∧
    parseStr parseIpv4 .must .allow (ascii "8.8.8.8:70000") = .err .invalid := by decide +kernel
example : parseStr parseIpv6 .allow .disallow (ascii "[") = .err .portDisallow ∧
    parseStr parseIpv6 .allow .must (ascii "[]") = .err .portMust ∧
    parseStr parseIpv6 .must .allow (ascii "[2606:4700::1]:80") = .err .localMust ∧
    parseStr parseIpv6 .disallow .allow (ascii "::1") = .err .localDisallow ∧
    parseStr parseIpv6 .allow .must (ascii "no address") = .err .invalid := by decide +kernel
example : parseStr parseIp .allow .disallow (ascii "1:2:3") = .err .portDisallow ∧
    parseStr parseIp .allow .must (ascii "no address") = .err .portMust ∧
    parseStr parseIp .must .allow (ascii "8.8.8.8") = .err .localMust ∧
    parseStr parseIp .disallow .disallow (ascii "[fe80::1]") = .err .localDisallow ∧
    parseStr parseIp .allow .allow (ascii "1:2:3") = .err .invalid := by decide +kernel

end Verif.Props.IpErrors
