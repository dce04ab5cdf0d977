import Verif.Proof.EmailOrder
import Verif.Props.Email

/-!
# C84 for `email`

A string without a sound part up to the `@` goes through `left`, one with that part and no host through `noHost`, the others through
`host` (Spec/EmailOrder.lean). A panic (C40) comes in none of the lists; it needs a comment after 64 or more bytes, and overflow checks.
-/

namespace Verif.Props.EmailOrder

open Verif.Spec Verif.Spec.Domain Verif.Spec.Host Verif.Spec.Email Verif.Spec.Order Verif.Spec.EmailOrder Verif.Order Verif.Email Verif.EmailOrder
open BaseN (strBytes)
open Verif.Domain (Idna ldh)
open Verif.Host (Host)

/-- Helper: the value is built without further checks. -/
theorem parse_void (o : Opts) (idna : Idna) (cs : List Char) : (parse o idna (strBytes cs)).void = (parseStr o idna (strBytes cs)).void := by
  rw [← Email.C62_validate, validateStr]
  cases parse o idna (strBytes cs) <;> rfl

/-- C84, `email`: the part up to the `@` is faulty. -/
theorem C84_email_left (o : Opts) (idna : Idna) (cs : List Char) (hp : parseStr o idna (strBytes cs) ≠ .panic)
    (hn : ¬ ∃ saved d, UpToAt o (strBytes cs) saved d) : Decide (left o (strBytes cs)) (parseStr o idna (strBytes cs)) :=
  (decide_congr _ _ _ (parse_void o idna cs)).1
    (left_checks o idna _ ⟨cs, rfl⟩ (fun h => hp ((parseStr_panic o idna _ ⟨cs, rfl⟩).2 h)) hn)

/-- C84, `email`: the part up to the `@` is sound, and no host follows. -/
theorem C84_email_no_host (o : Opts) (idna : Idna) (cs : List Char) (saved : Nat) (d : List UInt8) (h : UpToAt o (strBytes cs) saved d)
    (hn : ¬ ∃ c3 h x tail, HostIn idna d c3 h x tail) : Decide (noHost o idna d) (parseStr o idna (strBytes cs)) := by
  obtain ⟨h1, h2, h3⟩ := parse_at o idna _ ⟨cs, rfl⟩ saved d h
  exact (decide_congr _ _ _ (h3.symm.trans (parse_void o idna cs))).1 (noHost_checks o idna d h1 h2 _ hn)

/-- C84, `email`: there is a host. -/
theorem C84_email_host (o : Opts) (idna : Idna) (cs : List Char) (saved : Nat) (d : List UInt8) (h : UpToAt o (strBytes cs) saved d)
    (c3 : Option (List UInt8)) (w : List UInt8) (x : Host) (tail : List UInt8) (hi : HostIn idna d c3 w x tail) :
    Decide (Verif.Spec.EmailOrder.host o saved d c3 w x tail) (parseStr o idna (strBytes cs)) := by
  obtain ⟨h1, h2, h3⟩ := parse_at o idna _ ⟨cs, rfl⟩ saved d h
  exact (decide_congr _ _ _ (h3.symm.trans (parse_void o idna cs))).1 (host_checks o idna d h1 h2 saved c3 w x tail hi)

/-- C84, `email`: validating makes the same checks. -/
theorem C84_email_validate (o : Opts) (idna : Idna) (cs : List Char) (l : List (Prop × EmailError)) :
    Decide l (parseStr o idna (strBytes cs)) ↔ Decide l (validateStr o idna (strBytes cs)) := by
  refine decide_congr _ _ _ ?_
  rw [Email.C62_validate]
  cases parseStr o idna (strBytes cs) <;> rfl

/-! ### The hypotheses are met -/

/-- Nothing is allowed. -/
def strict : Opts := ⟨.disallow, .disallow, .disallow, .disallow, .disallow, true⟩

/-- A comment comes before the faulty local part, and a faulty local part before the comment that follows it. -/
example : parseStr strict ldh (ascii "(c)a..b(c)@") = .err .commentDisallow ∧ parseStr strict ldh (ascii "a..b(c)@") = .err .invalid ∧
    parseStr strict ldh (ascii "a.b(c)@") = .err .commentDisallow ∧ parseStr strict ldh (ascii "a.b@") = .err .invalid := by decide +kernel

example : ¬ ∃ saved d, UpToAt strict (ascii "(c)a..b(c)") saved d := by
  rintro ⟨n, d, c1, q, t, c2, h, -⟩
  have : asc '@' ∈ ascii "(c)a..b(c)" := by rw [h]; simp [ascii, asc]
  exact absurd this (by decide)

/-- The quotation marks are needed. -/
theorem upToAt (d : List UInt8) (hd : d ≠ []) (hl : d.length ≤ 300) : UpToAt Email.free (ascii "\"a b\"@" ++ d) 2 d := by
  refine ⟨none, true, ascii "a b", none, by simp [comment, quote, ascii, asc], ?_, hd, ?_, ⟨by simp [Closed], fun k => absurd rfl k⟩, .inl ⟨rfl, ?_, rfl⟩⟩
  · simp [ascii]; omega
  · refine ⟨by simp [Closed], fun k => absurd rfl k, fun c k => absurd k (by simp), fun k => absurd k (by simp), fun _ => ⟨⟨by decide, ?_, by unfold Escape; decide⟩, ?_, by decide⟩⟩
    · intro pre b post k
      have hb : b ∈ ascii "a b" := by rw [k]; simp
      have : ∀ b ∈ ascii "a b", b ∈ atext ∨ b ∈ ascii ".\\ \t" := by decide +kernel
      rcases this b hb with h | h
      · exact .inl h
      · exact .inr (.inl h)
    · intro i b hi k
      have : i = 62 := by simp [comment] at k; omega
      subst this
      exact absurd hi (by simp [ascii])
  · rintro ⟨-, -, h, -⟩
    rcases h (asc ' ') (by decide) with h | h | ⟨-, h⟩
    · exact absurd h (by decide)
    · exact absurd h (by decide)
    · exact absurd h (by decide)

example : UpToAt Email.free (ascii "\"a b\"@(c") 2 (ascii "(c") ∧ (¬ ∃ c3 h x tail, HostIn ldh (ascii "(c") c3 h x tail) ∧
    parseStr { Email.free with comment := .disallow } ldh (ascii "\"a b\"@(c") = .err .commentDisallow ∧
    parseStr Email.free ldh (ascii "\"a b\"@(c") = .err .invalid := by
  refine ⟨upToAt _ (by decide) (by decide), ?_, by decide +kernel⟩
  rintro ⟨c3, h, x, tail, k1, -, k2, -⟩
  cases c3 with
  | some c =>
    have : asc ')' ∈ ascii "(c" := by rw [k1]; simp [comment, ascii, asc]
    exact absurd this (by decide)
  | none =>
    have hh := host_nonempty ldh h x k2
    cases h with
    | nil => exact hh.1 rfl
    | cons b h => exact hh.2 (congrArg List.head? k1).symm

/-- With everything wrong on the right: the comment, then the address, then the locality, then what follows the host. -/
example : UpToAt Email.free (ascii "\"a b\"@(c)[127.0.0.1]junk") 2 (ascii "(c)[127.0.0.1]junk") ∧
    HostIn ldh (ascii "(c)[127.0.0.1]junk") (some (ascii "c")) (ascii "[127.0.0.1]") (.ipv4 ⟨127, 0, 0, 1⟩) (ascii "junk") ∧
    parseStr strict ldh (ascii "\"a b\"@(c)[127.0.0.1]junk") = .err .commentDisallow ∧
    parseStr { strict with comment := .allow } ldh (ascii "\"a b\"@(c)[127.0.0.1]junk") = .err .ipDisallow ∧
    parseStr { strict with comment := .allow, ip := .allow } ldh (ascii "\"a b\"@(c)[127.0.0.1]junk") = .err .atLeastTwoLabelsDisallow ∧
    parseStr { Email.free with loc := .disallow } ldh (ascii "\"a b\"@(c)[127.0.0.1]junk") = .err .localDisallow ∧
    parseStr Email.free ldh (ascii "\"a b\"@(c)[127.0.0.1]junk") = .err .invalid := by
  refine ⟨upToAt _ (by decide) (by decide), ⟨by decide, ?_, ?_, ?_⟩, by decide +kernel⟩
  · intro c k
    cases k
    decide
  · have := HostText.ipv4 (idna := ldh) (x := ⟨127, 0, 0, 1⟩)
    rwa [show ascii "[" ++ (⟨127, 0, 0, 1⟩ : StdIp.V4).text ++ ascii "]" = ascii "[127.0.0.1]" by decide +kernel] at this
  · rintro ⟨a, k⟩
    cases k

end Verif.Props.EmailOrder
