import Verif.Proof.IpValid

/-!
# Properties of the IP validators

Inputs are `strBytes cs`: the bytes of the string with the characters `cs`.
-/

namespace Verif.Props.Ip

open Verif.StdIp Verif.Ip Verif.Spec.Ip Verif.Spec
open BaseN (strBytes)

/-- The outcome of `validate_str` that goes with an outcome of `parse_str`. -/
def agrees {α : Type} (parsed : Out IpError α) (validated : Out IpError Unit) : Prop := validated = parsed.void

/-- C26: `is_local_ipv4` is membership of the listed blocks. -/
theorem C26_ipv4_blocks (x : V4) : isLocalV4 x = true ↔ Local4 x.number := isLocalV4_iff x

/-- Both answers occur; the edges of a block whose length is not a multiple of eight. -/
example : isLocalV4 ⟨172, 31, 255, 255⟩ = true ∧ isLocalV4 ⟨172, 32, 0, 0⟩ = false ∧ isLocalV4 ⟨172, 15, 255, 255⟩ = false := by decide
example : Local4 (V4.number ⟨172, 31, 255, 255⟩) ∧ ¬ Local4 (V4.number ⟨8, 8, 8, 8⟩) := by decide

/-- C27: `is_local_ipv6` is membership of the listed blocks. -/
theorem C27_ipv6_blocks (x : V6) : isLocalV6 x = true ↔ Local6 x.number := isLocalV6_iff x

/-- C27, mapped addresses: `::ffff:a.b.c.d` is local exactly when `a.b.c.d` is, and `is_local_ip` agrees with both. -/
theorem C27_mapped (x : V6) (y : V4) (h : x.number = 0xffff * 2 ^ 32 + y.number) : isLocalV6 x = isLocalV4 y := by
  have hy : y.number < 2 ^ 32 := by
    rw [V4.number_eq]
    have ha := y.a.toNat_lt
    have hb := y.b.toNat_lt
    have hc := y.c.toNat_lt
    have hd := y.d.toNat_lt
    omega
  rw [Bool.eq_iff_iff, isLocalV6_iff, isLocalV4_iff, h]
  have e1 : (0xffff * 2 ^ 32 + y.number) / 2 ^ 32 = 0xffff := by omega
  have e2 : (0xffff * 2 ^ 32 + y.number) % 2 ^ 32 = y.number := by omega
  have e3 : ∀ k, 48 ≤ k → (0xffff * 2 ^ 32 + y.number) / 2 ^ k = 0 := by
    intro k hk
    apply Nat.div_eq_of_lt
    have : 2 ^ 48 ≤ 2 ^ k := Nat.pow_le_pow_right (by omega) hk
    omega
  constructor
  · rintro (h | h | h | h | h | h | h | h | h)
    · have := h.1; unfold InBlock at this; rw [e3 _ (by decide)] at this; exact absurd this (by decide)
    · omega
    · omega
    · unfold InBlock at h; rw [e3 _ (by decide)] at h; exact absurd h (by decide)
    · unfold InBlock at h; rw [e3 _ (by decide)] at h; exact absurd h (by decide)
    · unfold InBlock at h; rw [e3 _ (by decide)] at h; exact absurd h (by decide)
    · unfold InBlock at h; rw [e3 _ (by decide)] at h; exact absurd h (by decide)
    · rw [e2] at h; exact h.2
    · rw [e2] at h; exact h.2
  · intro h
    simp [Local6, e1, e2, h]

theorem C27_ip (x : IpAddr) : isLocalIp x = true ↔ LocalIp x := by
  cases x with
  | v4 x => exact isLocalV4_iff x
  | v6 x => exact isLocalV6_iff x

example : isLocalV6 ⟨0xff02, 0, 0, 0, 0, 0, 0, 1⟩ = true ∧ isLocalV6 ⟨0xff0e, 0, 0, 0, 0, 0, 0, 1⟩ = false ∧
    isLocalV6 ⟨0x2606, 0x4700, 0, 0, 0, 0, 0, 1⟩ = false := by decide
example : (⟨0, 0, 0, 0, 0, 0xffff, 0x0a00, 1⟩ : V6).number = 0xffff * 2 ^ 32 + (⟨10, 0, 0, 1⟩ : V4).number := by decide

theorem localOk_congr (loc : TriAllow) (p q : Prop) (h : p ↔ q) : LocalOk loc p ↔ LocalOk loc q := by rw [propext h]

/-! ## Outcomes -/

/-- C28: `parse_str` of an `ipv4` validator accepts exactly the texts of an address with an optional port that the options
allow, and returns that address and port. -/
theorem C28_parse (loc port : TriAllow) (cs : List Char) (x : V4) (p : Option Nat) :
    parseStr parseIpv4 loc port (strBytes cs) = .ok (x, p) ↔
      V4Input (strBytes cs) x p ∧ PortOk port p ∧ LocalOk loc (Local4 x.number) := by
  have hs : Str (strBytes cs) := ⟨cs, rfl⟩
  rw [parseStr_ok _ _ _ _ (fun x p l h => ((parseIpv4_ok _ _ _ hs _ _ _).1 h).2.1), ← localOk_congr loc _ _ (isLocalV4_iff x)]
  simp only [parseIpv4_ok loc port _ hs]
  simp

/-- `validate_str` gives the same outcome without the value. -/
theorem C28_validate (loc port : TriAllow) (cs : List Char) :
    agrees (parseStr parseIpv4 loc port (strBytes cs)) (validateStr parseIpv4 loc port (strBytes cs)) := by
  have hs : Str (strBytes cs) := ⟨cs, rfl⟩
  have hnp := parseStr_panic parseIpv4 loc port _ (fun x p l h => ((parseIpv4_ok _ _ _ hs _ _ _).1 h).2.1) (parseIpv4_panic loc port _ hs)
  revert hnp
  unfold agrees validateStr parseStr
  cases hr : parseIpv4 loc port (strBytes cs) with
  | ok v => obtain ⟨x, p, l⟩ := v; cases port <;> cases p <;> simp [create, Out.void]
  | err e => simp [Out.void]
  | panic => simp

example : parseStr parseIpv4 .disallow .must (ascii "8.8.4.4:053") = .ok (⟨8, 8, 4, 4⟩, some 53) ∧
    parseStr parseIpv4 .allow .allow (ascii "8.8.4.04") = .err .invalid ∧
    parseStr parseIpv4 .allow .allow (ascii "8.8.4.256") = .err .invalid := by decide +kernel

/-- C29: the same for an `ipv6` validator. -/
theorem C29_parse (loc port : TriAllow) (cs : List Char) (x : V6) (p : Option Nat) :
    parseStr parseIpv6 loc port (strBytes cs) = .ok (x, p) ↔
      V6Input (strBytes cs) x p ∧ PortOk port p ∧ LocalOk loc (Local6 x.number) := by
  have hs : Str (strBytes cs) := ⟨cs, rfl⟩
  rw [parseStr_ok _ _ _ _ (fun x p l h => ((parseIpv6_ok _ _ _ hs _ _ _).1 h).2.1), ← localOk_congr loc _ _ (isLocalV6_iff x)]
  simp only [parseIpv6_ok loc port _ hs]
  simp

theorem C29_validate (loc port : TriAllow) (cs : List Char) :
    agrees (parseStr parseIpv6 loc port (strBytes cs)) (validateStr parseIpv6 loc port (strBytes cs)) := by
  have hs : Str (strBytes cs) := ⟨cs, rfl⟩
  have hnp := parseStr_panic parseIpv6 loc port _ (fun x p l h => ((parseIpv6_ok _ _ _ hs _ _ _).1 h).2.1) (parseIpv6_panic loc port _ hs)
  revert hnp
  unfold agrees validateStr parseStr
  cases hr : parseIpv6 loc port (strBytes cs) with
  | ok v => obtain ⟨x, p, l⟩ := v; cases port <;> cases p <;> simp [create, Out.void]
  | err e => simp [Out.void]
  | panic => simp

example : parseStr parseIpv6 .allow .allow (ascii "[2001:DB8::8:800:200c:417a]:80") =
      .ok (⟨0x2001, 0xdb8, 0, 0, 8, 0x800, 0x200c, 0x417a⟩, some 80) ∧
    parseStr parseIpv6 .must .disallow (ascii "::ffff:10.0.0.1") = .ok (⟨0, 0, 0, 0, 0, 0xffff, 0x0a00, 1⟩, none) ∧
    parseStr parseIpv6 .allow .allow (ascii "1:2:3:4:5:6:7:8::") = .err .invalid := by decide +kernel

/-- C30: the `ip` validator accepts what the `ipv4` or the `ipv6` validator with the same options accepts, with the same
address and port. -/
theorem C30_union (loc port : TriAllow) (cs : List Char) (p : Option Nat) :
    (∀ x, parseStr parseIp loc port (strBytes cs) = .ok (.v4 x, p) ↔ parseStr parseIpv4 loc port (strBytes cs) = .ok (x, p)) ∧
    (∀ x, parseStr parseIp loc port (strBytes cs) = .ok (.v6 x, p) ↔ parseStr parseIpv6 loc port (strBytes cs) = .ok (x, p)) := by
  have hs : Str (strBytes cs) := ⟨cs, rfl⟩
  constructor
  · intro x
    rw [parseStr_ok _ _ _ _ (fun x p l h => parseIp_port _ _ _ hs _ _ _ h),
      parseStr_ok _ _ _ _ (fun x p l h => ((parseIpv4_ok _ _ _ hs _ _ _).1 h).2.1)]
    simp only [parseIp_v4 loc port _ hs]
  · intro x
    rw [parseStr_ok _ _ _ _ (fun x p l h => parseIp_port _ _ _ hs _ _ _ h),
      parseStr_ok _ _ _ _ (fun x p l h => ((parseIpv6_ok _ _ _ hs _ _ _).1 h).2.1)]
    simp only [parseIp_v6 loc port _ hs]

/-- In terms of the specification. -/
theorem C30_parse (loc port : TriAllow) (cs : List Char) (x : IpAddr) (p : Option Nat) :
    parseStr parseIp loc port (strBytes cs) = .ok (x, p) ↔
      IpInput (strBytes cs) x p ∧ PortOk port p ∧ LocalOk loc (LocalIp x) := by
  cases x with
  | v4 x => rw [(C30_union loc port cs p).1, C28_parse]; rfl
  | v6 x => rw [(C30_union loc port cs p).2, C29_parse]; rfl

/-- The locality the three parsers compute is the same. -/
theorem C30_locality (loc port : TriAllow) (cs : List Char) (p : Option Nat) (l : Bool) :
    (∀ x, parseIp loc port (strBytes cs) = .ok (.v4 x, p, l) ↔ parseIpv4 loc port (strBytes cs) = .ok (x, p, l)) ∧
    (∀ x, parseIp loc port (strBytes cs) = .ok (.v6 x, p, l) ↔ parseIpv6 loc port (strBytes cs) = .ok (x, p, l)) :=
  ⟨fun x => parseIp_v4 loc port _ ⟨cs, rfl⟩ x p l, fun x => parseIp_v6 loc port _ ⟨cs, rfl⟩ x p l⟩

theorem C30_validate (loc port : TriAllow) (cs : List Char) :
    agrees (parseStr parseIp loc port (strBytes cs)) (validateStr parseIp loc port (strBytes cs)) := by
  have hs : Str (strBytes cs) := ⟨cs, rfl⟩
  have hnp := parseStr_panic parseIp loc port _ (fun x p l h => parseIp_port _ _ _ hs _ _ _ h) (parseIp_panic loc port _ hs)
  revert hnp
  unfold agrees validateStr parseStr
  cases hr : parseIp loc port (strBytes cs) with
  | ok v => obtain ⟨x, p, l⟩ := v; cases port <;> cases p <;> simp [create, Out.void]
  | err e => simp [Out.void]
  | panic => simp

/-! ## Printing -/

theorem port_lt (s : List UInt8) (x : IpAddr) (p : Option Nat) (h : IpInput s x p) : ∀ n, p = some n → n < 65536 := by
  rintro n rfl; exact input_port_lt s x n h

/-- C31: the authority string of a parsed value is accepted by the same validator and gives the same address and port. -/
theorem C31_ipv4 (loc port : TriAllow) (cs : List Char) (v : V4 × Option Nat)
    (h : parseStr parseIpv4 loc port (strBytes cs) = .ok v) : parseStr parseIpv4 loc port (uriV4 v) = .ok v := by
  obtain ⟨x, p⟩ := v
  obtain ⟨hi, hp, hl⟩ := (C28_parse loc port cs x p).1 h
  obtain ⟨h1, ds, h2⟩ := uriV4_input x p (port_lt _ (.v4 x) p hi)
  rw [h2] at h1 ⊢
  exact (C28_parse loc port ds x p).2 ⟨h1, hp, hl⟩

theorem C31_ipv6 (loc port : TriAllow) (cs : List Char) (v : V6 × Option Nat)
    (h : parseStr parseIpv6 loc port (strBytes cs) = .ok v) : parseStr parseIpv6 loc port (uriV6 v) = .ok v := by
  obtain ⟨x, p⟩ := v
  obtain ⟨hi, hp, hl⟩ := (C29_parse loc port cs x p).1 h
  obtain ⟨h1, ds, h2⟩ := uriV6_input x p (port_lt _ (.v6 x) p hi)
  rw [h2] at h1 ⊢
  exact (C29_parse loc port ds x p).2 ⟨h1, hp, hl⟩

theorem C31_ip (loc port : TriAllow) (cs : List Char) (v : IpAddr × Option Nat)
    (h : parseStr parseIp loc port (strBytes cs) = .ok v) : parseStr parseIp loc port (uriIp v) = .ok v := by
  obtain ⟨x, p⟩ := v
  obtain ⟨hi, hp, hl⟩ := (C30_parse loc port cs x p).1 h
  cases x with
  | v4 x =>
    obtain ⟨h1, ds, h2⟩ := uriV4_input x p (port_lt _ (.v4 x) p hi)
    have h2' : uriIp (.v4 x, p) = strBytes ds := h2
    rw [h2] at h1
    rw [h2']
    exact (C30_parse loc port ds (.v4 x) p).2 ⟨h1, hp, hl⟩
  | v6 x =>
    obtain ⟨h1, ds, h2⟩ := uriV6_input x p (port_lt _ (.v6 x) p hi)
    have h2' : uriIp (.v6 x, p) = strBytes ds := h2
    rw [h2] at h1
    rw [h2']
    exact (C30_parse loc port ds (.v6 x) p).2 ⟨h1, hp, hl⟩

/-- Every address can be parsed and printed, so the hypothesis is met by all addresses and ports. -/
theorem C31_every_address (x : IpAddr) (p : Option Nat) (hp : ∀ n, p = some n → n < 65536) :
    parseStr parseIp .allow .allow (uriIp (x, p)) = .ok (x, p) := by
  cases x with
  | v4 x =>
    obtain ⟨h1, ds, h2⟩ := uriV4_input x p hp
    have h2' : uriIp (.v4 x, p) = strBytes ds := h2
    rw [h2] at h1
    rw [h2']
    exact (C30_parse _ _ ds (.v4 x) p).2 ⟨h1, trivial, trivial⟩
  | v6 x =>
    obtain ⟨h1, ds, h2⟩ := uriV6_input x p hp
    have h2' : uriIp (.v6 x, p) = strBytes ds := h2
    rw [h2] at h1
    rw [h2']
    exact (C30_parse _ _ ds (.v6 x) p).2 ⟨h1, trivial, trivial⟩

example : uriIp (.v6 ⟨1, 0, 0, 2, 0, 0, 0, 3⟩, some 443) = ascii "[1:0:0:2::3]:443" ∧
    uriIp (.v6 ⟨0, 0, 0, 0, 0, 0xffff, 0x0102, 0x0304⟩, none) = ascii "[::ffff:1.2.3.4]" := by decide +kernel

/-! ## Options, panics and errors -/

/-- C32 for the IP validators: what is accepted satisfies the port and the local option. -/
theorem C32_ip (loc port : TriAllow) (cs : List Char) :
    (∀ v, parseStr parseIpv4 loc port (strBytes cs) = .ok v → PortOk port v.2 ∧ LocalOk loc (Local4 v.1.number)) ∧
    (∀ v, parseStr parseIpv6 loc port (strBytes cs) = .ok v → PortOk port v.2 ∧ LocalOk loc (Local6 v.1.number)) ∧
    (∀ v, parseStr parseIp loc port (strBytes cs) = .ok v → PortOk port v.2 ∧ LocalOk loc (LocalIp v.1)) :=
  ⟨fun v h => ((C28_parse loc port cs v.1 v.2).1 h).2, fun v h => ((C29_parse loc port cs v.1 v.2).1 h).2,
    fun v h => ((C30_parse loc port cs v.1 v.2).1 h).2⟩

/-- C33 for the IP validators: no string makes them panic. -/
theorem C33_ip (loc port : TriAllow) (cs : List Char) :
    parseStr parseIpv4 loc port (strBytes cs) ≠ .panic ∧ validateStr parseIpv4 loc port (strBytes cs) ≠ .panic ∧
    parseStr parseIpv6 loc port (strBytes cs) ≠ .panic ∧ validateStr parseIpv6 loc port (strBytes cs) ≠ .panic ∧
    parseStr parseIp loc port (strBytes cs) ≠ .panic ∧ validateStr parseIp loc port (strBytes cs) ≠ .panic := by
  have hs : Str (strBytes cs) := ⟨cs, rfl⟩
  have void : ∀ {α : Type} (r : Out IpError α), r ≠ .panic → r.void ≠ .panic := by
    intro α r h; cases r <;> simp_all [Out.void]
  have h4 := parseStr_panic parseIpv4 loc port _ (fun x p l h => ((parseIpv4_ok _ _ _ hs _ _ _).1 h).2.1) (parseIpv4_panic loc port _ hs)
  have h6 := parseStr_panic parseIpv6 loc port _ (fun x p l h => ((parseIpv6_ok _ _ _ hs _ _ _).1 h).2.1) (parseIpv6_panic loc port _ hs)
  have h := parseStr_panic parseIp loc port _ (fun x p l h => parseIp_port _ _ _ hs _ _ _ h) (parseIp_panic loc port _ hs)
  exact ⟨h4, (C28_validate loc port cs).symm ▸ void _ h4, h6, (C29_validate loc port cs).symm ▸ void _ h6, h,
    (C30_validate loc port cs).symm ▸ void _ h⟩

/-- Slicing a string inside a character does panic in the model, so the theorem is about something. -/
example : (strSlice (strBytes ['é']) 0 1 : Out IpError _) = .panic := by decide +kernel

/-- C39 for the `ipv4` validator: `PortMust` and the local errors are only returned when they are true of the input. -/
theorem C39_ipv4 (loc port : TriAllow) (cs : List Char) (e : IpError) (h : parseStr parseIpv4 loc port (strBytes cs) = .err e) :
    (e = .portMust → port = .must ∧ asc ':' ∉ strBytes cs) ∧ (e = .portDisallow → port = .disallow ∧ asc ':' ∈ strBytes cs) ∧
    (e = .localMust → loc = .must ∧ ∃ x p, V4Input (strBytes cs) x p ∧ ¬ Local4 x.number) ∧
    (e = .localDisallow → loc = .disallow ∧ ∃ x p, V4Input (strBytes cs) x p ∧ Local4 x.number) := by
  rw [parseStr_err] at h
  unfold parseIpv4 at h
  split at h
  · cases h; simp
  · have := v4Part_err loc port _ ⟨cs, rfl⟩ e h
    simpa only [← isLocalV4_iff, Bool.not_eq_true] using this

theorem C39_ipv6 (loc port : TriAllow) (cs : List Char) (e : IpError) (h : parseStr parseIpv6 loc port (strBytes cs) = .err e) :
    (e = .portMust → port = .must ∧ ∀ x n, ¬ V6Input (strBytes cs) x (some n)) ∧
    (e = .portDisallow → port = .disallow ∧ (strBytes cs).head? = some (asc '[') ∧ (strBytes cs).getLast? ≠ some (asc ']')) ∧
    (e = .localMust → loc = .must ∧ ∃ x p, V6Input (strBytes cs) x p ∧ ¬ Local6 x.number) ∧
    (e = .localDisallow → loc = .disallow ∧ ∃ x p, V6Input (strBytes cs) x p ∧ Local6 x.number) := by
  rw [parseStr_err] at h
  have := parseIpv6_err loc port _ ⟨cs, rfl⟩ e h
  simpa only [← isLocalV6_iff, Bool.not_eq_true] using this

theorem C39_ip (loc port : TriAllow) (cs : List Char) (e : IpError) (h : parseStr parseIp loc port (strBytes cs) = .err e) :
    (e = .portMust → port = .must ∧ ∀ x n, ¬ IpInput (strBytes cs) x (some n)) ∧
    (e = .portDisallow → port = .disallow) ∧
    (e = .localMust → loc = .must ∧ ∃ x p, IpInput (strBytes cs) x p ∧ ¬ LocalIp x) ∧
    (e = .localDisallow → loc = .disallow ∧ ∃ x p, IpInput (strBytes cs) x p ∧ LocalIp x) := by
  rw [parseStr_err] at h
  obtain ⟨h1, h2, h3, h4⟩ := parseIp_err loc port _ ⟨cs, rfl⟩ e h
  have e1 : ∀ x, isLocalIp x = false ↔ ¬ LocalIp x := fun x => by rw [← C27_ip, Bool.not_eq_true]
  simp only [e1] at h3
  simp only [C27_ip] at h4
  exact ⟨h1, fun h => (h2 h).elim (·.1) (·.1), h3, h4⟩

example : parseStr parseIpv6 .allow .must (ascii "[::1]") = .err .portMust ∧
    parseStr parseIp .disallow .allow (ascii "[::ffff:127.0.0.1]:80") = .err .localDisallow ∧
    parseStr parseIpv4 .must .allow (ascii "8.8.8.8") = .err .localMust := by decide +kernel

end Verif.Props.Ip
