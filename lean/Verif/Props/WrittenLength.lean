import Verif.Props.Email
import Verif.Props.Hex
import Verif.Proof.Longest

/-!
# C96: how long a written text can be

Bounds on what `to_uri_authority_string`, `to_uuid_string`, `to_mac_address_string` and `to_email_string` write.
-/

namespace Verif.Props.WrittenLength

open Verif.StdIp
open _root_.Verif.BaseN (strBytes)

/-! ## Addresses -/

theorem revDec_length (fuel : Nat) : ∀ n k, 0 < k → n < 10 ^ k → (IntV.revDec fuel n).length ≤ k := by
  induction fuel with
  | zero => intro n k _ _; simp [IntV.revDec]
  | succ f ih =>
    intro n k hk hn
    unfold IntV.revDec
    split
    · simp; omega
    · cases k with
      | zero => omega
      | succ k =>
        rw [Nat.pow_succ] at hn
        have hk' : 0 < k := by
          rcases Nat.eq_zero_or_pos k with rfl | h
          · omega
          · exact h
        have := ih (n / 10) k hk' (by omega)
        simp; omega

theorem port_length (n : Nat) (h : n < 65536) : (IntV.showNat n).length ≤ 5 := by
  have := revDec_length (n + 1) n 5 (by decide) (by omega)
  simpa [IntV.showNat] using this

theorem seg_length (x : UInt16) : (showSeg x).length ≤ 4 := by
  have := Verif.Hex.revDigits_length 16 (by decide) 4 x.toNat 4 (by decide) x.toNat_lt
  simpa [showSeg] using this

theorem segs_length : ∀ l : List UInt16, (showSegs l).length ≤ 5 * l.length - 1
  | [] => Nat.le_refl _
  | [x] => by have := seg_length x; simp [showSegs]; omega
  | x :: y :: rest => by
    have h1 := seg_length x
    have h2 := segs_length (y :: rest)
    simp only [showSegs, List.length_append, List.length_cons] at h2 ⊢
    omega

theorem v4_length (x : V4) : (showV4 x).length ≤ 15 := by
  rw [showV4_eq]; exact Longest.v4_length x

theorem v6_length (x : V6) : (showV6 x).length ≤ 39 := by
  unfold showV6
  split
  · rename_i a _
    have := v4_length a
    have : (ascii "::ffff:").length = 7 := rfl
    simp only [List.length_append]; omega
  · have h8 : x.segments.length = 8 := rfl
    have hz := (zeroRun_spec x.segments [] 0 0 0 0 (.inl rfl) (by simp) (.inr rfl) (by simp) (by simp)).1
    simp only [List.length_nil, List.nil_append] at hz
    show (if _ then _ else _ : List UInt8).length ≤ 39
    split
    · rename_i hr
      have h1 := segs_length (x.segments.take (zeroRun 0 0 0 0 0 x.segments).1)
      have h2 := segs_length (x.segments.drop ((zeroRun 0 0 0 0 0 x.segments).1 + (zeroRun 0 0 0 0 0 x.segments).2))
      have : (ascii "::").length = 2 := rfl
      rw [List.length_take] at h1
      rw [List.length_drop] at h2
      simp only [List.length_append]
      omega
    · have := segs_length x.segments
      omega

open Verif.Ip in
/-- C96: `to_uri_authority_string` of `ipv4` writes at most 15 bytes, or 21 with a port. -/
theorem C96_ipv4 (x : V4) (p : Option Nat) (hp : ∀ n, p = some n → n < 65536) : (uriV4 (x, p)).length ≤ if p = none then 15 else 21 := by
  have := v4_length x
  cases p with
  | none => simpa [uriV4] using this
  | some n =>
    have := port_length n (hp n rfl)
    simp [uriV4]; omega

open Verif.Ip in
/-- C96: `to_uri_authority_string` of `ipv6` writes at most 41 bytes, or 47 with a port. -/
theorem C96_ipv6 (x : V6) (p : Option Nat) (hp : ∀ n, p = some n → n < 65536) : (uriV6 (x, p)).length ≤ if p = none then 41 else 47 := by
  have := v6_length x
  cases p with
  | none => simp [uriV6]; omega
  | some n =>
    have := port_length n (hp n rfl)
    simp [uriV6]; omega

open Verif.Ip in
/-- C96: `to_uri_authority_string` of `ip` writes at most 41 bytes, or 47 with a port. -/
theorem C96_ip (x : IpAddr) (p : Option Nat) (hp : ∀ n, p = some n → n < 65536) : (uriIp (x, p)).length ≤ if p = none then 41 else 47 := by
  cases x with
  | v4 x =>
    have h := C96_ipv4 x p hp
    show (uriV4 (x, p)).length ≤ _
    split at h <;> simp_all <;> omega
  | v6 x => exact C96_ipv6 x p hp

open Verif.Host in
/-- C96: `to_uri_authority_string` of `host` writes no more for an address, and six bytes more than a name. -/
theorem C96_host (v : Value) (hp : ∀ n, v.port = some n → n < 65536) :
    (toUri v).length ≤ (match v.host with | .ipv4 _ => 15 | .ipv6 _ => 41 | .domain a => a.length) + if v.port = none then 0 else 6 := by
  obtain ⟨h, l, p⟩ := v
  cases h with
  | ipv4 x =>
    have := C96_ipv4 x p hp
    cases p <;> simpa [toUri, Verif.Ip.uriV4] using this
  | ipv6 x =>
    have := C96_ipv6 x p hp
    cases p <;> simpa [toUri, Verif.Ip.uriV6] using this
  | domain a =>
    cases p with
    | none => simp [toUri]
    | some n =>
      have := port_length n (hp n rfl)
      simp [toUri]; omega

/-- The bounds are reached. -/
example : (Verif.Ip.uriV4 (⟨255, 255, 255, 255⟩, some 65535)).length = 21 ∧ (Verif.Ip.uriV4 (⟨255, 255, 255, 255⟩, none)).length = 15 ∧
    (Verif.Ip.uriV6 (⟨65535, 65535, 65535, 65535, 65535, 65535, 65535, 65535⟩, some 65535)).length = 47 ∧
    (Verif.Ip.uriV6 (⟨65535, 65535, 65535, 65535, 65535, 65535, 65535, 65535⟩, none)).length = 41 := by decide +kernel

/-! ## UUIDs and MAC addresses -/

section

open Verif.Hex

/-- The decimal digits of a byte. -/
theorem u8_length (b : UInt8) : (fmtU8 b).length = if b.toNat < 10 then 1 else if b.toNat < 100 then 2 else 3 := by
  have : ∀ n : Fin 256, (revDigits 10 3 n.val).length = if n.val < 10 then 1 else if n.val < 100 then 2 else 3 := by decide +kernel
  have := this ⟨b.toNat, b.toNat_lt⟩
  simpa [fmtU8] using this

/-- C96: `to_uuid_string` writes 32 bytes, or with a separator 36, 40 or 44, as its code has one, two or three digits. -/
theorem C96_uuid (sep : SeparatorOption) (case : CaseOption) (n : Nat) (hn : n < 2 ^ 128) :
    (Uuid.toUuidString sep case n).length = match sep with
      | .disallow => 32
      | .must b | .allow b => if b.toNat < 10 then 36 else if b.toNat < 100 then 40 else 44 := by
  cases sep with
  | disallow => exact (fmtHex_spec case 32 n (by decide) (by decide) (by simpa using hn)).1
  | must b =>
    have := (Uuid.print_sep_length (.must b) b rfl case n).1
    rw [this, u8_length]
    by_cases h1 : b.toNat < 10 <;> by_cases h2 : b.toNat < 100 <;> simp [h1, h2, Spec.Hex.uuidSizes, Spec.Hex.macSizes]
  | allow b =>
    have := (Uuid.print_sep_length (.allow b) b rfl case n).1
    rw [this, u8_length]
    by_cases h1 : b.toNat < 10 <;> by_cases h2 : b.toNat < 100 <;> simp [h1, h2, Spec.Hex.uuidSizes, Spec.Hex.macSizes]

/-- C96: `to_mac_address_string` writes 12 bytes, or with a separator 17, 22 or 27. -/
theorem C96_mac (sep : SeparatorOption) (case : CaseOption) (n : Nat) (hn : n < 2 ^ 48) :
    (Mac.toMacAddressString sep case n).length = match sep with
      | .disallow => 12
      | .must b | .allow b => if b.toNat < 10 then 17 else if b.toNat < 100 then 22 else 27 := by
  cases sep with
  | disallow => exact (fmtHex_spec case 12 n (by decide) (by decide) (by simpa using hn)).1
  | must b =>
    have := (Mac.print_sep_length (.must b) b rfl case n).1
    rw [this, u8_length]
    by_cases h1 : b.toNat < 10 <;> by_cases h2 : b.toNat < 100 <;> simp [h1, h2, Spec.Hex.uuidSizes, Spec.Hex.macSizes]
  | allow b =>
    have := (Mac.print_sep_length (.allow b) b rfl case n).1
    rw [this, u8_length]
    by_cases h1 : b.toNat < 10 <;> by_cases h2 : b.toNat < 100 <;> simp [h1, h2, Spec.Hex.uuidSizes, Spec.Hex.macSizes]

end

/-! ## Emails -/

section

open Verif.Email Verif.Spec Verif.Spec.Email Verif.Spec.Domain
open Verif.Domain (Idna ldh)

theorem quote_length (q : Bool) (t : List UInt8) : (quote q t).length = t.length + if q then 2 else 0 := by
  cases q <;> simp [quote, ascii]

/-- What is written is no longer than its two sides. -/
theorem written_sides (o : Opts) (idna : Idna) (s : List UInt8) (v : Value) (q : Bool) (t h tail : List UInt8) (hd : Denotes o idna s v q t h tail) :
    (toEmail o v).length + (if o.comment = .disallow ∧ v.needQuoted = true then 2 else 0) ≤
      (comment v.comment1 ++ quote q v.text ++ comment v.comment2).length + 1 + (comment v.comment3 ++ showHost v.host ++ comment v.comment4).length := by
  have hq : v.needQuoted = true → q = true := fun e => (hd.needQuoted.1 e).1
  have hs : ∀ c, showComment c = comment c := by intro c; cases c <;> simp [showComment, comment, ascii]
  have e1 : (quote q v.text).length = v.text.length + if q then 2 else 0 := quote_length q _
  have e2 : (if v.needQuoted = true then 2 else 0) ≤ if q = true then 2 else 0 := by
    cases hn : v.needQuoted with
    | false => simp
    | true => rw [hq hn]
  have e3 : (if v.needQuoted then [asc '"'] else [] : List UInt8).length * 2 = if v.needQuoted = true then 2 else 0 := by
    cases v.needQuoted <;> rfl
  simp only [List.length_append]
  unfold toEmail
  by_cases hc : o.comment = .disallow
  · rw [if_pos hc]
    simp only [List.length_append, List.length_cons, hc, true_and]
    omega
  · rw [if_neg hc]
    simp only [hs, List.length_append, List.length_cons, hc, false_and, if_false]
    omega

/-- C96: `to_email_string` writes at most 320 bytes, if the local part is ASCII, the comment before it has not the length 61, there is
no comment after it that escapes the limit, and no quotation marks are written; with quotation marks 322 bytes. Missing: the other
emails, see `C96_long`, and the two bytes, see `C96_quoted`. -/
theorem C96_email_partial (o : Opts) (idna : Idna) (cs : List Char) (v : Value) (hv : parseStr o idna (strBytes cs) = .ok v)
    (ha : ∀ b ∈ v.text, b.toNat < 128) (h1 : ∀ c, v.comment1 = some c → c.length ≠ 61) (h2 : o.checked = true ∨ v.comment2 = none) :
    (toEmail o v).length ≤ if o.comment = .allow ∧ v.needQuoted = true then 322 else 320 := by
  obtain ⟨q, t, h, tail, hd⟩ := (Email.C62_email o idna cs v).1 hv
  have k1 := written_sides o idna _ v q t h tail hd
  have k2 := Email.left_short o idna _ v q t h tail hd ha h1 h2
  have k3 := Email.C42_written o idna cs v hv
  cases hc : o.comment <;> cases hq : v.needQuoted <;> simp [hc, hq] at k1 k2 k3 ⊢ <;> omega

/-- C96: no email is written in more than 576 bytes. -/
theorem C96_email_all_partial (o : Opts) (idna : Idna) (cs : List Char) (v : Value) (hv : parseStr o idna (strBytes cs) = .ok v) :
    (toEmail o v).length ≤ 576 := by
  obtain ⟨q, t, h, tail, hd⟩ := (Email.C62_email o idna cs v).1 hv
  have k1 := written_sides o idna _ v q t h tail hd
  have k3 := Email.C42_written o idna cs v hv
  have k4 := hd.short
  rw [hd.text] at k4
  have k5 : 1 ≤ t.length := by
    rw [hd.domainText.text]
    have : h ≠ [] := by
      have hx := hd.domainText.host
      generalize hz : v.host = z at hx
      cases hx with
      | ipv4 => simp [ascii]
      | ipv6 => simp [ascii]
      | domain k => exact k
    have := List.length_pos_iff.2 this
    simp only [List.length_append]
    omega
  have : (ascii "@").length = 1 := rfl
  simp only [List.length_append] at k1 k4
  split at k3 <;> simp only [List.length_append] at k3 <;> omega

/-- C96 is false of the code: this email of 316 bytes is written in 322. -/
theorem C96_quoted : ∃ (cs : List Char) (v : Value), parseStr Email.free ldh (strBytes cs) = .ok v ∧ (strBytes cs).length = 316 ∧
    (toEmail Email.free v).length = 322 := by
  refine ⟨"\"a ".toList ++ List.replicate 60 'b' ++ "\"@(".toList ++ List.replicate 226 'c' ++ ")[IPv6:::ffff:ffff:ffff]".toList,
    ⟨ascii "a " ++ List.replicate 60 (asc 'b'), true, .ipv6 ⟨0, 0, 0, 0, 0, 0xffff, 0xffff, 0xffff⟩, none, none, some (List.replicate 226 (asc 'c')), none, none⟩, ?_⟩
  decide +kernel

/-- The limit of 64 bytes does not hold for letters beyond ASCII: this email of 320 bytes is written in 326. -/
theorem C96_long : ∃ (cs : List Char) (v : Value), parseStr Email.free ldh (strBytes cs) = .ok v ∧ v.needQuoted = false ∧ (strBytes cs).length = 320 ∧
    (toEmail Email.free v).length = 326 := by
  refine ⟨List.replicate 148 'é' ++ "@[IPv6:::ffff:ffff:ffff]".toList,
    ⟨strBytes (List.replicate 148 'é'), false, .ipv6 ⟨0, 0, 0, 0, 0, 0xffff, 0xffff, 0xffff⟩, none, none, none, none, none⟩, ?_⟩
  decide +kernel

/-- The hypotheses are met by an email with all its parts. -/
example : ∃ v, parseStr Email.free ldh (ascii "(x)\"a b\"(y)@(z)Example.com(w)") = .ok v ∧ (∀ b ∈ v.text, b.toNat < 128) ∧
    (∀ c, v.comment1 = some c → c.length ≠ 61) ∧ Email.free.checked = true ∧ (toEmail Email.free v).length = 29 :=
  ⟨⟨ascii "a b", true, .domain (ascii "example.com"), some (ascii "x"), some (ascii "y"), some (ascii "z"), some (ascii "w"), none⟩,
    by decide +kernel, by decide +kernel, by rintro c ⟨⟩; decide, by decide, by decide +kernel⟩

end

end Verif.Props.WrittenLength
