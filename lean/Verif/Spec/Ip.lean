import Verif.Spec.Int
import Verif.Spec.Hex

/-!
# Specification of IP addresses: their texts and their blocks

An IPv4 address is a number below `2 ^ 32`, an IPv6 address a number below `2 ^ 128`, or its list of octets or segments.
-/

namespace Verif.Spec.Ip

open Verif.Spec

/-! ## Texts -/

/-- A natural number in decimal, without leading zeros. -/
def dec (n : Nat) : List UInt8 := (Nat.toDigits 10 n).map asc

/-- The dotted quad of four octets. -/
def dotted (a b c d : Nat) : List UInt8 := dec a ++ ascii "." ++ dec b ++ ascii "." ++ dec c ++ ascii "." ++ dec d

/-- `t` is one to four hexadecimal digits, in either case, that denote `g`. -/
def Group (t : List UInt8) (g : Nat) : Prop :=
  t ≠ [] ∧ t.length ≤ 4 ∧ (∀ b ∈ t, b ∈ Hex.symbols .any) ∧ Hex.value t = g

/-- `t` is the text of one or more segments with `:` between two groups. When `quad` is true the last two segments are
written as a dotted quad. -/
inductive Groups : (quad : Bool) → (t : List UInt8) → (gs : List Nat) → Prop
  | group {t : List UInt8} {g : Nat} : Group t g → Groups false t [g]
  | quad {a b c d : Nat} : a < 256 → b < 256 → c < 256 → d < 256 → Groups true (dotted a b c d) [a * 256 + b, c * 256 + d]
  | cons {t : List UInt8} {g : Nat} {q : Bool} {rest : List UInt8} {gs : List Nat} :
      Group t g → Groups q rest gs → Groups q (t ++ ascii ":" ++ rest) (g :: gs)

/-- The text of zero or more segments. -/
def Groups0 (q : Bool) (t : List UInt8) (gs : List Nat) : Prop := t = [] ∧ gs = [] ∧ q = false ∨ Groups q t gs

/-- `s` is a text of the IPv6 address with these segments (RFC 4291 §2.2): all eight, or fewer with one `::` standing for at
least one zero segment; the last two may be written as a dotted quad. -/
def V6Text (s : List UInt8) (segs : List Nat) : Prop :=
  (∃ q, Groups q s segs ∧ segs.length = 8) ∨
  ∃ q h t hs ts, s = h ++ ascii "::" ++ t ∧ Groups0 false h hs ∧ Groups0 q t ts ∧ hs.length + ts.length ≤ 7 ∧
    segs = hs ++ List.replicate (8 - hs.length - ts.length) 0 ++ ts

/-- `t` is a port: decimal digits, possibly after `+`, denoting a number below 65536. -/
def PortText (t : List UInt8) (p : Nat) : Prop := IntV.Numeral false t p ∧ p < 65536

/-! ## Options -/

/-- What the port option asks for. -/
def PortOk : TriAllow → Option Nat → Prop
  | .allow, _ => True
  | .must, p => p ≠ none
  | .disallow, p => p = none

/-- What the local option asks for. -/
def LocalOk : TriAllow → Prop → Prop
  | .allow, _ => True
  | .must, l => l
  | .disallow, l => ¬ l

/-! ## Blocks -/

/-- The number with the given octets (or segments), most significant first. -/
def numberOf (base : Nat) : List Nat → Nat
  | [] => 0
  | x :: xs => x * base ^ xs.length + numberOf base xs

/-- `n` is in the block `base/len` of the numbers with `bits` bits: the first `len` bits are those of `base`. -/
def InBlock (bits n base len : Nat) : Prop := n / 2 ^ (bits - len) = base / 2 ^ (bits - len)

/-- The number of the IPv4 address `a.b.c.d`. -/
def quadNumber (a b c d : Nat) : Nat := numberOf 256 [a, b, c, d]

/-- Local IPv4 addresses. -/
def Local4 (n : Nat) : Prop :=
  InBlock 32 n (quadNumber 10 0 0 0) 8 ∨ InBlock 32 n (quadNumber 172 16 0 0) 12 ∨ InBlock 32 n (quadNumber 192 168 0 0) 16 ∨
  InBlock 32 n (quadNumber 127 0 0 0) 8 ∨ InBlock 32 n (quadNumber 169 254 0 0) 16 ∨ InBlock 32 n (quadNumber 192 0 2 0) 24 ∨
  InBlock 32 n (quadNumber 198 51 100 0) 24 ∨ InBlock 32 n (quadNumber 203 0 113 0) 24 ∨
  n = quadNumber 0 0 0 0 ∨ n = quadNumber 255 255 255 255

/-- The number of an IPv6 address whose first two segments are given and the others zero. -/
def head6 (s0 s1 : Nat) : Nat := numberOf 65536 [s0, s1, 0, 0, 0, 0, 0, 0]

/-- The scope of a multicast address: the low four bits of its second octet. `14` is the global scope. -/
def scope (n : Nat) : Nat := n / 2 ^ 112 % 16

/-- Local IPv6 addresses. The last two lines: IPv4-compatible (`::a.b.c.d`) and IPv4-mapped (`::ffff:a.b.c.d`) addresses with
a local IPv4 address. -/
def Local6 (n : Nat) : Prop :=
  InBlock 128 n (head6 0xff00 0) 8 ∧ scope n ≠ 14 ∨ n = 0 ∨ n = 1 ∨
  InBlock 128 n (head6 0xfe80 0) 10 ∨ InBlock 128 n (head6 0xfec0 0) 10 ∨ InBlock 128 n (head6 0xfc00 0) 7 ∨
  InBlock 128 n (head6 0x2001 0xdb8) 32 ∨
  n / 2 ^ 32 = 0 ∧ Local4 (n % 2 ^ 32) ∨
  n / 2 ^ 32 = 0xffff ∧ Local4 (n % 2 ^ 32)

instance (bits n base len : Nat) : Decidable (InBlock bits n base len) := inferInstanceAs (Decidable (_ = _))
instance (n : Nat) : Decidable (Local4 n) := by unfold Local4; infer_instance
instance (n : Nat) : Decidable (Local6 n) := by unfold Local6; infer_instance

end Verif.Spec.Ip
