import Verif.Model.Boolean
import Verif.Spec.Boolean
import Verif.Proof.BaseN
import Verif.Proof.Utf8

/-! # Lemmas about boolean words -/

namespace Verif.Boolean

open Verif.Spec.Boolean

theorem lower_y : ∀ b : UInt8, (b = asc 'y' ∨ b = asc 'Y') ↔ lower b = 121 := BaseN.forall_uint8 (by decide +kernel)
theorem lower_e : ∀ b : UInt8, (b = asc 'e' ∨ b = asc 'E') ↔ lower b = 101 := BaseN.forall_uint8 (by decide +kernel)
theorem lower_s : ∀ b : UInt8, (b = asc 's' ∨ b = asc 'S') ↔ lower b = 115 := BaseN.forall_uint8 (by decide +kernel)
theorem lower_t : ∀ b : UInt8, (b = asc 't' ∨ b = asc 'T') ↔ lower b = 116 := BaseN.forall_uint8 (by decide +kernel)
theorem lower_r : ∀ b : UInt8, (b = asc 'r' ∨ b = asc 'R') ↔ lower b = 114 := BaseN.forall_uint8 (by decide +kernel)
theorem lower_u : ∀ b : UInt8, (b = asc 'u' ∨ b = asc 'U') ↔ lower b = 117 := BaseN.forall_uint8 (by decide +kernel)
theorem lower_o : ∀ b : UInt8, (b = asc 'o' ∨ b = asc 'O') ↔ lower b = 111 := BaseN.forall_uint8 (by decide +kernel)
theorem lower_n : ∀ b : UInt8, (b = asc 'n' ∨ b = asc 'N') ↔ lower b = 110 := BaseN.forall_uint8 (by decide +kernel)
theorem lower_f : ∀ b : UInt8, (b = asc 'f' ∨ b = asc 'F') ↔ lower b = 102 := BaseN.forall_uint8 (by decide +kernel)
theorem lower_a : ∀ b : UInt8, (b = asc 'a' ∨ b = asc 'A') ↔ lower b = 97 := BaseN.forall_uint8 (by decide +kernel)
theorem lower_l : ∀ b : UInt8, (b = asc 'l' ∨ b = asc 'L') ↔ lower b = 108 := BaseN.forall_uint8 (by decide +kernel)
theorem lower_1 : ∀ b : UInt8, b = asc '1' ↔ lower b = 49 := BaseN.forall_uint8 (by decide +kernel)
theorem lower_0 : ∀ b : UInt8, b = asc '0' ↔ lower b = 48 := BaseN.forall_uint8 (by decide +kernel)

theorem trueWords_eq : trueWords = [[121], [121, 101, 115], [116], [116, 114, 117, 101], [49], [111, 110]] := by decide
theorem falseWords_eq : falseWords = [[110], [110, 111], [102], [102, 97, 108, 115, 101], [48], [111, 102, 102]] := by decide

theorem words (s : List UInt8) :
    (parseStr s = .ok true ↔ s.map lower ∈ trueWords) ∧ (parseStr s = .ok false ↔ s.map lower ∈ falseWords) ∧
    (parseStr s = .err () ↔ s.map lower ∉ trueWords ∧ s.map lower ∉ falseWords) ∧ parseStr s ≠ .panic := by
  rw [trueWords_eq, falseWords_eq]
  unfold parseStr
  simp only [lower_y, lower_e, lower_s, lower_t, lower_r, lower_u, lower_o, lower_n, lower_f, lower_a, lower_l, lower_1, lower_0]
  simp only [List.mem_cons, List.not_mem_nil, or_false]
  repeat' split
  all_goals simp_all

theorem parse_wide {b : UInt8} (h : 0xC0 ≤ b.toNat) (t : List UInt8) : parseStr (b :: t) = .err () := by
  have k : ∀ c : Char, c.toNat < 128 → b ≠ asc c := by
    intro c hc e
    subst e
    unfold asc at h
    simp at h
    omega
  unfold parseStr
  simp only [k 'y' (by decide), k 'Y' (by decide), k 't' (by decide), k 'T' (by decide), k '1' (by decide),
    k 'o' (by decide), k 'O' (by decide), k 'n' (by decide), k 'N' (by decide), k 'f' (by decide), k 'F' (by decide),
    k '0' (by decide), or_self, if_false]

theorem char_ascii : ∀ n : Fin 128, parseChar (Char.ofNat n.val) = parseStr [asc (Char.ofNat n.val)] := by
  decide +kernel

theorem char_agrees (c : Char) : parseChar c = parseStr (BaseN.strBytes [c]) := by
  unfold BaseN.strBytes
  simp only [List.flatMap_cons, List.flatMap_nil, List.append_nil]
  by_cases h : c.toNat < 128
  · rw [Utf8.encode_ascii h]
    have := char_ascii ⟨c.toNat, h⟩
    simpa using this
  · obtain ⟨b, t, e, hb, -, -⟩ := Utf8.encode_wide (c := c) (by omega)
    rw [e, parse_wide hb]
    have k : ∀ d : Char, d.toNat < 128 → c ≠ d := by rintro d hd rfl; exact h hd
    unfold parseChar
    simp only [k 'y' (by decide), k 'Y' (by decide), k 't' (by decide), k 'T' (by decide), k '1' (by decide),
      k 'n' (by decide), k 'N' (by decide), k 'f' (by decide), k 'F' (by decide), k '0' (by decide), or_self, if_false]

end Verif.Boolean
