import Verif.Model.BaseN
import Verif.Spec.BaseN

/-! Lemmas on bit lists, used for the base-N decoders. -/

namespace Verif.BaseN

open Verif.Spec.BaseN (number)

@[simp] theorem length_bitsOf (w x : Nat) : (bitsOf w x).length = w := by
  induction w with
  | zero => rfl
  | succ w ih => simp [bitsOf, ih]

theorem bitsOf_mod (w x : Nat) : ∀ k, w ≤ k → bitsOf w (x % 2 ^ k) = bitsOf w x := by
  induction w with
  | zero => intros; rfl
  | succ w ih =>
    intro k hk
    simp [bitsOf, ih k (by omega), Nat.testBit_mod_two_pow, show w < k by omega]

theorem bitsOf_add (a b x : Nat) : bitsOf (a + b) x = bitsOf a (x / 2 ^ b) ++ bitsOf b x := by
  induction a with
  | zero => simp [bitsOf]
  | succ a ih =>
    rw [show a + 1 + b = (a + b) + 1 by omega]
    simp only [bitsOf, ih, Nat.testBit_div_two_pow, List.cons_append, Nat.add_comm a b]
    rw [← ih, Nat.add_comm]

theorem bitsOf_mul_two_pow (a b x : Nat) : bitsOf (a + b) (x * 2 ^ b) = bitsOf a x ++ List.replicate b false := by
  rw [bitsOf_add, Nat.mul_div_cancel _ (Nat.two_pow_pos b)]
  congr 1
  have : bitsOf b (x * 2 ^ b) = bitsOf b 0 := by
    rw [← bitsOf_mod b (x * 2 ^ b) b (Nat.le_refl _)]; simp
  rw [this]
  clear this
  induction b with
  | zero => rfl
  | succ b ih => simp [bitsOf, List.replicate_succ, ih]

theorem foldl_bits (l : List Bool) (acc : Nat) :
    l.foldl (fun acc b => 2 * acc + b.toNat) acc = acc * 2 ^ l.length + ofBits l := by
  unfold ofBits
  induction l generalizing acc with
  | nil => simp
  | cons b l ih =>
    simp only [List.foldl_cons, List.length_cons]
    rw [ih, ih (2 * 0 + b.toNat)]
    rw [Nat.pow_succ, Nat.add_mul, Nat.add_mul]
    simp [Nat.mul_assoc, Nat.mul_comm, Nat.add_assoc]

theorem ofBits_cons (b : Bool) (l : List Bool) : ofBits (b :: l) = b.toNat * 2 ^ l.length + ofBits l := by
  rw [ofBits, List.foldl_cons, foldl_bits]; simp

theorem ofBits_append (l₁ l₂ : List Bool) : ofBits (l₁ ++ l₂) = ofBits l₁ * 2 ^ l₂.length + ofBits l₂ := by
  rw [ofBits, List.foldl_append, foldl_bits]; rfl

theorem ofBits_lt (l : List Bool) : ofBits l < 2 ^ l.length := by
  induction l with
  | nil => simp [ofBits]
  | cons b l ih =>
    rw [ofBits_cons, List.length_cons, Nat.pow_succ]
    cases b <;> simp <;> omega

theorem ofBits_bitsOf (w x : Nat) : ofBits (bitsOf w x) = x % 2 ^ w := by
  induction w with
  | zero => simp [bitsOf, ofBits, Nat.mod_one]
  | succ w ih =>
    rw [bitsOf, ofBits_cons, ih, length_bitsOf, Nat.mod_pow_succ, Nat.toNat_testBit, Nat.mul_comm, Nat.add_comm]

theorem bitsOf_ofBits (l : List Bool) : bitsOf l.length (ofBits l) = l := by
  induction l with
  | nil => rfl
  | cons b l ih =>
    have hlt := ofBits_lt l
    rw [List.length_cons, bitsOf, ofBits_cons]
    congr 1
    · rw [Nat.mul_comm, Nat.testBit_two_pow_mul_add _ hlt]
      cases b <;> simp
    · rw [← bitsOf_mod l.length _ l.length (Nat.le_refl _)]
      rw [Nat.mul_comm, Nat.mul_add_mod, Nat.mod_eq_of_lt hlt, ih]

section groups
variable {α : Type}

@[simp] theorem length_groups (w n : Nat) (l : List α) : (groups w n l).length = n := by
  induction n generalizing l with
  | zero => rfl
  | succ n ih => simp [groups, ih]

theorem groups_append (w n : Nat) (l r : List α) (h : l.length = w * n) : groups w n (l ++ r) = groups w n l := by
  induction n generalizing l with
  | zero => rfl
  | succ n ih =>
    rw [Nat.mul_succ] at h
    simp only [groups]
    rw [List.take_append_of_le_length (by omega), List.drop_append_of_le_length (by omega), ih _ (by simp; omega)]

theorem groups_add (w a b : Nat) (l : List α) : groups w (a + b) l = groups w a l ++ groups w b (l.drop (w * a)) := by
  induction a generalizing l with
  | zero => simp [groups]
  | succ a ih =>
    rw [show a + 1 + b = (a + b) + 1 by omega]
    simp only [groups, ih, List.drop_drop, Nat.mul_succ, List.cons_append, Nat.add_comm w]

theorem groups_flatMap {β : Type} (w : Nat) (f : β → List α) (hf : ∀ x, (f x).length = w) (xs : List β) :
    groups w xs.length (xs.flatMap f) = xs.map f := by
  induction xs with
  | nil => rfl
  | cons x xs ih =>
    simp only [List.flatMap_cons, List.length_cons, groups, List.map_cons]
    rw [← hf x]
    simp only [List.take_left, List.drop_left]
    rw [hf x, ih]

theorem flatten_groups (w n : Nat) (l : List α) (h : l.length = w * n) : (groups w n l).flatten = l := by
  induction n generalizing l with
  | zero => simp at h; simp [groups, h]
  | succ n ih =>
    rw [Nat.mul_succ] at h
    simp [groups, ih (l.drop w) (by simp; omega)]

theorem groups_length_mem (w n : Nat) (l : List α) (h : w * n ≤ l.length) : ∀ g ∈ groups w n l, g.length = w := by
  induction n generalizing l with
  | zero => simp [groups]
  | succ n ih =>
    rw [Nat.mul_succ] at h
    intro g hg
    simp only [groups, List.mem_cons] at hg
    rcases hg with rfl | hg
    · simp; omega
    · exact ih _ (by simp; omega) g hg

end groups

/-- Digits of a number in base `2 ^ w`, as groups of its bits. -/
theorem digits_eq_groups (w m N : Nat) :
    (List.range m).map (fun j => N / 2 ^ (w * (m - 1 - j)) % 2 ^ w) = (groups w m (bitsOf (w * m) N)).map ofBits := by
  induction m with
  | zero => rfl
  | succ m ih =>
    rw [List.range_succ_eq_map, List.map_cons, List.map_map]
    rw [show w * (m + 1) = w + w * m by rw [Nat.mul_succ]; omega, bitsOf_add]
    simp only [groups, List.map_cons]
    rw [List.take_left' (by simp), List.drop_left' (by simp), ofBits_bitsOf, ← ih]
    congr 1
    apply List.map_congr_left
    intro j hj
    simp only [Function.comp]
    rw [show m + 1 - 1 - (j + 1) = m - 1 - j by omega]

theorem foldl_number (base acc : Nat) (ds : List Nat) :
    ds.foldl (fun acc x => acc * base + x) acc = acc * base ^ ds.length + number base ds := by
  unfold number
  induction ds generalizing acc with
  | nil => simp
  | cons d ds ih =>
    simp only [List.foldl_cons, List.length_cons]
    rw [ih, ih (0 * base + d), Nat.pow_succ]
    simp [Nat.add_mul, Nat.mul_assoc, Nat.mul_comm, Nat.mul_left_comm, Nat.add_assoc]

theorem number_cons (base d : Nat) (ds : List Nat) : number base (d :: ds) = d * base ^ ds.length + number base ds := by
  rw [number, List.foldl_cons, foldl_number]; simp

theorem number_lt (base : Nat) (ds : List Nat) (h : ∀ d ∈ ds, d < base) : number base ds < base ^ ds.length := by
  induction ds with
  | nil => simp [number]
  | cons d ds ih =>
    rw [number_cons, List.length_cons, Nat.pow_succ]
    have h1 := ih (fun x hx => h x (by simp [hx]))
    have h2 : d + 1 ≤ base := h d (by simp)
    calc d * base ^ ds.length + number base ds < d * base ^ ds.length + base ^ ds.length := by omega
      _ = (d + 1) * base ^ ds.length := by rw [Nat.add_mul]; simp
      _ ≤ base * base ^ ds.length := Nat.mul_le_mul_right _ h2
      _ = base ^ ds.length * base := Nat.mul_comm _ _

/-- The bits of a number written in base `2 ^ w` are the bits of its digits. -/
theorem bitsOf_number (w : Nat) (ds : List Nat) (h : ∀ d ∈ ds, d < 2 ^ w) :
    bitsOf (w * ds.length) (number (2 ^ w) ds) = ds.flatMap (bitsOf w) := by
  induction ds with
  | nil => rfl
  | cons d ds ih =>
    have hd : d < 2 ^ w := h d (by simp)
    have hds : ∀ x ∈ ds, x < 2 ^ w := fun x hx => h x (by simp [hx])
    have hlt := number_lt (2 ^ w) ds hds
    rw [← Nat.pow_mul] at hlt
    rw [List.length_cons, show w * (ds.length + 1) = w + w * ds.length by rw [Nat.mul_succ]; omega, bitsOf_add]
    rw [number_cons, ← Nat.pow_mul, List.flatMap_cons]
    congr 1
    · rw [Nat.mul_comm d, Nat.mul_add_div (Nat.two_pow_pos _), Nat.div_eq_of_lt hlt]; simp
    · rw [← bitsOf_mod _ _ _ (Nat.le_refl _), Nat.mul_comm d, Nat.mul_add_mod, Nat.mod_eq_of_lt hlt, ih hds]

end Verif.BaseN
