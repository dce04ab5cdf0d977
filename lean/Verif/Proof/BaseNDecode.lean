import Verif.Proof.BaseN

/-! Helper lemmas on the base-N decoders. -/

namespace Verif.BaseN

open Verif.Spec.BaseN (Notation padByte number encodeNopad encodePad)

/-- The encoding of the model and the notation of the specification describe the same thing. -/
structure Codec (E : Encoding) (L : Notation) : Prop where
  bit : E.bit = L.bit
  block : E.block = L.block
  bitPos : 0 < L.bit
  bitLe : L.bit ≤ 8
  pos : 0 < L.block
  full : L.bit * L.block % 8 = 0
  value_symbol : ∀ n < 2 ^ L.bit, E.value (L.alphabet.getD n 0) = some n
  symbol_value : ∀ b, ∀ n, E.value b = some n → n < 2 ^ L.bit ∧ L.alphabet.getD n 0 = b
  value_pad : E.value padByte = none

theorem symbol_value_of {E : Encoding} {L : Notation}
    (h : ∀ b, match E.value b with | none => True | some n => n < 2 ^ L.bit ∧ L.alphabet.getD n 0 = b) :
    ∀ b, ∀ n, E.value b = some n → n < 2 ^ L.bit ∧ L.alphabet.getD n 0 = b := by
  intro b n hb
  have := h b
  rw [hb] at this
  exact this

theorem codec64 : Codec enc64 Spec.BaseN.base64 where
  bit := rfl
  block := rfl
  bitPos := by decide
  bitLe := by decide
  pos := by decide
  full := by decide
  value_symbol := by decide +kernel
  symbol_value := symbol_value_of <| forall_uint8 <| by
    intro n hn
    have : ∀ n < 256, (match enc64.value (UInt8.ofNat n) with
      | none => true | some k => k < 2 ^ Spec.BaseN.base64.bit && Spec.BaseN.base64.alphabet.getD k 0 == UInt8.ofNat n) = true := by
      decide +kernel
    have := this n hn
    split <;> simp_all
  value_pad := by decide +kernel

theorem codec64Url : Codec enc64Url Spec.BaseN.base64Url where
  bit := rfl
  block := rfl
  bitPos := by decide
  bitLe := by decide
  pos := by decide
  full := by decide
  value_symbol := by decide +kernel
  symbol_value := symbol_value_of <| forall_uint8 <| by
    intro n hn
    have : ∀ n < 256, (match enc64Url.value (UInt8.ofNat n) with
      | none => true | some k => k < 2 ^ Spec.BaseN.base64Url.bit && Spec.BaseN.base64Url.alphabet.getD k 0 == UInt8.ofNat n) = true := by
      decide +kernel
    have := this n hn
    split <;> simp_all
  value_pad := by decide +kernel

theorem codec32 : Codec enc32 Spec.BaseN.base32 where
  bit := rfl
  block := rfl
  bitPos := by decide
  bitLe := by decide
  pos := by decide
  full := by decide
  value_symbol := by decide +kernel
  symbol_value := symbol_value_of <| forall_uint8 <| by
    intro n hn
    have : ∀ n < 256, (match enc32.value (UInt8.ofNat n) with
      | none => true | some k => k < 2 ^ Spec.BaseN.base32.bit && Spec.BaseN.base32.alphabet.getD k 0 == UInt8.ofNat n) = true := by
      decide +kernel
    have := this n hn
    split <;> simp_all
  value_pad := by decide +kernel

variable {E : Encoding} {L : Notation}

theorem mapM_option_eq {α β : Type} (f : α → Option β) (g : β → α) (l : List β) (h : ∀ x ∈ l, f (g x) = some x) :
    (l.map g).mapM f = some l := by
  induction l with
  | nil => rfl
  | cons x l ih =>
    simp [List.mapM_cons, h x (by simp), ih (fun y hy => h y (by simp [hy]))]

theorem mapM_option_some {α β : Type} (f : α → Option β) (v : List α) (l : List β) (h : v.mapM f = some l) :
    v.length = l.length ∧ (∀ y ∈ l, ∃ x ∈ v, f x = some y) ∧ ∀ g : β → α, (∀ x y, f x = some y → g y = x) → l.map g = v := by
  induction v generalizing l with
  | nil => simp at h; subst h; simp
  | cons x v ih =>
    simp only [List.mapM_cons, Option.bind_eq_bind, Option.pure_def] at h
    cases hx : f x with
    | none => simp [hx] at h
    | some y =>
      cases hv : v.mapM f with
      | none => simp [hx, hv] at h
      | some l' =>
        simp [hx, hv] at h
        subst h
        obtain ⟨h1, h2, h3⟩ := ih l' hv
        refine ⟨by simp [h1], ?_, ?_⟩
        · intro z hz
          simp at hz
          rcases hz with rfl | hz
          · exact ⟨x, by simp, hx⟩
          · obtain ⟨w, hw, he⟩ := h2 z hz
            exact ⟨w, by simp [hw], he⟩
        · intro g hg
          simp [h3 g hg, hg x y hx]

theorem mapM_option_mem {α β : Type} (f : α → Option β) (v : List α) (l : List β) (h : v.mapM f = some l) :
    ∀ x ∈ v, ∃ y, f x = some y := by
  induction v generalizing l with
  | nil => simp
  | cons x v ih =>
    simp only [List.mapM_cons, Option.bind_eq_bind, Option.pure_def] at h
    cases hx : f x with
    | none => simp [hx] at h
    | some y =>
      cases hv : v.mapM f with
      | none => simp [hx, hv] at h
      | some l' =>
        intro z hz
        simp at hz
        rcases hz with rfl | hz
        · exact ⟨y, hx⟩
        · exact ih l' hv z hz

theorem flatMap_bitsOf_map_ofBits (w : Nat) (gs : List (List Bool)) (h : ∀ g ∈ gs, g.length = w) :
    (gs.map ofBits).flatMap (bitsOf w) = gs.flatten := by
  induction gs with
  | nil => rfl
  | cons g gs ih =>
    simp only [List.map_cons, List.flatMap_cons, List.flatten_cons]
    rw [ih (fun g' hg => h g' (by simp [hg]))]
    congr 1
    rw [← h g (by simp)]
    exact bitsOf_ofBits g

theorem length_flatMap_bitsOf (w : Nat) (l : List Nat) : (l.flatMap (bitsOf w)).length = w * l.length := by
  induction l with
  | nil => rfl
  | cons x l ih => simp [ih, Nat.mul_succ, Nat.add_comm]

/-- The bits written by the encoder. -/
theorem encode_eq (d : List UInt8) (m k : Nat) (hm : m = (8 * d.length + L.bit - 1) / L.bit)
    (hk : L.bit * m = 8 * d.length + k) :
    encodeNopad L d = ((groups L.bit m ((d.map UInt8.toNat).flatMap (bitsOf 8) ++ List.replicate k false)).map ofBits).map
      fun n => L.alphabet.getD n 0 := by
  unfold encodeNopad
  simp only
  rw [← hm, show L.bit * m - 8 * d.length = k by omega]
  rw [show (fun j => L.alphabet.getD (number 256 (List.map UInt8.toNat d) * 2 ^ k / 2 ^ (L.bit * (m - 1 - j)) % 2 ^ L.bit) 0)
    = (fun n => L.alphabet.getD n 0) ∘ (fun j => number 256 (List.map UInt8.toNat d) * 2 ^ k / 2 ^ (L.bit * (m - 1 - j)) % 2 ^ L.bit)
    from rfl, ← List.map_map, digits_eq_groups]
  rw [hk, bitsOf_mul_two_pow]
  have := bitsOf_number 8 (d.map UInt8.toNat) (by
    intro x hx; simp at hx; obtain ⟨b, _, rfl⟩ := hx; exact b.toNat_lt)
  simp only [List.length_map] at this
  rw [show (2 : Nat) ^ 8 = 256 from rfl] at this
  rw [this]

/-- Number of symbols and of padding bits. -/
theorem symbols_count (hb : 0 < L.bit) (n : Nat) :
    ∃ k, L.bit * ((8 * n + L.bit - 1) / L.bit) = 8 * n + k ∧ k < L.bit := by
  have h1 := Nat.div_add_mod (8 * n + L.bit - 1) L.bit
  have h2 := Nat.mod_lt (8 * n + L.bit - 1) hb
  exact ⟨L.bit * ((8 * n + L.bit - 1) / L.bit) - 8 * n, by omega, by omega⟩

theorem length_encodeNopad (d : List UInt8) : (encodeNopad L d).length = (8 * d.length + L.bit - 1) / L.bit := by
  simp [encodeNopad]

theorem toNat_flatMap_groups (d : List UInt8) :
    (groups 8 d.length ((d.map UInt8.toNat).flatMap (bitsOf 8))).map (fun g => (ofBits g).toUInt8) = d := by
  have := groups_flatMap 8 (bitsOf 8) (length_bitsOf 8) (d.map UInt8.toNat)
  simp only [List.length_map] at this
  rw [this, List.map_map, List.map_map]
  conv => rhs; rw [← List.map_id d]
  apply List.map_congr_left
  intro b _
  simp only [Function.comp, ofBits_bitsOf, id]
  rw [Nat.mod_eq_of_lt b.toNat_lt]
  simp [Nat.toUInt8]

/-- Decoding inverts encoding, without padding. -/
theorem decodeNopad_encodeNopad (C : Codec E L) (d : List UInt8) : E.decodeNopad (encodeNopad L d) = some d := by
  obtain ⟨k, hk, hkl⟩ := symbols_count C.bitPos d.length
  have hlen := length_encodeNopad (L := L) d
  have henc := encode_eq (L := L) d _ k rfl hk
  generalize hm : (8 * d.length + L.bit - 1) / L.bit = m at *
  have h8 := C.bitLe
  unfold Encoding.decodeNopad
  rw [hlen, C.bit, hk, if_pos (by omega), henc]
  have hbl : ((d.map UInt8.toNat).flatMap (bitsOf 8)).length = 8 * d.length := by
    rw [length_flatMap_bitsOf]; simp
  generalize hbits : (d.map UInt8.toNat).flatMap (bitsOf 8) = bits at *
  have hall : (bits ++ List.replicate k false).length = L.bit * m := by simp [hbl, hk]
  have hg : ∀ g ∈ groups L.bit m (bits ++ List.replicate k false), g.length = L.bit :=
    groups_length_mem _ _ _ (by omega)
  rw [mapM_option_eq]
  · simp only
    rw [flatMap_bitsOf_map_ofBits _ _ hg, flatten_groups _ _ _ hall]
    rw [hall, hk]
    have hn : (8 * d.length + k) / 8 = d.length := by omega
    rw [hn, List.drop_left' hbl, groups_append _ _ _ _ hbl]
    rw [if_pos (by simp)]
    rw [← hbits, toNat_flatMap_groups]
  · intro x hx
    apply C.value_symbol
    simp at hx
    obtain ⟨g, hgm, rfl⟩ := hx
    rw [← hg g hgm]
    exact ofBits_lt g

/-- Encoding inverts decoding, without padding. -/
theorem encodeNopad_of_decodeNopad (C : Codec E L) (v d : List UInt8) (h : E.decodeNopad v = some d) :
    encodeNopad L d = v := by
  unfold Encoding.decodeNopad at h
  split at h
  · rename_i hlen
    cases hv : v.mapM E.value with
    | none => simp [hv] at h
    | some vals =>
      simp only [hv] at h
      split at h
      · rename_i hz
        obtain ⟨h1, h2, h3⟩ := mapM_option_some _ _ _ hv
        have hval : ∀ y ∈ vals, y < 2 ^ L.bit := by
          intro y hy
          obtain ⟨x, _, hx⟩ := h2 y hy
          exact (C.symbol_value x y hx).1
        have hmapv := h3 (fun n => L.alphabet.getD n 0) (fun x y hxy => (C.symbol_value x y hxy).2)
        rw [C.bit] at *
        have hbl : (vals.flatMap (bitsOf L.bit)).length = L.bit * v.length := by
          rw [length_flatMap_bitsOf, h1]
        generalize hbits : vals.flatMap (bitsOf L.bit) = bits at *
        have hd : d = (groups 8 (bits.length / 8) bits).map fun g => (ofBits g).toUInt8 := by
          simpa using h.symm
        generalize hn : bits.length / 8 = n at *
        have hdl : d.length = n := by rw [hd]; simp
        generalize hr : L.bit * v.length % 8 = r at *
        have hb8 : L.bit * v.length = 8 * n + r := by
          rw [← hr, ← hn, hbl]; omega
        have hm : v.length = (8 * d.length + L.bit - 1) / L.bit := by
          rw [hdl]
          have hbp := C.bitPos
          symm
          rw [Nat.div_eq_iff hbp, Nat.mul_comm v.length, hb8]
          omega
        rw [encode_eq d v.length r hm (by rw [hdl]; exact hb8)]
        suffices goal : (groups L.bit v.length ((d.map UInt8.toNat).flatMap (bitsOf 8) ++ List.replicate r false)).map ofBits = vals by
          rw [goal]; exact hmapv
        -- the bits of `d` are the first bits of the text
        have hgl : ∀ g ∈ groups 8 n bits, g.length = 8 := groups_length_mem _ _ _ (by omega)
        have hdb : (d.map UInt8.toNat).flatMap (bitsOf 8) = bits.take (8 * n) := by
          have e1 : groups 8 n bits = groups 8 n (bits.take (8 * n)) := by
            conv => lhs; rw [← List.take_append_drop (8 * n) bits]
            rw [groups_append]
            rw [List.length_take]; omega
          have e2 : d.map UInt8.toNat = (groups 8 n bits).map ofBits := by
            rw [hd, List.map_map]
            apply List.map_congr_left
            intro g hg
            have := ofBits_lt g
            rw [hgl g hg] at this
            simp [Nat.toUInt8, Nat.mod_eq_of_lt this]
          rw [e2, flatMap_bitsOf_map_ofBits _ _ hgl, e1, flatten_groups]
          rw [List.length_take]; omega
        have hzr : bits.drop (8 * n) = List.replicate r false := by
          rw [List.all_eq_true] at hz
          rw [List.eq_replicate_iff]
          refine ⟨by rw [List.length_drop]; omega, ?_⟩
          intro b hb
          simpa using hz b hb
        rw [hdb, ← hzr, List.take_append_drop, ← hbits, h1, groups_flatMap _ _ (length_bitsOf _), List.map_map]
        conv => rhs; rw [← List.map_id vals]
        apply List.map_congr_left
        intro x hx
        simp [ofBits_bitsOf, Nat.mod_eq_of_lt (hval x hx)]
      · cases h
  · cases h

/-- Blocks decode on their own. -/
theorem decodeNopad_append (C : Codec E L) (a b : List UInt8) (ha : a.length = L.block) :
    E.decodeNopad (a ++ b) = (E.decodeNopad a).bind fun x => (E.decodeNopad b).map fun y => x ++ y := by
  have hf := C.full
  have hbp := C.bitPos
  unfold Encoding.decodeNopad
  simp only [C.bit]
  have hla : L.bit * a.length % 8 = 0 := by rw [ha]; exact hf
  have hlen : L.bit * (a ++ b).length % 8 = L.bit * b.length % 8 := by
    rw [List.length_append, Nat.mul_add, Nat.add_mod, hla]; simp
  rw [hlen, hla, if_pos hbp]
  by_cases hb : L.bit * b.length % 8 < L.bit
  · rw [if_pos hb, if_pos hb, List.mapM_append]
    cases hva : a.mapM E.value with
    | none => simp
    | some va =>
      cases hvb : b.mapM E.value with
      | none => simp
      | some vb =>
        have h1 := (mapM_option_some _ _ _ hva).1
        have hA : (va.flatMap (bitsOf L.bit)).length = L.bit * a.length := by rw [length_flatMap_bitsOf, h1]
        simp only [Option.bind_eq_bind, Option.bind_some, Option.pure_def, List.flatMap_append]
        generalize va.flatMap (bitsOf L.bit) = A at *
        generalize vb.flatMap (bitsOf L.bit) = B at *
        obtain ⟨q, hq⟩ : ∃ q, A.length = 8 * q := ⟨A.length / 8, by omega⟩
        have hn : (A ++ B).length / 8 = q + B.length / 8 := by simp; omega
        have hA8 : A.length / 8 = q := by omega
        rw [hn, hA8, groups_add, groups_append _ _ _ _ hq, List.drop_left' hq]
        rw [show 8 * (q + B.length / 8) = A.length + 8 * (B.length / 8) by omega, List.drop_append, ← hq]
        rw [List.drop_eq_nil_of_le (show A.length ≤ A.length + 8 * (B.length / 8) by omega)]
        simp
        by_cases hB : true ∈ List.drop (8 * (B.length / 8)) B <;> simp [hB]
  · rw [if_neg hb, if_neg hb]; simp

theorem takeWhile_pad (body : List UInt8) (k : Nat) (h : padByte ∉ body) :
    ((body ++ List.replicate k padByte).reverse.takeWhile (· == asc '=')).length = k := by
  rw [List.reverse_append, List.reverse_replicate, asc_eq]
  rw [List.takeWhile_append_of_pos (by simp)]
  have : body.reverse.takeWhile (· == padByte) = [] := by
    cases hb : body.reverse with
    | nil => rfl
    | cons x xs =>
      have : x ∈ body := by rw [← List.mem_reverse, hb]; simp
      have hx : x ≠ padByte := fun hx => h (hx ▸ this)
      simp [hx]
  simp [this]

/-- A padded text without `=` before its padding decodes as its unpadded part. -/
theorem decodeBlocks_eq (C : Codec E L) (n : Nat) (body : List UInt8) (k : Nat) (hk : k < L.block)
    (hlen : body.length + k = L.block * n) (h : padByte ∉ body) :
    E.decodeBlocks n (body ++ List.replicate k padByte) = E.decodeNopad body := by
  induction n generalizing body with
  | zero =>
    have hb : body = [] := List.length_eq_zero_iff.mp (by omega)
    subst hb
    have h2 : E.decodeNopad [] = some [] := by
      have := C.bitPos
      simp [Encoding.decodeNopad, C.bit, this, groups]
    rw [h2]; rfl
  | succ n ih =>
    rw [Nat.mul_succ] at hlen
    have hpos := C.pos
    by_cases hge : L.block ≤ body.length
    · obtain ⟨a, b, rfl, ha⟩ : ∃ a b, body = a ++ b ∧ a.length = L.block :=
        ⟨body.take L.block, body.drop L.block, (List.take_append_drop _ _).symm, by simp; omega⟩
      simp only [List.mem_append, not_or] at h
      have hblk : E.decodeBlock a = E.decodeNopad a := by
        have := takeWhile_pad a 0 h.1
        simp only [List.replicate_zero, List.append_nil] at this
        unfold Encoding.decodeBlock
        have hf := C.full
        have hbp := C.bitPos
        simp only [this, C.bit, Nat.sub_zero, ha, hf]
        rw [if_pos ⟨hpos, hbp⟩, ← ha, List.take_length]
      rw [decodeNopad_append C a b ha]
      unfold Encoding.decodeBlocks
      rw [C.block, List.append_assoc, List.take_left' ha, List.drop_left' ha, hblk]
      rw [ih b (by simp at hlen; omega) h.2]
      cases E.decodeNopad a <;> simp
      cases E.decodeNopad b <;> simp
    · have hn : n = 0 := by
        rcases Nat.eq_zero_or_pos n with h0 | h0
        · exact h0
        · have : L.block ≤ L.block * n := Nat.le_mul_of_pos_right _ h0
          omega
      subst hn
      have hl : (body ++ List.replicate k padByte).length = L.block := by simp; omega
      unfold Encoding.decodeBlocks
      rw [C.block, ← hl, List.take_length]
      have hblk : E.decodeBlock (body ++ List.replicate k padByte) = E.decodeNopad body := by
        unfold Encoding.decodeBlock
        simp only [takeWhile_pad body k h, C.bit, hl]
        rw [show L.block - k = body.length by omega]
        split
        · rw [List.take_left]
        · rename_i hc
          have : 0 < body.length := by omega
          unfold Encoding.decodeNopad
          rw [C.bit, if_neg (fun hc' => hc ⟨this, hc'⟩)]
      rw [hblk]
      cases E.decodeNopad body <;> simp [Encoding.decodeBlocks]

theorem decodePad_eq (C : Codec E L) (body : List UInt8) (k : Nat) (hk : k < L.block)
    (hlen : (body.length + k) % L.block = 0) (h : padByte ∉ body) :
    E.decodePad (body ++ List.replicate k padByte) = E.decodeNopad body := by
  unfold Encoding.decodePad
  rw [C.block, List.length_append, List.length_replicate, if_pos hlen]
  apply decodeBlocks_eq C _ _ _ hk _ h
  have := Nat.div_add_mod (body.length + k) L.block
  omega

theorem padByte_notMem_encodeNopad (C : Codec E L) (d : List UInt8) : padByte ∉ encodeNopad L d := by
  intro hmem
  have h := decodeNopad_encodeNopad C d
  unfold Encoding.decodeNopad at h
  split at h
  · cases hv : (encodeNopad L d).mapM E.value with
    | none => simp [hv] at h
    | some vals =>
      obtain ⟨y, hy⟩ := mapM_option_mem _ _ _ hv _ hmem
      rw [C.value_pad] at hy; cases hy
  · cases h

theorem padCount (hpos : 0 < L.block) (n : Nat) :
    (L.block - n % L.block) % L.block < L.block ∧ (n + (L.block - n % L.block) % L.block) % L.block = 0 := by
  refine ⟨Nat.mod_lt _ hpos, ?_⟩
  have h1 := Nat.mod_lt n hpos
  rw [Nat.add_mod_mod]
  have h2 := Nat.div_add_mod n L.block
  rw [show n + (L.block - n % L.block) = L.block * (n / L.block) + L.block * 1 by omega, ← Nat.mul_add]
  exact Nat.mul_mod_right _ _

theorem decodePad_encodePad (C : Codec E L) (d : List UInt8) : E.decodePad (encodePad L d) = some d := by
  unfold encodePad
  obtain ⟨h1, h2⟩ := padCount C.pos (encodeNopad L d).length
  simp only
  rw [decodePad_eq C _ _ h1 h2 (padByte_notMem_encodeNopad C d), decodeNopad_encodeNopad C]

end Verif.BaseN
