import Verif.Proof.Bits

/-! Helper lemmas on the base-N scanner. -/

namespace Verif.BaseN

open Verif.Spec.BaseN (Notation Accepts padByte)

/-- The variant of the model and the notation of the specification describe the same thing. -/
structure Matches (B : Variant) (L : Notation) : Prop where
  sym : ∀ b, B.sym b = true ↔ b ∈ L.alphabet
  block : B.block = L.block
  pos : 0 < L.block
  mask : ∀ n, n &&& B.mask = n % L.block
  padAt : ∀ p, B.padAt p = true ↔ p ∈ L.tails
  tails : ∀ p ∈ L.tails, 0 < p ∧ p < L.block
  noPad : padByte ∉ L.alphabet

theorem forall_uint8 {P : UInt8 → Prop} (h : ∀ n < 256, P (UInt8.ofNat n)) : ∀ b, P b := by
  intro b
  have := h b.toNat b.toNat_lt
  simpa using this

theorem matches64 : Matches base64 Spec.BaseN.base64 where
  sym := forall_uint8 (by decide +kernel)
  block := rfl
  pos := by decide
  mask n := Nat.and_two_pow_sub_one_eq_mod n 2
  padAt p := by simp [base64, Spec.BaseN.base64]
  tails := by decide
  noPad := by decide

theorem matches64Url : Matches base64Url Spec.BaseN.base64Url where
  sym := forall_uint8 (by decide +kernel)
  block := rfl
  pos := by decide
  mask n := Nat.and_two_pow_sub_one_eq_mod n 2
  padAt p := by simp [base64Url, Spec.BaseN.base64Url]
  tails := by decide
  noPad := by decide

theorem matches32 : Matches base32 Spec.BaseN.base32 where
  sym := forall_uint8 (by decide +kernel)
  block := rfl
  pos := by decide
  mask n := Nat.and_two_pow_sub_one_eq_mod n 3
  padAt p := by simp [base32, Spec.BaseN.base32, or_assoc]
  tails := by decide
  noPad := by decide

theorem asc_eq : asc '=' = padByte := by decide

theorem all_pad_iff (l : List UInt8) : l.all (· == padByte) = true ↔ l = List.replicate l.length padByte := by
  induction l with
  | nil => simp
  | cons a l ih =>
    simp only [List.all_cons, Bool.and_eq_true, beq_iff_eq, ih, List.length_cons, List.replicate_succ, List.cons.injEq]

/-- What the closing loop accepts. -/
theorem lastLoop_ok_iff (B : Variant) (hB : B.sym padByte = false) (pad : TriAllow) (n : Nat) (rest : List UInt8) (p : Nat)
    (hp : p + rest.length = n) :
    lastLoop B pad n rest p = .ok () ↔
      (∀ b ∈ rest, B.sym b = true) ∨
      ∃ body k, rest = body ++ List.replicate (k + 1) padByte ∧ (∀ b ∈ body, B.sym b = true) ∧ pad ≠ .disallow ∧
        B.padAt (p + body.length) = true ∧ n = B.block := by
  induction rest generalizing p with
  | nil => simp at hp; subst hp; unfold lastLoop; simp
  | cons e rest ih =>
    simp only [List.length_cons] at hp
    unfold lastLoop
    rw [if_neg (by omega)]
    simp only
    by_cases hs : B.sym e = true
    · rw [if_pos hs, ih (p + 1) (by omega)]
      constructor
      · rintro (h | ⟨body, k, rfl, h1, h2, h3, h4⟩)
        · left; simpa [hs] using h
        · right; refine ⟨e :: body, k, by simp, by simpa [hs] using h1, h2, ?_, h4⟩
          simpa [Nat.add_assoc, Nat.add_comm, Nat.add_left_comm] using h3
      · rintro (h | ⟨body, k, h0, h1, h2, h3, h4⟩)
        · left; simp at h; exact h.2
        · right
          cases body with
          | nil =>
            simp [List.replicate_succ] at h0
            rw [h0.1, hB] at hs; cases hs
          | cons c body =>
            simp at h0 h1
            refine ⟨body, k, h0.2, h1.2, h2, ?_, h4⟩
            simpa [Nat.add_assoc, Nat.add_comm, Nat.add_left_comm] using h3
    · rw [if_neg hs]
      have hno : ¬ ∀ b ∈ e :: rest, B.sym b = true := fun h => hs (h e (by simp))
      by_cases he : e = asc '='
      · subst he
        rw [if_pos rfl, asc_eq]
        have key : (∃ body k, padByte :: rest = body ++ List.replicate (k + 1) padByte ∧ (∀ b ∈ body, B.sym b = true) ∧
            pad ≠ .disallow ∧ B.padAt (p + body.length) = true ∧ n = B.block) ↔
            (rest = List.replicate rest.length padByte ∧ pad ≠ .disallow ∧ B.padAt p = true ∧ n = B.block) := by
          constructor
          · rintro ⟨body, k, h0, h1, h2, h3, h4⟩
            cases body with
            | nil =>
              simp [List.replicate_succ] at h0
              refine ⟨?_, h2, by simpa using h3, h4⟩
              rw [h0]; simp
            | cons c body =>
              simp at h0 h1
              rw [← h0.1, hB] at h1; simp at h1
          · rintro ⟨h0, h2, h3, h4⟩
            exact ⟨[], rest.length, by rw [List.replicate_succ, List.nil_append, ← h0], by simp, h2, by simpa using h3, h4⟩
        rw [asc_eq] at hno
        rw [or_iff_right hno, key]
        cases pad with
        | disallow => simp
        | allow =>
          simp only [ne_eq, reduceCtorEq, not_false_eq_true, true_and]
          by_cases h3 : B.padAt p = true <;> by_cases h4 : n = B.block <;> simp [h3, h4, ← all_pad_iff]
        | must =>
          simp only [ne_eq, reduceCtorEq, not_false_eq_true, true_and]
          by_cases h3 : B.padAt p = true <;> by_cases h4 : n = B.block <;> simp [h3, h4, ← all_pad_iff]
      · rw [if_neg he, or_iff_right hno]
        constructor
        · intro h; cases h
        · rintro ⟨body, k, h0, h1, h2, h3, h4⟩
          exfalso
          cases body with
          | nil => simp [List.replicate_succ] at h0; exact he (by rw [asc_eq]; exact h0.1)
          | cons c body => simp at h0 h1; exact hs (h0.1 ▸ h1.1)

/-- The closing loop never reads past the last block. -/
theorem lastLoop_ne_panic (B : Variant) (pad : TriAllow) (n : Nat) (rest : List UInt8) (p : Nat) (hp : p + rest.length = n) :
    lastLoop B pad n rest p ≠ .panic := by
  induction rest generalizing p with
  | nil => simp at hp; subst hp; unfold lastLoop; simp
  | cons e rest ih =>
    simp only [List.length_cons] at hp
    unfold lastLoop
    rw [if_neg (by omega)]
    simp only
    split
    · exact ih (p + 1) (by omega)
    · split
      · cases pad <;> simp <;> (repeat' split) <;> simp
      · simp

/-- The errors of the closing loop. -/
theorem lastLoop_err (B : Variant) (pad : TriAllow) (n : Nat) (rest : List UInt8) (p : Nat) (e : BaseError)
    (h : lastLoop B pad n rest p = .err e) :
    e = .invalid ∨ (e = .paddingDisallow ∧ pad = .disallow ∧ padByte ∈ rest) := by
  induction rest generalizing p with
  | nil => unfold lastLoop at h; split at h <;> simp at h
  | cons b rest ih =>
    unfold lastLoop at h
    split at h
    · cases h
    simp only at h
    split at h
    · rcases ih (p + 1) h with h | ⟨h1, h2, h3⟩
      · exact .inl h
      · exact .inr ⟨h1, h2, by simp [h3]⟩
    · split at h
      · rename_i hb
        cases pad with
        | disallow => simp at h; exact .inr ⟨h.symm, rfl, by simp [hb, asc_eq]⟩
        | allow => simp at h; (repeat' split at h) <;> simp at h <;> simp [← h]
        | must => simp at h; (repeat' split at h) <;> simp at h <;> simp [← h]
      · simp at h; exact .inl h.symm

/-- Length of the last block. -/
def lastLen (L : Notation) (v : List UInt8) : Nat := if v.length % L.block = 0 then L.block else v.length % L.block

theorem lastLen_le (L : Notation) (hpos : 0 < L.block) (v : List UInt8) (hv : v ≠ []) :
    0 < lastLen L v ∧ lastLen L v ≤ v.length ∧ lastLen L v ≤ L.block ∧ (v.length - lastLen L v) % L.block = 0 := by
  have hl : 0 < v.length := List.length_pos_iff.mpr hv
  unfold lastLen
  have hmod := Nat.mod_lt v.length hpos
  have hle := Nat.mod_le v.length L.block
  have hd := Nat.div_add_mod v.length L.block
  split
  · rename_i h
    have hge : L.block ≤ v.length := Nat.le_of_dvd hl (Nat.dvd_of_mod_eq_zero h)
    refine ⟨hpos, hge, Nat.le_refl _, ?_⟩
    rw [← Nat.mod_eq_sub_mod hge, h]
  · refine ⟨by omega, hle, by omega, ?_⟩
    rw [show v.length - v.length % L.block = L.block * (v.length / L.block) by omega]
    exact Nat.mul_mod_right _ _

/-- `check` after the tests on the length. -/
theorem check_eq (B : Variant) (L : Notation) (M : Matches B L) (pad : TriAllow) (v : List UInt8) (hv : v ≠ []) :
    check B pad v =
      if pad = .must ∧ v.length % L.block ≠ 0 then .err .paddingMust
      else if (v.take (v.length - lastLen L v)).all B.sym then
        lastLoop B pad (lastLen L v) (v.drop (v.length - lastLen L v)) 0
      else .err .invalid := by
  have hl : 0 < v.length := List.length_pos_iff.mpr hv
  have hmod := Nat.mod_lt v.length M.pos
  obtain ⟨h1, h2, h3, h4⟩ := lastLen_le L M.pos v hv
  unfold check
  simp only [M.mask, M.block]
  rw [if_neg (by omega)]
  have hlast : (if v.length % L.block = 0 then L.block else v.length % L.block) = lastLen L v := rfl
  rw [hlast]
  have hcond : (pad = .must ∧ lastLen L v ≠ L.block) ↔ (pad = .must ∧ v.length % L.block ≠ 0) := by
    unfold lastLen; split <;> simp_all <;> omega
  simp only [hcond]
  split
  · rfl
  · split
    · rfl
    · rename_i hgt
      have hz : v.length - lastLen L v = 0 := by
        have : v.length ≤ L.block := by omega
        unfold lastLen
        split
        · rename_i h; omega
        · rename_i h
          rcases Nat.lt_or_eq_of_le this with h' | h'
          · rw [Nat.mod_eq_of_lt h']; omega
          · rw [h'] at h; simp at h
      simp [hz]

theorem check_ne_panic (B : Variant) (L : Notation) (M : Matches B L) (pad : TriAllow) (v : List UInt8) :
    check B pad v ≠ .panic := by
  by_cases hv : v = []
  · subst hv; simp [check]
  · rw [check_eq B L M pad v hv]
    obtain ⟨h1, h2, h3, h4⟩ := lastLen_le L M.pos v hv
    split
    · simp
    · split
      · apply lastLoop_ne_panic; simp; omega
      · simp

theorem check_ok_iff (B : Variant) (L : Notation) (M : Matches B L) (pad : TriAllow) (v : List UInt8) :
    check B pad v = .ok () ↔ Accepts L pad v := by
  by_cases hv : v = []
  · subst hv; simp [check, Accepts]
  have hB : B.sym padByte = false := by
    have := M.noPad; rw [← M.sym] at this; simpa using this
  obtain ⟨h1, h2, h3, h4⟩ := lastLen_le L M.pos v hv
  have hmod := Nat.mod_lt v.length M.pos
  rw [check_eq B L M pad v hv]
  have hlen : 0 + (v.drop (v.length - lastLen L v)).length = lastLen L v := by simp; omega
  have hsplit : v = v.take (v.length - lastLen L v) ++ v.drop (v.length - lastLen L v) := (List.take_append_drop _ _).symm
  generalize hpre : v.take (v.length - lastLen L v) = pre at *
  generalize hlst : v.drop (v.length - lastLen L v) = lst at *
  have hprelen : pre.length % L.block = 0 := by rw [← hpre]; simpa using h4
  have hlstlen : lst.length = lastLen L v := by omega
  constructor
  · intro h
    split at h
    · cases h
    rename_i hmust
    split at h
    · rename_i hall
      rw [List.all_eq_true] at hall
      rw [lastLoop_ok_iff B hB pad _ lst 0 hlen] at h
      refine ⟨hv, ?_⟩
      rcases h with h | ⟨body, k, hb, hs, hpd, hat, hblk⟩
      · refine ⟨v, 0, by simp, ?_, .inl ⟨rfl, fun hm => ?_⟩⟩
        · intro b hb
          rw [hsplit, List.mem_append] at hb
          rw [← M.sym]
          exact hb.elim (hall b) (h b)
        · exact Decidable.byContradiction fun hc => hmust ⟨hm, hc⟩
      · rw [M.padAt] at hat
        simp at hat
        obtain ⟨ht1, ht2⟩ := M.tails _ hat
        have hkl : body.length + (k + 1) = lastLen L v := by rw [← hlstlen, hb]; simp
        refine ⟨pre ++ body, k + 1, by rw [List.append_assoc, ← hb]; exact hsplit, ?_, .inr ⟨by omega, ?_, hpd, ?_, ?_⟩⟩
        · intro b hb
          rw [List.mem_append] at hb
          rw [← M.sym]
          exact hb.elim (hall b) (hs b)
        · omega
        · rw [hsplit, List.length_append, Nat.add_mod, hprelen, hlstlen, hblk, M.block]; simp
        · rw [List.length_append, Nat.add_mod, hprelen]
          simp only [Nat.zero_add, Nat.mod_mod]
          rwa [Nat.mod_eq_of_lt ht2]
    · cases h
  · rintro ⟨-, body, k, hb, hs, hk⟩
    have hmustno : ¬ (pad = .must ∧ v.length % L.block ≠ 0) := by
      rintro ⟨hm, hne⟩
      rcases hk with ⟨-, hk⟩ | ⟨-, -, -, hk, -⟩
      · exact hne (hk hm)
      · exact hne hk
    rw [if_neg hmustno]
    rcases hk with ⟨rfl, -⟩ | ⟨hk0, hk1, hpd, hdiv, htl⟩
    · have hb' : v = body := by simpa using hb
      have hall : ∀ b ∈ v, B.sym b = true := by rw [hb']; intro b hb; rw [M.sym]; exact hs b hb
      have hp : pre.all B.sym = true := by
        rw [List.all_eq_true]; intro b hb; exact hall b (by rw [hsplit]; simp [hb])
      rw [if_pos hp, lastLoop_ok_iff B hB pad _ lst 0 hlen]
      left; intro b hb; exact hall b (by rw [hsplit]; simp [hb])
    · obtain ⟨ht1, ht2⟩ := M.tails _ htl
      have hlb : lastLen L v = L.block := by unfold lastLen; rw [if_pos hdiv]
      have hvl : v.length = body.length + k := by rw [hb]; simp
      have hpl : pre.length = v.length - L.block := by rw [← hpre]; simp; omega
      -- the padding lies in the last block
      have hsum : body.length % L.block + k = L.block := by
        have hd := Nat.div_add_mod body.length L.block
        have : (body.length % L.block + k) % L.block = 0 := by
          rw [Nat.mod_add_mod, ← hvl]; exact hdiv
        have hlt : body.length % L.block + k < 2 * L.block := by omega
        have hdv := Nat.div_add_mod (body.length % L.block + k) L.block
        rw [this] at hdv
        have hq : (body.length % L.block + k) / L.block = 1 := by
          have a : (body.length % L.block + k) / L.block < 2 := by
            rw [Nat.div_lt_iff_lt_mul M.pos]; exact hlt
          have b : (body.length % L.block + k) / L.block ≠ 0 := by
            intro h0; rw [h0] at hdv; simp at hdv; omega
          generalize (body.length % L.block + k) / L.block = q at a b
          omega
        rw [hq] at hdv; omega
      have hbl : body.length = pre.length + body.length % L.block := by
        have := Nat.mod_le body.length L.block; omega
      obtain ⟨tail, htail⟩ : ∃ tail, body = pre ++ tail ∧ tail.length = body.length % L.block := by
        refine ⟨body.drop pre.length, ?_, by rw [List.length_drop]; omega⟩
        have : body.take pre.length = pre := by
          have h5 : pre = v.take pre.length := by rw [hsplit]; simp
          rw [hb, List.take_append_of_le_length (by omega)] at h5
          exact h5.symm
        conv => lhs; rw [← List.take_append_drop pre.length body, this]
      have hlst' : lst = tail ++ List.replicate k padByte := by
        have := hb
        rw [hsplit, htail.1, List.append_assoc] at this
        exact List.append_cancel_left this
      have hp : pre.all B.sym = true := by
        rw [List.all_eq_true]; intro b hb; rw [M.sym]; exact hs b (by rw [htail.1]; simp [hb])
      rw [if_pos hp, lastLoop_ok_iff B hB pad _ lst 0 hlen]
      right
      refine ⟨tail, k - 1, by rw [hlst', show k - 1 + 1 = k by omega], ?_, hpd, ?_, by rw [hlb, M.block]⟩
      · intro b hb; rw [M.sym]; exact hs b (by rw [htail.1]; simp [hb])
      · rw [M.padAt]; simp [htail.2]; exact htl

end Verif.BaseN
