import Verif.Model.Hex
import Verif.Spec.Hex
import Verif.Proof.BaseN

/-! Helper lemmas on hexadecimal texts. -/

namespace Verif.Hex

open Verif.Spec.Hex

theorem digit_eq (case : CaseOption) : ∀ e : UInt8, digit case e = if e ∈ symbols case then some (digitValue e) else none := by
  cases case <;> exact BaseN.forall_uint8 (by decide +kernel)

theorem isDigit_iff (case : CaseOption) : ∀ e : UInt8, isDigit case e = true ↔ e ∈ symbols case := by
  cases case <;> exact BaseN.forall_uint8 (by decide +kernel)

theorem digitValue_lt (case : CaseOption) : ∀ e ∈ symbols case, digitValue e < 16 := by
  cases case <;> decide

/-- The decoding loop computes the value of its digits. -/
theorem decode_eq (case : CaseOption) (w acc : Nat) (ds : List UInt8) (h : (acc + 1) * 16 ^ ds.length ≤ 2 ^ w) :
    decode case w acc ds =
      if ∀ b ∈ ds, b ∈ symbols case then .ok (acc * 16 ^ ds.length + value ds) else .err .invalid := by
  induction ds generalizing acc with
  | nil => simp [decode, value]
  | cons e ds ih =>
    unfold decode
    rw [digit_eq]
    by_cases he : e ∈ symbols case
    · simp only [he, if_true]
      have hd := digitValue_lt case e he
      have hp : 0 < 16 ^ ds.length := Nat.pow_pos (by decide)
      rw [List.length_cons, Nat.pow_succ] at h
      have hacc : (acc <<< 4) % 2 ^ w = 2 ^ 4 * acc := by
        rw [Nat.shiftLeft_eq, Nat.mul_comm, Nat.mod_eq_of_lt]
        have : acc * 16 < (acc + 1) * (16 ^ ds.length * 16) := by
          have h1 : (acc + 1) * 16 ≤ (acc + 1) * (16 ^ ds.length * 16) :=
            Nat.mul_le_mul_left _ (Nat.le_mul_of_pos_left _ hp)
          omega
        omega
      rw [hacc, ← Nat.two_pow_add_eq_or_of_lt hd]
      rw [ih]
      · by_cases hall : ∀ b ∈ ds, b ∈ symbols case
        · rw [if_pos hall, if_pos (by simpa [he] using hall)]
          congr 1
          simp only [value, List.length_cons, Nat.pow_succ, Nat.add_mul]
          rw [show 2 ^ 4 * acc * 16 ^ ds.length = acc * (16 ^ ds.length * 16) by
            rw [Nat.mul_comm (16 ^ ds.length) 16, ← Nat.mul_assoc, Nat.mul_comm acc 16]]
          omega
        · rw [if_neg hall, if_neg (fun hc => hall (fun b hb => hc b (by simp [hb])))]
      · refine Nat.le_trans ?_ h
        rw [Nat.mul_comm (16 ^ ds.length) 16, ← Nat.mul_assoc]
        apply Nat.mul_le_mul_right
        omega
    · simp only [he, if_false]
      rw [if_neg (fun hc => he (hc e (by simp)))]

theorem decode_ne_panic (case : CaseOption) (w acc : Nat) (ds : List UInt8) : decode case w acc ds ≠ .panic := by
  induction ds generalizing acc with
  | nil => simp [decode]
  | cons e ds ih => unfold decode; split <;> simp_all

theorem checkDigits_eq (case : CaseOption) (ds : List UInt8) :
    checkDigits case ds = if ∀ b ∈ ds, b ∈ symbols case then .ok () else .err .invalid := by
  induction ds with
  | nil => simp [checkDigits]
  | cons e ds ih =>
    unfold checkDigits
    rw [ih]
    by_cases he : e ∈ symbols case
    · simp [(isDigit_iff case e).mpr he, he]
    · have : ¬ isDigit case e = true := fun h => he ((isDigit_iff case e).mp h)
      simp [this, he]

/-! ## The `Allow` scanner -/

/-- The `Allow` scanner as a recursion on the remaining bytes. -/
def scan (sep : UInt8) : List Nat → List UInt8 → Out HexError (List UInt8)
  | [], _ => .panic
  | [n], rest => if rest.length ≠ n then .err .invalid else .ok rest
  | n :: ns, rest =>
    match rest[n]? with
    | none => .panic
    | some b => (scan sep ns (if b ≠ sep then rest.drop n else rest.drop (n + 1))).map (rest.take n ++ ·)

theorem bind_assoc {ε α β γ : Type} (x : Out ε α) (f : α → Out ε β) (g : β → Out ε γ) :
    (x.bind f).bind g = x.bind fun a => (f a).bind g := by cases x <;> rfl

theorem group_eq (sep : UInt8) (bytes : List UInt8) (lo hi c n : Nat) (hc : c ≤ lo) (hn : hi = lo + n) :
    group sep bytes lo hi c =
      match (bytes.drop (lo - c))[n]? with
      | none => .panic
      | some b => .ok ((bytes.drop (lo - c)).take n, if b ≠ sep then c + 1 else c) := by
  subst hn
  unfold group slice idx
  rw [List.getElem?_drop, show lo - c + n = lo + n - c by omega, show lo + n - c - (lo - c) = n by omega]
  by_cases h : lo + n - c < bytes.length
  · rw [if_pos (by omega), List.getElem?_eq_getElem h]
    simp
  · rw [List.getElem?_eq_none (by omega)]
    split <;> simp

theorem group_bind (sep : UInt8) (bytes : List UInt8) (lo hi c n m : Nat) (ns : List Nat) (hc : c ≤ lo) (hc' : c + 1 ≤ hi) (hn : hi = lo + n)
    (pre : List UInt8) (F : List UInt8 × Nat → Out HexError (List UInt8))
    (hF : ∀ g c', c' ≤ hi → c' ≤ c + 1 → hi + 1 - c' ≤ bytes.length →
      F (g, c') = (scan sep (m :: ns) (bytes.drop (hi + 1 - c'))).map (fun ds => pre ++ g ++ ds)) :
    (group sep bytes lo hi c).bind F = (scan sep (n :: m :: ns) (bytes.drop (lo - c))).map (fun ds => pre ++ ds) := by
  rw [group_eq sep bytes lo hi c n hc hn]
  rw [scan]
  · cases hb : (bytes.drop (lo - c))[n]? with
    | none => simp
    | some b =>
      have hlen : lo - c + n < bytes.length := by
        rw [List.getElem?_drop] at hb
        exact (List.getElem?_eq_some_iff.mp hb).1
      simp only [Out.bind_ok]
      by_cases hs : b = sep
      · simp only [hs, ne_eq, not_true_eq_false, if_false]
        rw [hF _ c (by omega) (by omega) (by omega), List.drop_drop, show lo - c + (n + 1) = hi + 1 - c by omega]
        cases scan sep (m :: ns) (bytes.drop (hi + 1 - c)) <;> simp
      · simp only [hs, ne_eq, not_false_eq_true, if_true]
        rw [hF _ (c + 1) hc' (by omega) (by omega), List.drop_drop, show lo - c + n = hi + 1 - (c + 1) by omega]
        cases scan sep (m :: ns) (bytes.drop (hi + 1 - (c + 1))) <;> simp
  · simp

theorem le_sum_of_mem (l : List Nat) (x : Nat) (h : x ∈ l) : x ≤ l.sum := by
  induction l with
  | nil => simp at h
  | cons y l ih =>
    simp at h
    rcases h with rfl | h
    · simp
    · have := ih h; simp; omega

theorem scan_ne_panic (sep : UInt8) (n : Nat) (ns : List Nat) (rest : List UInt8)
    (h : (n :: ns).sum + (n :: ns).length ≤ rest.length + (n :: ns).getLast (by simp) + 1) : scan sep (n :: ns) rest ≠ .panic := by
  induction ns generalizing n rest with
  | nil => unfold scan; split <;> simp
  | cons m ns ih =>
    rw [scan]
    · have hl : n < rest.length := by
        simp only [List.sum_cons, List.length_cons] at h
        rw [List.getLast_cons (by simp)] at h
        have : (m :: ns).getLast (by simp) ≤ (m :: ns).sum := by
          exact le_sum_of_mem _ _ (List.getLast_mem _)
        simp only [List.sum_cons] at this
        omega
      rw [List.getElem?_eq_getElem hl]
      simp only
      have := ih m (if rest[n] ≠ sep then rest.drop n else rest.drop (n + 1)) (by
        simp only [List.sum_cons, List.length_cons] at h ⊢
        rw [List.getLast_cons (by simp)] at h
        split <;> simp only [List.length_drop] <;> omega)
      cases hx : scan sep (m :: ns) (if rest[n] ≠ sep then rest.drop n else rest.drop (n + 1)) with
      | ok a => simp
      | err a => simp
      | panic => exact absurd hx this
    · simp

theorem scan_err (sep : UInt8) (sizes : List Nat) (rest : List UInt8) (e : HexError) (h : scan sep sizes rest = .err e) :
    e = .invalid := by
  induction sizes generalizing rest with
  | nil => simp [scan] at h
  | cons n ns ih =>
    cases ns with
    | nil =>
      simp only [scan] at h
      split at h
      · simpa using h.symm
      · cases h
    | cons m ns =>
      rw [scan] at h
      · cases hb : rest[n]? with
        | none => simp [hb] at h
        | some b =>
          simp only [hb] at h
          cases hx : scan sep (m :: ns) (if b ≠ sep then rest.drop n else rest.drop (n + 1)) with
          | err a => rw [hx] at h; simp at h; subst h; exact ih _ hx
          | panic => rw [hx] at h; cases h
          | ok ds' => rw [hx] at h; cases h
      · simp

theorem scan_sound (sep : UInt8) (sizes : List Nat) (rest ds : List UInt8) (h : scan sep sizes rest = .ok ds) :
    Grouped (.allow sep) sizes ds rest := by
  induction sizes generalizing rest ds with
  | nil => simp [scan] at h
  | cons n ns ih =>
    cases ns with
    | nil =>
      simp only [scan] at h
      split at h
      · cases h
      · rename_i hl
        simp at h
        subst h
        exact ⟨by simpa using hl, rfl⟩
    | cons m ns =>
      rw [scan] at h
      · cases hb : rest[n]? with
        | none => simp [hb] at h
        | some b =>
          simp only [hb] at h
          obtain ⟨hlen, hbe⟩ := List.getElem?_eq_some_iff.mp hb
          cases hx : scan sep (m :: ns) (if b ≠ sep then rest.drop n else rest.drop (n + 1)) with
          | err a => rw [hx] at h; cases h
          | panic => rw [hx] at h; cases h
          | ok ds' =>
            rw [hx] at h
            simp at h
            have := ih _ _ hx
            by_cases hs : b = sep
            · simp only [hs, ne_eq, not_true_eq_false, if_false] at this
              refine ⟨rest.take n, ds', [sep], rest.drop (n + 1), by simp; omega, h.symm, ?_, .inr rfl, this⟩
              rw [← hs, ← hbe, List.append_assoc, List.singleton_append, ← List.drop_eq_getElem_cons hlen, List.take_append_drop]
            · simp only [hs, ne_eq, not_false_eq_true, if_true] at this
              exact ⟨rest.take n, ds', [], rest.drop n, by simp; omega, h.symm, by simp, .inl rfl, this⟩
      · simp

/-- A grouping starts with its first digit. -/
theorem grouped_head (sep : SeparatorOption) (n : Nat) (ns : List Nat) (hn : 0 < n) (ds text : List UInt8)
    (h : Grouped sep (n :: ns) ds text) : ∃ b ds' text', ds = b :: ds' ∧ text = b :: text' := by
  have key : ∀ g : List UInt8, g.length = n → ∃ b g', g = b :: g' := by
    intro g hg
    cases g with
    | nil => simp at hg; omega
    | cons b g' => exact ⟨b, g', rfl⟩
  cases ns with
  | nil =>
    obtain ⟨h1, rfl⟩ := h
    obtain ⟨b, g', rfl⟩ := key _ h1
    exact ⟨b, g', g', rfl, rfl⟩
  | cons m ns =>
    obtain ⟨g, ds', s, text', h1, rfl, rfl, _, _⟩ := h
    obtain ⟨b, g', rfl⟩ := key _ h1
    exact ⟨b, g' ++ ds', g' ++ s ++ text', by simp, by simp⟩

theorem scan_complete (sep : UInt8) (sizes : List Nat) (hs : sizes ≠ []) (hpos : ∀ n ∈ sizes, 0 < n) (text ds : List UInt8)
    (hsep : sep ∉ ds) (h : Grouped (.allow sep) sizes ds text) : scan sep sizes text = .ok ds := by
  induction sizes generalizing text ds with
  | nil => exact absurd rfl hs
  | cons n ns ih =>
    cases ns with
    | nil =>
      obtain ⟨h1, rfl⟩ := h
      simp [scan, h1]
    | cons m ns =>
      obtain ⟨g, ds', s, text', h1, rfl, rfl, hb, hrest⟩ := h
      have hm : 0 < m := hpos m (by simp)
      obtain ⟨b, ds'', text'', hd, ht⟩ := grouped_head _ m ns hm _ _ hrest
      have ih' := ih (by simp) (fun k hk => hpos k (by simp [hk])) text' ds' (by simp at hsep; exact hsep.2) hrest
      rw [scan]
      · rcases hb with rfl | rfl
        · have hb' : (g ++ [] ++ text')[n]? = some b := by
            rw [List.append_nil, List.getElem?_append_right (by omega), h1, ht]; simp
          have hne : b ≠ sep := by
            rintro rfl; apply hsep; rw [hd]; simp
          rw [hb']
          simp only [hne, ne_eq, not_false_eq_true, if_true]
          rw [List.append_nil, List.drop_left' h1, ih', List.take_left' h1]; simp
        · have hb' : (g ++ [sep] ++ text')[n]? = some sep := by
            rw [List.append_assoc, List.getElem?_append_right (by omega), h1]; simp
          rw [hb']
          simp only [ne_eq, not_true_eq_false, if_false]
          rw [List.drop_left' (by simp [h1]), ih', List.append_assoc, List.take_left' h1]; simp
      · simp

/-! ## Groupings -/

theorem grouped_ds_length (sep : SeparatorOption) (sizes : List Nat) (ds text : List UInt8) (h : Grouped sep sizes ds text) :
    ds.length = sizes.sum := by
  induction sizes generalizing ds text with
  | nil => simp [Grouped] at h; simp [h]
  | cons n ns ih =>
    cases ns with
    | nil => simp [h.1]
    | cons m ns =>
      obtain ⟨g, ds', s, text', h1, rfl, rfl, hb, hrest⟩ := h
      rw [List.length_append, h1, ih _ _ hrest]
      simp

theorem grouped_disallow_iff (sizes : List Nat) (ds text : List UInt8) :
    Grouped .disallow sizes ds text ↔ text = ds ∧ ds.length = sizes.sum := by
  constructor
  · intro h
    refine ⟨?_, grouped_ds_length _ _ _ _ h⟩
    induction sizes generalizing ds text with
    | nil => simp [Grouped] at h; simp [h]
    | cons n ns ih =>
      cases ns with
      | nil => exact h.2
      | cons m ns =>
        obtain ⟨g, ds', s, text', h1, rfl, rfl, rfl, hrest⟩ := h
        rw [ih _ _ hrest]; simp
  · rintro ⟨rfl, h⟩
    induction sizes generalizing text with
    | nil => simp at h; simp [Grouped, h]
    | cons n ns ih =>
      cases ns with
      | nil => simp at h; exact ⟨h, rfl⟩
      | cons m ns =>
        refine ⟨text.take n, text.drop n, [], text.drop n, ?_, by simp, by simp, rfl, ih _ ?_⟩
        · simp at h ⊢; omega
        · simp at h ⊢; omega

theorem grouped_must_length (sep : UInt8) (n : Nat) (ns : List Nat) (ds text : List UInt8)
    (h : Grouped (.must sep) (n :: ns) ds text) : text.length = (n :: ns).sum + ns.length := by
  induction ns generalizing n ds text with
  | nil => rw [h.2, h.1]; simp
  | cons m ns ih =>
    obtain ⟨g, ds', s, text', h1, rfl, rfl, rfl, hrest⟩ := h
    have := ih _ _ _ hrest
    simp [this, h1]
    omega

theorem grouped_allow_length (sep : UInt8) (n : Nat) (ns : List Nat) (ds text : List UInt8)
    (h : Grouped (.allow sep) (n :: ns) ds text) :
    (n :: ns).sum ≤ text.length ∧ text.length ≤ (n :: ns).sum + ns.length := by
  induction ns generalizing n ds text with
  | nil => rw [h.2, h.1]; simp
  | cons m ns ih =>
    obtain ⟨g, ds', s, text', h1, rfl, rfl, hb, hrest⟩ := h
    have := ih _ _ _ hrest
    simp at this
    rcases hb with rfl | rfl
    · simp [h1]; omega
    · simp [h1]; omega

theorem grouped_must_cons (sep : UInt8) (n m : Nat) (ns : List Nat) (ds rest : List UInt8) (hl : n < rest.length) :
    Grouped (.must sep) (n :: m :: ns) ds rest ↔
      rest[n]? = some sep ∧ ∃ ds', ds = rest.take n ++ ds' ∧ Grouped (.must sep) (m :: ns) ds' (rest.drop (n + 1)) := by
  constructor
  · rintro ⟨g, ds', s, text', h1, rfl, rfl, rfl, hrest⟩
    refine ⟨?_, ds', ?_, ?_⟩
    · rw [List.append_assoc, List.getElem?_append_right (by omega), h1]; simp
    · rw [List.append_assoc, List.take_left' h1]
    · rw [List.drop_left' (by simp [h1])]; exact hrest
  · rintro ⟨hb, ds', rfl, hrest⟩
    obtain ⟨_, hbe⟩ := List.getElem?_eq_some_iff.mp hb
    refine ⟨rest.take n, ds', [sep], rest.drop (n + 1), by simp; omega, rfl, ?_, rfl, hrest⟩
    rw [← hbe, List.append_assoc, List.singleton_append, ← List.drop_eq_getElem_cons hl, List.take_append_drop]

/-- Without a separator in the text, there is nothing between the groups. -/
theorem grouped_allow_no_sep (sep : UInt8) (sizes : List Nat) (ds text : List UInt8) (h : Grouped (.allow sep) sizes ds text)
    (hs : sep ∉ text) : text = ds := by
  induction sizes generalizing ds text with
  | nil => simp [Grouped] at h; simp [h]
  | cons n ns ih =>
    cases ns with
    | nil => exact h.2
    | cons m ns =>
      obtain ⟨g, ds', s, text', h1, rfl, rfl, hb, hrest⟩ := h
      simp at hs
      rcases hb with rfl | rfl
      · rw [ih _ _ hrest hs.2.2]; simp
      · simp at hs

/-! ## Printing -/

theorem value_append (a b : List UInt8) : value (a ++ b) = value a * 16 ^ b.length + value b := by
  induction a with
  | nil => simp [value]
  | cons x a ih =>
    simp [value, ih, Nat.pow_add, Nat.add_mul, Nat.mul_assoc, Nat.add_assoc]

theorem hexChar_spec (up : Bool) : ∀ d < 16, digitValue (hexChar up d) = d ∧
    hexChar up d ∈ symbols (if up then .upper else .lower) := by
  cases up <;> decide

theorem symbols_upper_any : ∀ b ∈ symbols .upper, b ∈ symbols .any := by decide

theorem hexChar_mem (case : CaseOption) (d : Nat) (hd : d < 16) : hexChar (caseUpper case) d ∈ symbols case := by
  have := (hexChar_spec (caseUpper case) d hd).2
  cases case with
  | any => exact symbols_upper_any _ this
  | upper => exact this
  | lower => exact this

theorem revDigits_lt (base : Nat) (hb : 1 < base) (fuel n : Nat) : ∀ d ∈ revDigits base fuel n, d < base := by
  induction fuel generalizing n with
  | zero => simp [revDigits]
  | succ f ih =>
    unfold revDigits
    split
    · simpa
    · intro d hd
      simp at hd
      rcases hd with rfl | hd
      · exact Nat.mod_lt _ (by omega)
      · exact ih _ d hd

theorem revDigits_length (base : Nat) (hb : 1 < base) (fuel n k : Nat) (hk : 0 < k) (hn : n < base ^ k) :
    (revDigits base fuel n).length ≤ k := by
  induction fuel generalizing n k with
  | zero => simp [revDigits]
  | succ f ih =>
    unfold revDigits
    split
    · simp; omega
    · rename_i hge
      cases k with
      | zero => omega
      | succ k =>
        rcases Nat.eq_zero_or_pos k with rfl | hk'
        · simp at hn; omega
        · have := ih (n / base) k hk' (by
            rw [Nat.div_lt_iff_lt_mul (by omega), ← Nat.pow_succ]; exact hn)
          simp; omega

theorem value_revDigits (up : Bool) (fuel n : Nat) (hf : 0 < fuel) (hn : n < 16 ^ fuel) :
    value ((revDigits 16 fuel n).reverse.map (hexChar up)) = n := by
  induction fuel generalizing n with
  | zero => omega
  | succ f ih =>
    unfold revDigits
    split
    · rename_i hlt
      simp [value, (hexChar_spec up n hlt).1]
    · rename_i hge
      have hf' : 0 < f := by
        rcases Nat.eq_zero_or_pos f with rfl | h
        · simp at hn; omega
        · exact h
      have := ih (n / 16) hf' (by
        rw [Nat.div_lt_iff_lt_mul (by omega), ← Nat.pow_succ]; exact hn)
      rw [List.reverse_cons, List.map_append, value_append, this]
      simp [value, (hexChar_spec up (n % 16) (Nat.mod_lt _ (by omega))).1]
      omega

theorem value_replicate_zero (k : Nat) (ds : List UInt8) : value (List.replicate k 48 ++ ds) = value ds := by
  rw [value_append]
  have : value (List.replicate k 48) = 0 := by
    induction k with
    | zero => rfl
    | succ k ih =>
      rw [List.replicate_succ, value, ih, show digitValue 48 = 0 by decide]
      simp
  rw [this]; simp

/-- What `{:0width X}` prints. -/
theorem fmtHex_spec (case : CaseOption) (w n : Nat) (hw : 0 < w) (hw' : w ≤ 32) (hn : n < 16 ^ w) :
    (fmtHex (caseUpper case) w n).length = w ∧ (∀ b ∈ fmtHex (caseUpper case) w n, b ∈ symbols case) ∧
    value (fmtHex (caseUpper case) w n) = n := by
  have hl := revDigits_length 16 (by decide) 32 n w hw hn
  have hn' : n < 16 ^ 32 := Nat.lt_of_lt_of_le hn (Nat.pow_le_pow_right (by decide) hw')
  unfold fmtHex
  refine ⟨by simp; omega, ?_, ?_⟩
  · intro b hb
    simp only [List.mem_append, List.mem_replicate, List.mem_map, List.mem_reverse] at hb
    rcases hb with ⟨_, rfl⟩ | ⟨d, hd, rfl⟩
    · cases case <;> decide
    · exact hexChar_mem case d (revDigits_lt 16 (by decide) 32 n d hd)
  · rw [value_replicate_zero, value_revDigits _ _ _ (by decide) hn']

theorem leByte_lt (n i : Nat) : leByte n i < 16 ^ 2 := Nat.mod_lt _ (by decide)

theorem symbols_ge (case : CaseOption) : ∀ b ∈ symbols case, 48 ≤ b.toNat := by
  cases case <;> decide

theorem fmtU8_ge : ∀ s : UInt8, ∀ b ∈ fmtU8 s, 48 ≤ b.toNat := BaseN.forall_uint8 (by decide +kernel)

/-- The decimal text of a separator has one digit exactly when the separator is below 10, else 2 or 3. -/
theorem fmtU8_length : ∀ s : UInt8, (fmtU8 s).length = if s.toNat < 10 then 1 else if s.toNat < 100 then 2 else 3 :=
  BaseN.forall_uint8 (by decide +kernel)

end Verif.Hex
