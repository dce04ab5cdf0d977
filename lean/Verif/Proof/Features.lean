import Verif.Model.Features
import Mathlib.Data.Nat.Bitwise

/-! Helper lemmas for `Props/Features.lean`: closing a conjunction of atoms under the rules, on bit masks.  The recursors are written
out so that the kernel evaluates the checks quickly. -/

namespace Verif.Features

/-- A number for each atom. -/
def Atom.code : Atom → Nat
  | .feature f => f.ctorIdx
  | .derived f => 64 + f.ctorIdx
  | .dep c => 128 + c.ctorIdx
  | .depFeature c f => 160 + (8 * c.ctorIdx + f.ctorIdx)
  | .macroDep c => 300 + c.ctorIdx
  | .synFull => 304
  | .userStd => 305

theorem Feature.lt (f : Feature) : f.ctorIdx < 64 := by cases f <;> decide
theorem Crate.lt (f : Crate) : f.ctorIdx < 16 := by cases f <;> decide
theorem DepFeature.lt (f : DepFeature) : f.ctorIdx < 8 := by cases f <;> decide
theorem MacroCrate.lt (f : MacroCrate) : f.ctorIdx < 4 := by cases f <;> decide

/-- The atom with this number. -/
def Atom.back (n : Nat) : Atom :=
  if n < 64 then .feature (Feature.ofNat n)
  else if n < 128 then .derived (Feature.ofNat (n - 64))
  else if n < 160 then .dep (Crate.ofNat (n - 128))
  else if n < 300 then .depFeature (Crate.ofNat ((n - 160) / 8)) (DepFeature.ofNat ((n - 160) % 8))
  else if n < 304 then .macroDep (MacroCrate.ofNat (n - 300))
  else if n = 304 then .synFull
  else .userStd

theorem Atom.back_code (a : Atom) : Atom.back a.code = a := by
  cases a with
  | feature f => have := Feature.lt f; simp [code, back, this, Feature.ofNat_ctorIdx]
  | derived f =>
    have := Feature.lt f
    simp [code, back, show 64 + f.ctorIdx < 128 by omega, Feature.ofNat_ctorIdx]
  | dep f =>
    have := Crate.lt f
    simp [code, back, show ¬ 128 + f.ctorIdx < 64 by omega, show 128 + f.ctorIdx < 160 by omega, Crate.ofNat_ctorIdx]
  | depFeature c f =>
    have := Crate.lt c
    have := DepFeature.lt f
    simp [code, back, show ¬ 160 + (8 * c.ctorIdx + f.ctorIdx) < 64 by omega, show ¬ 160 + (8 * c.ctorIdx + f.ctorIdx) < 128 by omega,
      show 160 + (8 * c.ctorIdx + f.ctorIdx) < 300 by omega, show (8 * c.ctorIdx + f.ctorIdx) / 8 = c.ctorIdx by omega,
      show f.ctorIdx % 8 = f.ctorIdx by omega, Crate.ofNat_ctorIdx, DepFeature.ofNat_ctorIdx]
  | macroDep f =>
    have := MacroCrate.lt f
    simp [code, back, show ¬ 300 + f.ctorIdx < 64 by omega, show ¬ 300 + f.ctorIdx < 128 by omega,
      show ¬ 300 + f.ctorIdx < 160 by omega, show 300 + f.ctorIdx < 304 by omega, MacroCrate.ofNat_ctorIdx]
  | synFull => rfl
  | userStd => rfl

theorem Atom.code_inj {a b : Atom} (h : a.code = b.code) : a = b := by
  rw [← Atom.back_code a, h, Atom.back_code]

/-- A set of atoms as bits. -/
def mask : List Atom → Nat
  | [] => 0
  | a :: l => (1 <<< a.code) ||| mask l

theorem testBit_mask (l : List Atom) (n : Nat) : (mask l).testBit n = true ↔ ∃ a ∈ l, a.code = n := by
  induction l with
  | nil => simp [mask]
  | cons a l ih => simp [mask, Nat.testBit_or, ih, Nat.shiftLeft_eq, Nat.testBit_two_pow]

def Rule.masks (r : Rule) : Nat × Nat := (mask r.body, mask [r.head])

/-- `k n`, with `n` evaluated first. -/
noncomputable def force (n : Nat) (k : Nat → Nat) : Nat := Nat.rec (motive := fun _ => Nat) (k 0) (fun m _ => k (m + 1)) n

theorem force_eq (n : Nat) (k : Nat → Nat) : force n k = k n := by cases n <;> rfl

/-- Each rule once. -/
noncomputable def pass (l : List (Nat × Nat)) : Nat → Nat :=
  List.rec (motive := fun _ => Nat → Nat) (fun s => s)
    (fun r _ ih s => Bool.rec (motive := fun _ => Nat) (ih s) (force (Nat.lor s r.2) ih) (Nat.beq (Nat.land s r.1) r.1)) l

theorem pass_cons (r : Nat × Nat) (l : List (Nat × Nat)) (s : Nat) :
    pass (r :: l) s = pass l (if s &&& r.1 = r.1 then s ||| r.2 else s) := by
  show Bool.rec (motive := fun _ => Nat) (pass l s) (force (Nat.lor s r.2) (pass l)) (Nat.beq (Nat.land s r.1) r.1) = _
  rw [force_eq]
  by_cases h : s &&& r.1 = r.1
  · rw [if_pos h]
    have : Nat.beq (Nat.land s r.1) r.1 = true := Nat.beq_eq ▸ h
    rw [this]; rfl
  · rw [if_neg h]
    have : Nat.beq (Nat.land s r.1) r.1 = false := by
      cases e : Nat.beq (Nat.land s r.1) r.1 with
      | false => rfl
      | true => exact absurd (Nat.eq_of_beq_eq_true e) h
    rw [this]

/-- The rules again and again. -/
noncomputable def close (ms : List (Nat × Nat)) (n : Nat) : Nat → Nat :=
  Nat.rec (motive := fun _ => Nat → Nat) (fun s => s) (fun _ ih s => force (pass ms s) ih) n

theorem close_succ (ms : List (Nat × Nat)) (n s : Nat) : close ms (n + 1) s = close ms n (pass ms s) := by
  show force (pass ms s) (close ms n) = _
  rw [force_eq]

/-- All atoms of the set satisfy `P`. -/
def Sound (P : Atom → Prop) (s : Nat) : Prop := ∀ a : Atom, s.testBit a.code = true → P a

theorem sound_mask {P : Atom → Prop} {l : List Atom} (h : ∀ a ∈ l, P a) : Sound P (mask l) := by
  intro a ha
  obtain ⟨b, hb, e⟩ := (testBit_mask l _).1 ha
  rw [← Atom.code_inj e]
  exact h b hb

theorem Sound.all {P : Atom → Prop} {s : Nat} (h : Sound P s) {l : List Atom} (e : s &&& mask l = mask l) : ∀ a ∈ l, P a := by
  intro a ha
  apply h
  have := congrArg (fun n => n.testBit a.code) e
  simp only [Nat.testBit_and] at this
  rw [(testBit_mask l _).2 ⟨a, ha, rfl⟩] at this
  simpa using this

theorem Sound.or {P : Atom → Prop} {s t : Nat} (h : Sound P s) (k : Sound P t) : Sound P (s ||| t) := by
  intro a ha
  rw [Nat.testBit_or, Bool.or_eq_true] at ha
  exact ha.elim (h a) (k a)

/-- `P` follows a rule. -/
def Follows (P : Atom → Prop) (r : Rule) : Prop := (∀ a ∈ r.body, P a) → P r.head

theorem sound_pass {P : Atom → Prop} (l : List Rule) (hl : ∀ r ∈ l, Follows P r) (s : Nat) (h : Sound P s) :
    Sound P (pass (l.map Rule.masks) s) := by
  induction l generalizing s with
  | nil => exact h
  | cons r l ih =>
    rw [List.map_cons, pass_cons]
    apply ih (fun r' m => hl r' (List.mem_cons_of_mem _ m))
    split
    · rename_i e
      apply h.or
      apply sound_mask
      intro a ha
      rw [List.mem_singleton.1 ha]
      exact hl r List.mem_cons_self (h.all e)
    · exact h

theorem sound_close {P : Atom → Prop} (l : List Rule) (hl : ∀ r ∈ l, Follows P r) (n s : Nat) (h : Sound P s) :
    Sound P (close (l.map Rule.masks) n s) := by
  induction n generalizing s with
  | zero => exact h
  | succ n ih => rw [close_succ]; exact ih _ (sound_pass l hl s h)

/-- The set makes the condition true. -/
def within (s : Nat) (c : Cond) : Bool := c.any fun k => Nat.beq (Nat.land s (mask k)) (mask k)

theorem holds_of_within {P : Atom → Prop} {s : Nat} (h : Sound P s) {c : Cond} (w : within s c = true) : Holds P c := by
  simp only [within, List.any_eq_true] at w
  obtain ⟨k, hk, e⟩ := w
  exact ⟨k, hk, h.all (Nat.eq_of_beq_eq_true e)⟩

/-- What a feature of `validators-derive` says about `validators`. -/
def inverses : List Rule :=
  macroFeatures.flatMap fun f => [⟨[.derived f], .feature f⟩, ⟨[.derived f], .dep .validatorsDerive⟩]

/-- The rules, and the inverses, as bits. -/
def table : List (Nat × Nat) := (rules ++ inverses).map Rule.masks

/-- Whatever makes `guard` true makes `avail` true, by closing each conjunction of `guard`. -/
noncomputable def covers (guard avail : Cond) : Bool := guard.all fun l => within (force (mask l) (close table 6)) avail

/-! ### The rules, read backwards -/

theorem derived_body : ∀ r ∈ rules, ∀ f, r.head = .derived f →
    Atom.feature f ∈ r.body ∧ Atom.dep .validatorsDerive ∈ r.body ∧ f ∈ macroFeatures := by
  have h : ∀ r ∈ rules, (match r.head with
      | .derived f => decide (Atom.feature f ∈ r.body ∧ Atom.dep .validatorsDerive ∈ r.body ∧ f ∈ macroFeatures)
      | _ => true) = true := by decide +kernel
  intro r m f e
  have := h r m
  rw [e] at this
  exact of_decide_eq_true this

theorem derived_inv {q : Request} {f : Feature} (h : On rules q (.derived f)) :
    On rules q (.feature f) ∧ On rules q (.dep .validatorsDerive) ∧ f ∈ macroFeatures := by
  generalize e : Atom.derived f = a at h
  cases h with
  | asked h => subst e; exact h.elim
  | rule m h =>
    obtain ⟨h1, h2, h3⟩ := derived_body _ m f e.symm
    exact ⟨h _ h1, h _ h2, h3⟩

theorem dep_derive_inv {q : Request} (h : On rules q (.dep .validatorsDerive)) : On rules q (.feature .derive) := by
  generalize e : Atom.dep .validatorsDerive = a at h
  cases h with
  | asked h => subst e; exact h.elim
  | rule m h =>
    have k : ∀ r ∈ rules, r.head = .dep .validatorsDerive → Atom.feature .derive ∈ r.body := by decide +kernel
    exact h _ (k _ m e.symm)

theorem userStd_inv {q : Request} (h : On rules q .userStd) : q.std := by
  generalize e : Atom.userStd = a at h
  cases h with
  | asked h => subst e; exact h
  | rule m h =>
    have k : ∀ r ∈ rules, r.head ≠ .userStd := by decide +kernel
    exact absurd e.symm (k _ m)

theorem follows {q : Request} : ∀ r ∈ rules ++ inverses, Follows (On rules q) r := by
  intro r m h
  rcases List.mem_append.1 m with m | m
  · exact .rule m h
  · simp only [inverses, List.mem_flatMap, List.mem_cons, List.not_mem_nil, or_false] at m
    obtain ⟨f, _, rfl | rfl⟩ := m
    · exact (derived_inv (h _ List.mem_cons_self)).1
    · exact (derived_inv (h _ List.mem_cons_self)).2.1

theorem covers_sound {q : Request} {guard avail : Cond} (h : covers guard avail = true) (g : Holds (On rules q) guard) :
    Holds (On rules q) avail := by
  obtain ⟨l, hl, hg⟩ := g
  simp only [covers, List.all_eq_true] at h
  have w := h l hl
  rw [force_eq] at w
  exact holds_of_within (sound_close _ follows 6 _ (sound_mask hg)) w

theorem derived_of {q : Request} {f : Feature} (m : f ∈ macroFeatures) (h : On rules q (.feature f))
    (d : On rules q (.feature .derive)) : On rules q (.derived f) := by
  have k : ∀ f ∈ macroFeatures, (⟨[.feature f, .dep .validatorsDerive], .derived f⟩ : Rule) ∈ rules := by decide +kernel
  have k2 : (⟨[.feature .derive], .dep .validatorsDerive⟩ : Rule) ∈ rules := by decide +kernel
  refine .rule (k f m) ?_
  simp only [List.mem_cons, List.not_mem_nil, or_false, forall_eq_or_imp, forall_eq]
  exact ⟨h, .rule k2 (by simpa using d)⟩

theorem generated_aux (q : Request) (v : Feature) (u : Use Item) (m : (v, u) ∈ generatedUses) (hs : u.item ≠ .userStd) :
    Resolves (On rules q) existsWhen u := by
  have h : generatedUses.all (fun p => decide (p.2.item = .userStd) || covers p.2.guard (existsWhen p.2.item)) = true := by
    decide +kernel
  intro g
  have := List.all_eq_true.1 h _ m
  rw [Bool.or_eq_true, decide_eq_true_eq] at this
  exact covers_sound (this.resolve_left hs) g

/-! ### Requests for features only -/

def ruleTable : List (Nat × Nat) := rules.map Rule.masks

noncomputable def closure (l : List Feature) : Nat := force (mask (l.map .feature)) (close ruleTable 6)

/-- Nothing more to add. -/
def closed (s : Nat) : Bool := ruleTable.all fun r => !Nat.beq (Nat.land s r.1) r.1 || Nat.beq (Nat.land s r.2) r.2

theorem land_mask {s : Nat} {l : List Atom} : s &&& mask l = mask l ↔ ∀ a ∈ l, s.testBit a.code = true := by
  constructor
  · intro e a ha
    have := congrArg (fun n => n.testBit a.code) e
    simp only [Nat.testBit_and] at this
    rw [(testBit_mask l _).2 ⟨a, ha, rfl⟩] at this
    simpa using this
  · intro h
    apply Nat.eq_of_testBit_eq
    intro i
    rw [Nat.testBit_and]
    cases e : (mask l).testBit i with
    | false => simp
    | true =>
      obtain ⟨a, ha, rfl⟩ := (testBit_mask l _).1 e
      simp [h a ha]

theorem on_only {l : List Feature} (hc : closed (closure l) = true) (hs : (closure l) &&& mask (l.map .feature) = mask (l.map .feature))
    (a : Atom) : On rules (only l) a ↔ (closure l).testBit a.code = true := by
  constructor
  · intro h
    induction h with
    | asked h =>
      rename_i b
      cases b <;> simp only [Request.direct, only] at h
      exact land_mask.1 hs _ (List.mem_map_of_mem h)
    | @rule r m _ ih =>
      simp only [closed, ruleTable, List.all_eq_true] at hc
      have := hc _ (List.mem_map_of_mem m)
      rw [Bool.or_eq_true, Bool.not_eq_true'] at this
      rcases this with e | e
      · have : Nat.beq (Nat.land (closure l) r.masks.1) r.masks.1 = true := by
          have e2 : closure l &&& mask r.body = mask r.body := land_mask.2 ih
          exact Nat.beq_eq ▸ e2
        rw [this] at e; cases e
      · have e2 : closure l &&& mask [r.head] = mask [r.head] := Nat.eq_of_beq_eq_true e
        exact land_mask.1 e2 _ List.mem_cons_self
  · intro h
    refine sound_close rules (P := On rules (only l)) (fun r m h => .rule m h) 6 (mask (l.map .feature)) (sound_mask ?_) a ?_
    · intro b hb
      obtain ⟨f, hf, rfl⟩ := List.mem_map.1 hb
      exact .asked hf
    · rw [closure, force_eq] at h
      exact h

end Verif.Features
