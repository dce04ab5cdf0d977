import Verif.Spec.Derive

/-!
# Lemmas about the derive macro
-/

namespace Verif.Derive

open Verif.Attr Verif.Spec.Derive

variable {τ α β φ κ : Type}

theorem fromPath_iff (enabled : Validator → Bool) (i : Option String) (v : Validator) :
    fromPath enabled i = some v ↔ i = some (name v) ∧ enabled v = true := by
  constructor
  · intro h
    cases i with
    | none => cases h
    | some s =>
      simp only [fromPath] at h
      split at h
      all_goals first
        | (cases h; done)
        | (split at h
           · rename_i he
             cases h
             exact ⟨rfl, he⟩
           · cases h)
  · rintro ⟨rfl, h⟩
    cases v <;> simp [fromPath, name, h]

theorem fromPath_none (enabled : Validator → Bool) (i : Option String) :
    fromPath enabled i = none ↔ ∀ v, enabled v = true → i ≠ some (name v) := by
  constructor
  · intro h v hv hi
    rw [(fromPath_iff enabled i v).2 ⟨hi, hv⟩] at h
    cases h
  · intro h
    cases e : fromPath enabled i with
    | none => rfl
    | some v =>
      obtain ⟨h1, h2⟩ := (fromPath_iff enabled i v).1 e
      exact absurd h1 (h v h2)

theorem select_cons (syn : Syn τ) (enabled : Validator → Bool) (used : Option (Validator × Meta τ)) (a : Meta τ) (l : List (Meta τ)) :
    select syn enabled used (a :: l) =
      if Ours a then
        match a with
        | .list _ tokens =>
          match syn.one tokens with
          | none => .err .syn
          | some m =>
            match fromPath enabled m.name with
            | some v => if used.isSome then .err .onlyOne else select syn enabled (some (v, m)) l
            | none => .err .unsupported
        | _ => .err .format
      else select syn enabled used l := by
  cases a <;> rfl

theorem select_skip (syn : Syn τ) (enabled : Validator → Bool) (used : Option (Validator × Meta τ)) (a : Meta τ) (l : List (Meta τ))
    (h : ¬ Ours a) : select syn enabled used (a :: l) = select syn enabled used l := by
  rw [select_cons, if_neg h]

theorem select_filter (syn : Syn τ) (enabled : Validator → Bool) (l : List (Meta τ)) :
    ∀ used, select syn enabled used (l.filter fun a => decide (Ours a)) = select syn enabled used l := by
  induction l with
  | nil => intro used; rfl
  | cons a l ih =>
    intro used
    by_cases h : Ours a
    · simp only [List.filter_cons, h, decide_true, if_true]
      rw [select_cons, select_cons]
      simp only [ih]
    · simp only [List.filter_cons, h, decide_false, Bool.false_eq_true, if_false]
      rw [ih, select_skip _ _ _ _ _ h]

theorem ours_of_requests (syn : Syn τ) (enabled : Validator → Bool) (a : Meta τ) (v : Validator) (m : Meta τ)
    (h : Requests syn enabled a v m) : Ours a := by
  obtain ⟨t, rfl, -⟩ := h
  rfl

theorem select_request (syn : Syn τ) (enabled : Validator → Bool) (used : Option (Validator × Meta τ)) (a : Meta τ) (v : Validator)
    (m : Meta τ) (l : List (Meta τ)) (h : Requests syn enabled a v m) :
    select syn enabled used (a :: l) = if used.isSome then .err .onlyOne else select syn enabled (some (v, m)) l := by
  obtain ⟨t, rfl, h1, h2, h3⟩ := h
  rw [select_cons, if_pos (show Ours (Meta.list (some "validator") t) from rfl)]
  have h4 : fromPath enabled m.name = some v := (fromPath_iff ..).2 ⟨h2, h3⟩
  simp only [h1, h4]

theorem select_fault (syn : Syn τ) (enabled : Validator → Bool) (used : Option (Validator × Meta τ)) (a : Meta τ) (e : DeriveError)
    (l : List (Meta τ)) (h : Faulty syn enabled a e) : select syn enabled used (a :: l) = .err e := by
  obtain ⟨ho, h⟩ := h
  rw [select_cons, if_pos ho]
  rcases h with ⟨rfl, hn⟩ | ⟨n, t, rfl, ⟨rfl, h⟩ | ⟨m, h, rfl, hv⟩⟩
  · cases a with
    | list n t => exact absurd ⟨n, t, rfl⟩ hn
    | path n => rfl
    | nameValue n e => rfl
  · simp only [h]
  · simp only [h, (fromPath_none enabled m.name).2 hv]

/-- An attribute of ours requests a validator or is faulty. -/
theorem request_or_fault (syn : Syn τ) (enabled : Validator → Bool) (a : Meta τ) (h : Ours a) :
    (∃ v m, Requests syn enabled a v m) ∨ ∃ e, Faulty syn enabled a e := by
  cases a with
  | path n => exact .inr ⟨.format, h, .inl ⟨rfl, fun ⟨_, _, h⟩ => by cases h⟩⟩
  | nameValue n e => exact .inr ⟨.format, h, .inl ⟨rfl, fun ⟨_, _, h⟩ => by cases h⟩⟩
  | list n t =>
    cases e1 : syn.one t with
    | none => exact .inr ⟨.syn, h, .inr ⟨n, t, rfl, .inl ⟨rfl, e1⟩⟩⟩
    | some m =>
      cases e2 : fromPath enabled m.name with
      | none => exact .inr ⟨.unsupported, h, .inr ⟨n, t, rfl, .inr ⟨m, e1, rfl, (fromPath_none enabled m.name).1 e2⟩⟩⟩
      | some v =>
        obtain ⟨h1, h2⟩ := (fromPath_iff enabled m.name v).1 e2
        refine .inl ⟨v, m, t, ?_, e1, h1, h2⟩
        cases (show n = some "validator" from h)
        rfl

theorem select_none_ours (syn : Syn τ) (enabled : Validator → Bool) (used : Option (Validator × Meta τ)) (l : List (Meta τ))
    (h : ∀ a ∈ l, ¬ Ours a) : select syn enabled used l = .ok used := by
  induction l with
  | nil => rfl
  | cons a l ih =>
    rw [select_skip _ _ _ _ _ (h a List.mem_cons_self)]
    exact ih fun b hb => h b (List.mem_cons_of_mem _ hb)

/-- With a validator already chosen, the rest must not contain another attribute. -/
theorem select_some (syn : Syn τ) (enabled : Validator → Bool) (u : Validator × Meta τ) (l : List (Meta τ)) (r : Option (Validator × Meta τ)) :
    select syn enabled (some u) l = .ok r ↔ r = some u ∧ ∀ a ∈ l, ¬ Ours a := by
  constructor
  · induction l with
    | nil => intro h; cases h; exact ⟨rfl, fun _ h => by cases h⟩
    | cons a l ih =>
      intro h
      by_cases ho : Ours a
      · rcases request_or_fault syn enabled a ho with ⟨v, m, hr⟩ | ⟨e, hf⟩
        · rw [select_request _ _ _ _ v m _ hr] at h; cases h
        · rw [select_fault _ _ _ _ e _ hf] at h; cases h
      · rw [select_skip _ _ _ _ _ ho] at h
        obtain ⟨h1, h2⟩ := ih h
        refine ⟨h1, fun b hb => ?_⟩
        rcases List.mem_cons.1 hb with rfl | hb
        · exact ho
        · exact h2 b hb
  · rintro ⟨rfl, h⟩
    exact select_none_ours _ _ _ _ h

theorem select_none (syn : Syn τ) (enabled : Validator → Bool) (l : List (Meta τ)) (v : Validator) (m : Meta τ) :
    select syn enabled none l = .ok (some (v, m)) ↔ ∃ a, Only Ours l a ∧ Requests syn enabled a v m := by
  induction l with
  | nil =>
    constructor
    · intro h; cases h
    · rintro ⟨a, ⟨pre, post, h, -⟩, -⟩
      cases pre <;> cases h
  | cons a l ih =>
    by_cases ho : Ours a
    · rcases request_or_fault syn enabled a ho with ⟨v', m', hr⟩ | ⟨e, hf⟩
      · rw [select_request _ _ _ _ v' m' _ hr]
        simp only [Option.isSome_none, Bool.false_eq_true, if_false]
        rw [select_some]
        constructor
        · rintro ⟨h, hl⟩
          cases h
          exact ⟨a, ⟨[], l, rfl, ho, (fun _ h => by cases h), hl⟩, hr⟩
        · rintro ⟨b, ⟨pre, post, h, -, h1, h2⟩, hb⟩
          cases pre with
          | nil =>
            cases h
            refine ⟨?_, h2⟩
            obtain ⟨t, rfl, e1, e2, e3⟩ := hr
            obtain ⟨t', e0, f1, f2, f3⟩ := hb
            cases e0
            rw [e1] at f1
            cases f1
            have : some v' = some v := by
              rw [← (fromPath_iff enabled m.name v').2 ⟨e2, e3⟩, ← (fromPath_iff enabled m.name v).2 ⟨f2, f3⟩]
            cases this
            rfl
          | cons c pre =>
            cases h
            exact absurd ho (h1 _ List.mem_cons_self)
      · rw [select_fault _ _ _ _ e _ hf]
        constructor
        · intro h; cases h
        · rintro ⟨b, ⟨pre, post, h, -, h1, h2⟩, hb⟩
          cases pre with
          | nil =>
            cases h
            have := select_fault syn enabled none a e [] hf
            rw [select_request _ _ _ _ v m _ hb] at this
            cases this
          | cons c pre =>
            cases h
            exact absurd ho (h1 _ List.mem_cons_self)
    · rw [select_skip _ _ _ _ _ ho, ih]
      constructor
      · rintro ⟨b, ⟨pre, post, rfl, hb, h1, h2⟩, hr⟩
        refine ⟨b, ⟨a :: pre, post, rfl, hb, ?_, h2⟩, hr⟩
        intro c hc
        rcases List.mem_cons.1 hc with rfl | hc
        · exact ho
        · exact h1 c hc
      · rintro ⟨b, ⟨pre, post, h, hb, h1, h2⟩, hr⟩
        cases pre with
        | nil => cases h; exact absurd hb ho
        | cons c pre =>
          cases h
          exact ⟨b, ⟨pre, post, rfl, hb, fun c hc => h1 c (List.mem_cons_of_mem _ hc), h2⟩, hr⟩

/-! ## Shapes -/

theorem lift_ok (x : Out AttrError β) (b : β) : lift x = .ok b ↔ x = .ok b := by
  cases x <;> simp [lift]

theorem bind_ok_iff {ε γ : Type} (x : Out ε β) (f : β → Out ε γ) (c : γ) : x.bind f = .ok c ↔ ∃ b, x = .ok b ∧ f b = .ok c := by
  cases x <;> simp

theorem bind_err_iff {ε γ : Type} (x : Out ε β) (f : β → Out ε γ) (e : ε) :
    x.bind f = .err e ↔ x = .err e ∨ ∃ b, x = .ok b ∧ f b = .err e := by
  cases x <;> simp

theorem lift_shape (x : Out AttrError β) (i : Item) : lift x ≠ .err (.shape i) := by
  cases x <;> simp [lift]

theorem tupleOne_ok (f : Fields) (i : Item) (u : Unit) : tupleOne f i = .ok u ↔ OneUnnamed (.struct f) := by
  cases f with
  | unnamed tys =>
    cases tys with
    | nil => simp [tupleOne, OneUnnamed]
    | cons t ts => cases ts <;> simp [tupleOne, OneUnnamed]
  | named fs => simp [tupleOne, OneUnnamed]
  | unit => simp [tupleOne, OneUnnamed]

theorem single_ok (d : Data) (t : TypeEnum) (u : Unit) : single d t = .ok u ↔ OneUnnamed d := by
  cases d with
  | struct f => exact tupleOne_ok f _ u
  | enum => simp [single, OneUnnamed]
  | union => simp [single, OneUnnamed]

theorem perm_of_nodup {l₁ l₂ : List String} (h₁ : l₁.Nodup) (h₂ : l₂.Nodup) (hs : ∀ x ∈ l₁, x ∈ l₂) (hl : l₁.length = l₂.length) : l₁.Perm l₂ := by
  induction l₁ generalizing l₂ with
  | nil =>
    cases l₂ with
    | nil => exact .nil
    | cons _ _ => cases hl
  | cons x l₁ ih =>
    have hx : x ∈ l₂ := hs x List.mem_cons_self
    have hp : l₂.Perm (x :: l₂.erase x) := List.perm_cons_erase hx
    refine List.Perm.trans (List.Perm.cons x (ih (List.nodup_cons.1 h₁).2 (h₂.sublist List.erase_sublist) ?_ ?_)) hp.symm
    · intro y hy
      have hne : y ≠ x := by rintro rfl; exact (List.nodup_cons.1 h₁).1 hy
      exact (List.mem_erase_of_ne hne).2 (hs y (List.mem_cons_of_mem _ hy))
    · rw [List.length_erase_of_mem hx, ← hl]
      rfl

theorem namedOnly_ok (f : Fields) (n : Nat) (names : List String) (i : Item) (u : Unit) (hd : DistinctNames (.struct f)) (hn : names.Nodup)
    (hl : names.length = n) : namedOnly f n names i = .ok u ↔ Named names (.struct f) := by
  cases f with
  | named fs =>
    have hf := hd fs rfl
    simp only [namedOnly]
    constructor
    · intro h
      refine ⟨fs, rfl, ?_⟩
      split at h
      · cases h
      · rename_i h1
        split at h
        · rename_i h2
          simp only [List.all_eq_true, List.contains_iff_mem] at h2
          refine perm_of_nodup hf hn (fun x hx => ?_) ?_
          · obtain ⟨g, hg, rfl⟩ := List.mem_map.1 hx
            exact h2 g hg
          · rw [List.length_map, hl]
            exact Decidable.of_not_not h1
        · cases h
    · rintro ⟨gs, e, hp⟩
      cases e
      rw [if_neg, if_pos]
      · simp only [List.all_eq_true, List.contains_iff_mem]
        intro g hg
        exact hp.mem_iff.1 (List.mem_map.2 ⟨g, hg, rfl⟩)
      · have := hp.length_eq
        rw [List.length_map, hl] at this
        simp [this]
  | unnamed tys => simp [namedOnly, Named]
  | unit => simp [namedOnly, Named]

theorem domainShape_ok (a : DomainAttribute) (f : Fields) (u : Unit) (hd : DistinctNames (.struct f)) :
    domainShape a f = .ok u ↔ NamedOrOne (domainFields a) (.struct f) := by
  obtain ⟨i, l, p, t, c, s, r⟩ := a
  cases i <;> cases l <;> cases t <;> cases p <;>
    simp [domainShape, domainFields, NamedOrOne, TellsLocal, tupleOne_ok, namedOnly_ok _ _ _ _ _ hd]

theorem hostShape_ok (a : HostAttribute) (f : Fields) (u : Unit) (hd : DistinctNames (.struct f)) :
    hostShape a f = .ok u ↔ NamedOrOne (hostFields a) (.struct f) := by
  obtain ⟨l, p, t, s, r⟩ := a
  cases l <;> cases t <;> cases p <;>
    simp [hostShape, hostFields, NamedOrOne, TellsLocal, tupleOne_ok, namedOnly_ok _ _ _ _ _ hd]

theorem ipShape_ok (n : String) (t : TypeEnum) (a : IpAttribute) (f : Fields) (u : Unit) (hd : DistinctNames (.struct f)) (hn : n ≠ "port") :
    ipShape n t a f = .ok u ↔ NamedOrOne (ipFields n a) (.struct f) := by
  obtain ⟨l, p, s, r⟩ := a
  cases p <;> simp [ipShape, ipFields, NamedOrOne, tupleOne_ok, namedOnly_ok _ _ _ _ _ hd, hn]

theorem emailShape_ok (a : EmailAttribute) (f : Fields) (u : Unit) (hd : DistinctNames (.struct f)) :
    emailShape a f = .ok u ↔ Named (emailFields a) (.struct f) := by
  obtain ⟨c, i, l, t, n, k, s, r⟩ := a
  cases c <;> cases i <;> cases l <;> cases t <;>
    simp [emailShape, emailFields, TellsLocal, commentNames, namedOnly_ok _ _ _ _ _ hd]

end Verif.Derive
