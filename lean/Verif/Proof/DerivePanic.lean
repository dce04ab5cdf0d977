import Verif.Proof.AttrAll
import Verif.Proof.Derive

/-!
# When the macro panics
-/

namespace Verif.Attr

open Verif.Spec.Attr
open Verif.Range (RangeOption Bounds)

variable {ε τ α β κ : Type}

theorem bind_panic (x : Out ε α) (f : α → Out ε β) : x.bind f = .panic ↔ x = .panic ∨ ∃ a, x = .ok a ∧ f a = .panic := by
  cases x <;> simp [Out.bind]

theorem map_panic (x : Out ε α) (f : α → β) : x.map f = .panic ↔ x = .panic := by
  cases x <;> simp [Out.map]

theorem orErr_panic (e : AttrError) (o : Option β) : orErr e o ≠ .panic := by
  cases o <;> simp [orErr]

theorem litNumber_panic (f : List UInt8 → Option α) (l : Lit) : litNumber f l ≠ .panic := by
  cases l <;> simp [litNumber, orErr_panic]

theorem exprNumber_panic (f : List UInt8 → Option α) (e : Expr) : exprNumber f e ≠ .panic := by
  unfold exprNumber
  split <;> simp [litNumber_panic, orErr_panic]

theorem metaNumber_panic (syn : Syn τ) (f : List UInt8 → Option α) (m : Meta τ) : metaNumber syn f m ≠ .panic := by
  unfold metaNumber
  split
  · exact exprNumber_panic f _
  · split
    · exact orErr_panic _ _
    · simp [bind_panic, orErr_panic]
  · simp

theorem metaBool_panic (syn : Syn τ) (m : Meta τ) : metaBool syn m ≠ .panic := by
  unfold metaBool
  split <;> simp [orErr_panic]

theorem metaIdent_panic (syn : Syn τ) (m : Meta τ) : metaIdent syn m ≠ .panic := by
  unfold metaIdent
  split <;> simp [orErr_panic]

theorem metaAllow_panic (syn : Syn τ) (m : Meta τ) : metaAllow syn m ≠ .panic := by
  simp only [metaAllow, ne_eq, bind_panic, metaIdent_panic, false_or, not_exists, not_and, allowOf]
  intro a _
  split_ifs <;> simp

theorem metaTriAllow_panic (syn : Syn τ) (m : Meta τ) : metaTriAllow syn m ≠ .panic := by
  simp only [metaTriAllow, ne_eq, bind_panic, metaIdent_panic, false_or, not_exists, not_and, triAllowOf]
  intro a _
  split_ifs <;> simp

theorem metaCase_panic (syn : Syn τ) (m : Meta τ) : metaCase syn m ≠ .panic := by
  simp only [metaCase, ne_eq, bind_panic, metaIdent_panic, false_or, not_exists, not_and, caseOf]
  intro a _
  split_ifs <;> simp

theorem metaSeparator_panic (syn : Syn τ) (m : Meta τ) : metaSeparator syn m ≠ .panic := by
  unfold metaSeparator
  split
  · simp only [ne_eq, bind_panic, orErr_panic, false_or, not_exists, not_and]
    intro a _
    split
    · split_ifs <;> simp
    · simp
    · split_ifs <;> simp [map_panic, orErr_panic]
    · simp
    · split_ifs <;> simp
  · simp

theorem flagLoop_panic (enabled : Bool) (a b : String) (ps : List String) (f : Flags) : flagLoop enabled a b ps f ≠ .panic := by
  induction ps generalizing f with
  | nil => simp [flagLoop]
  | cons p ps ih =>
    simp only [flagLoop, ne_eq, bind_panic, not_or, not_exists, not_and]
    refine ⟨by split_ifs <;> simp, fun f _ => ?_⟩
    split_ifs
    · exact ih f
    · simp

theorem metaFlags_panic (syn : Syn τ) (enabled : Bool) (a b : String) (m : Meta τ) : metaFlags syn enabled a b m ≠ .panic := by
  unfold metaFlags
  split
  · split_ifs <;> simp
  · split_ifs <;> simp
  · simp
  · simp [bind_panic, orErr_panic, flagLoop_panic]

section
variable {K : Type} [DecidableEq K] {V : K → Type}

theorem step_panic_iff (T : Table τ V) (s : State V) (m : Meta τ) :
    step T s m = .panic ↔ ∃ k, T.keyOf m = some k ∧ s k = none ∧ T.read k m = .panic := by
  unfold step Table.keyOf
  cases m.name.bind T.key with
  | none => simp
  | some k =>
    simp only [Option.some.injEq, exists_eq_left']
    split_ifs with hc
    · simp only [Bool.and_eq_true] at hc
      obtain ⟨w, hw⟩ := Option.isSome_iff_exists.1 hc.2
      simp [hw]
    · rw [assign_panic, and_comm]

/-- The loop panics at a parameter that no other sets and after parameters that are all accepted. -/
theorem run_panic_iff (T : Table τ V) (ms : List (Meta τ)) (s : State V) :
    run T ms s = .panic ↔ ∃ a m b s', ms = a ++ m :: b ∧ run T a s = .ok s' ∧ step T s' m = .panic := by
  induction ms generalizing s with
  | nil => simp [run]
  | cons m ms ih =>
    rw [run, bind_panic]
    constructor
    · rintro (h | ⟨s1, h1, h⟩)
      · exact ⟨[], m, ms, s, rfl, rfl, h⟩
      · obtain ⟨a, m', b, s', rfl, h2, h3⟩ := (ih s1).1 h
        exact ⟨m :: a, m', b, s', rfl, by simp [run, h1, h2, Out.bind], h3⟩
    · rintro ⟨a, m', b, s', e, h2, h3⟩
      cases a with
      | nil => cases e; cases h2; exact .inl h3
      | cons x a =>
        cases e
        obtain ⟨s1, h1, h2⟩ := (bind_ok_iff _ _ _).1 h2
        exact .inr ⟨s1, h1, (ih s1).2 ⟨a, m', b, s', rfl, h2, h3⟩⟩

theorem run_panic (T : Table τ V) (ms : List (Meta τ)) (s : State V) (h : run T ms s = .panic) :
    ∃ m ∈ ms, ∃ k, m.name.bind T.key = some k ∧ T.read k m = .panic := by
  obtain ⟨a, m, b, s', rfl, _, h⟩ := (run_panic_iff T ms s).1 h
  obtain ⟨k, hk, _, r⟩ := (step_panic_iff T s' m).1 h
  exact ⟨m, by simp, k, hk, r⟩

theorem run_no_panic (T : Table τ V) (hT : ∀ k m, T.read k m ≠ .panic) (ms : List (Meta τ)) (s : State V) : run T ms s ≠ .panic := by
  intro h
  obtain ⟨m, _, k, _, r⟩ := run_panic T ms s h
  exact hT k m r

theorem params_panic (syn : Syn τ) (T : Table τ V) (m : Meta τ) (h : params syn T m = .panic) :
    ∃ ps, Gives syn m ps ∧ ∃ p ∈ ps, ∃ k, p.name.bind T.key = some k ∧ T.read k p = .panic := by
  cases m with
  | path n => cases h
  | nameValue n e => cases h
  | list n t =>
    simp only [params, bind_panic, orErr_panic, false_or, orErr_ok] at h
    obtain ⟨ps, hp, h⟩ := h
    exact ⟨ps, .inr ⟨n, t, rfl, hp⟩, run_panic T ps _ h⟩

end

theorem operand_panic (num : NumTy α) (o : Option (Option Lit)) : operand num o ≠ .panic := by
  unfold operand
  split <;> simp [map_panic, litNumber_panic]

theorem fromExprRange_panic (num : NumTy α) (r : RangeExpr) : fromExprRange num r ≠ .panic := by
  simp [fromExprRange, bind_panic, operand_panic]

theorem namedRange_panic (syn : Syn τ) (num : NumTy α) (t : τ) : namedRange syn num t ≠ .panic := by
  have hr : ∀ k m, (rangeTable syn num).read k m ≠ .panic := by
    intro k m
    cases k
    · exact metaNumber_panic syn _ m
    · exact metaNumber_panic syn _ m
    · exact metaBool_panic syn m
  simp only [namedRange, ne_eq, bind_panic, orErr_panic, false_or, not_exists, not_and, not_or]
  refine fun ps _ => ⟨run_no_panic _ hr _ _, fun s _ => ?_⟩
  unfold checkOrder
  split
  · split_ifs <;> simp
  · simp

theorem metaRange_panic (syn : Syn τ) (full : Bool) (num : NumTy α) (m : Meta τ) : metaRange syn full num m ≠ .panic := by
  unfold metaRange
  split
  · simp
  · split_ifs <;> simp [fromExprRange_panic]
  · simp
  · split <;> simp [fromExprRange_panic, namedRange_panic]

theorem metaRangeOption_panic (syn : Syn τ) (full : Bool) (num : NumTy α) (m : Meta τ) : metaRangeOption syn full num m ≠ .panic := by
  unfold metaRangeOption
  split
  · simp only [ne_eq, bind_panic, orErr_panic, false_or, not_exists, not_and]
    intro m _
    split_ifs <;> simp [map_panic, metaRange_panic]
  · simp

theorem notAbove_panic (x y : Option Nat) : notAbove x y ≠ .panic := by
  unfold notAbove
  split
  · split_ifs <;> simp
  · simp

theorem metaLength_panic (syn : Syn τ) (usize : List UInt8 → Option Nat) (m : Meta τ) : metaLength syn usize m ≠ .panic := by
  unfold metaLength
  split
  · simp only [ne_eq, bind_panic, orErr_panic, false_or, not_exists, not_and, not_or, notAbove_panic]
    refine fun ps _ => ⟨run_no_panic _ (fun _ m => metaNumber_panic syn usize m) _ _, fun s _ _ _ _ _ _ _ => ?_⟩
    simp
  · simp

variable [DecidableEq κ]

theorem countryLoop_panic (country : String → Option κ) (is : List String) (cs : List κ) : countryLoop country is cs ≠ .panic := by
  induction is generalizing cs with
  | nil => simp [countryLoop]
  | cons i is ih =>
    simp only [countryLoop, ne_eq, bind_panic, orErr_panic, false_or, not_exists, not_and]
    intro c _
    split_ifs
    · simp
    · exact ih _

theorem metaCountries_panic (syn : Syn τ) (country : String → Option κ) (order : Order κ) (m : Meta τ) : metaCountries syn country order m ≠ .panic := by
  unfold metaCountries
  split
  · simp [bind_panic, map_panic, orErr_panic, countryLoop_panic]
  · simp

theorem metaRegex_panic (syn : Syn τ) (ok : String → Bool) (m : Meta τ) : metaRegex syn ok m ≠ .panic := by
  have h : ∀ e, regexExpr ok e ≠ .panic := by
    intro e
    unfold regexExpr
    split <;> (try split_ifs) <;> simp
  unfold metaRegex
  split <;> simp [bind_panic, orErr_panic, h]

/-- Only the bounds of a range can make the macro panic. -/
theorem read_panic (E : Env τ α κ) (k : Key) (p : Meta τ) (h : Key.read E k p = .panic) :
    k = .range ∧ ∃ o, SaysRangeOption E.syn E.full E.num p o ∧ ¬ Writable E.num o := by
  cases k <;> simp only [Key.read] at h
  case range =>
    rw [bind_panic] at h
    rcases h with h | ⟨o, ho, h⟩
    · exact absurd h (metaRangeOption_panic _ _ _ _)
    · refine ⟨rfl, o, (metaRangeOption_ok ..).1 ho, fun w => ?_⟩
      rw [(tokens_ok E.num o o).2 ⟨rfl, w⟩] at h
      cases h
  all_goals first
    | exact absurd h (metaTriAllow_panic _ _)
    | exact absurd h (metaAllow_panic _ _)
    | exact absurd h (metaRange_panic _ _ _ _)
    | exact absurd h (metaBool_panic _ _)
    | exact absurd h (metaCase_panic _ _)
    | exact absurd h (metaSeparator_panic _ _)
    | exact absurd h (metaCountries_panic _ _ _ _)
    | exact absurd h (metaRegex_panic _ _ _)
    | exact absurd h (metaNumber_panic _ _ _)
    | exact absurd h (metaFlags_panic _ _ _ _ _)
    | exact absurd ((map_panic ..).1 h) (metaLength_panic _ _ _)

/-- The parameters of an attribute without `range` never make it panic. -/
theorem table_no_panic (E : Env τ α κ) (names : List (String × Key)) (hn : ∀ n, (n, Key.range) ∉ names) (m : Meta τ) :
    params E.syn (table E names) m ≠ .panic := by
  intro h
  obtain ⟨ps, _, p, _, k, hk, r⟩ := params_panic E.syn _ m h
  obtain ⟨rfl, _⟩ := read_panic E k p r
  cases hp : p.name with
  | none => simp [hp] at hk
  | some n =>
    simp only [hp, Option.bind_some, table] at hk
    exact hn n (lookup_mem names n _ hk)

/-- With `range`, if the macro panics, it is because of a bound that is no literal. -/
theorem table_panic (E : Env τ α κ) (names : List (String × Key)) (hn : ∀ n, (n, Key.range) ∈ names → n = "range") (m : Meta τ)
    (h : params E.syn (table E names) m = .panic) :
    ∃ ps, Gives E.syn m ps ∧ ∃ p ∈ ps, p.name = some "range" ∧
      ∃ o, SaysRangeOption E.syn E.full E.num p o ∧ ¬ Writable E.num o := by
  obtain ⟨ps, hg, p, hp, k, hk, r⟩ := params_panic E.syn _ m h
  obtain ⟨rfl, o, ho⟩ := read_panic E k p r
  refine ⟨ps, hg, p, hp, ?_, o, ho⟩
  cases hn' : p.name with
  | none => simp [hn'] at hk
  | some n =>
    simp only [hn', Option.bind_some, table] at hk
    rw [hn n (lookup_mem names n _ hk)]

/-- A range is read without its bounds being written if they cannot be. -/
theorem readRange_panic (E : Env τ α κ) (p : Meta τ) :
    Key.read E .range p = .panic ↔ ∃ o, SaysRangeOption E.syn E.full E.num p o ∧ ¬ Writable E.num o := by
  constructor
  · exact fun h => (read_panic E .range p h).2
  · rintro ⟨o, ho, hw⟩
    rw [← metaRangeOption_ok] at ho
    simp only [Key.read, ho, Out.bind]
    have : ∀ o', tokens E.num o ≠ .ok o' := fun o' h => hw ((tokens_ok ..).1 h).2
    cases o with
    | unlimited => exact absurd rfl (this .unlimited)
    | inside b =>
      simp only [tokens] at this ⊢
      split_ifs at this ⊢ with h
      · exact absurd rfl (this _)
      · rfl
    | outside b =>
      simp only [tokens] at this ⊢
      split_ifs at this ⊢ with h
      · exact absurd rfl (this _)
      · rfl

/-- The parameters of `number`. -/
abbrev numberNames : List (String × Key) :=
  [("range", .range), ("nan", .nan), ("conflict", .conflict), ("serde", .serde), ("rocket", .rocket)]

theorem number_panic_iff (E : Env τ α κ) (m : Meta τ) :
    numberAttribute E m = .panic ↔ FirstInfinite E.syn E.full E.serde E.rocket E.num m := by
  have hp : numberAttribute E m = .panic ↔ ∃ ps, Gives E.syn m ps ∧ run (table E numberNames) ps (State.init _) = .panic := by
    rw [numberAttribute, map_panic]
    constructor
    · intro h
      cases m with
      | path n => cases h
      | nameValue n e => cases h
      | list n t =>
        simp only [params, bind_panic, orErr_panic, false_or, orErr_ok] at h
        obtain ⟨ps, hp, h⟩ := h
        exact ⟨ps, .inr ⟨n, t, rfl, hp⟩, h⟩
    · rintro ⟨ps, ⟨_, rfl⟩ | ⟨n, t, rfl, ht⟩, h⟩
      · cases h
      · simp only [params, ht, orErr, Out.bind]; exact h
  have hkey := keyOf_iff (table E numberNames) numberNames (fun _ => rfl) distinctA_number
  rw [hp]
  constructor
  · rintro ⟨ps, hg, h⟩
    obtain ⟨a, p, b, s, rfl, ha, h⟩ := (run_panic_iff ..).1 h
    obtain ⟨k, hk, hs, hr⟩ := (step_panic_iff ..).1 h
    obtain ⟨rfl, o, ho⟩ := read_panic E k p hr
    obtain ⟨hw, hset⟩ := run_names_ok (table E numberNames) numberNames (fun _ => rfl) distinctA_number a s ha
    have hno : ∀ q ∈ a, q.name ≠ some "range" := by
      have := hset "range" .range (by simp)
      rw [hs] at this
      rcases this with ⟨_, _, _, _, h, _⟩ | ⟨h, _⟩
      · cases h
      · exact h
    have hsay : ∀ n k, (n, k) ∈ numberNames → ∀ q ∈ a, q.name = some n → ∃ v, Key.read E k q = .ok v := by
      intro n k hm q hq hn
      rcases hset n k hm with ⟨q', hq', hn', v, _, hv⟩ | ⟨h, _⟩
      · rw [name_inj a hw.2 q q' hq hq' (hn.trans hn'.symm)]; exact ⟨v, hv⟩
      · exact absurd hn (h q hq)
    refine ⟨a, p, b, hg, ⟨fun q hq => ?_, hw.2⟩, fun q hq => ⟨?_, ?_, ?_, ?_⟩, (hkey "range" .range (by simp) p).1 hk, o, ho⟩
    · obtain ⟨n, hn, e⟩ := hw.1 q hq
      have := hno q hq
      refine ⟨n, ?_, e⟩
      rw [e] at this
      simp only [numberNames, List.map_cons, List.map_nil, List.mem_cons] at hn
      rcases hn with rfl | hn
      · exact absurd rfl this
      · simpa using hn
    · intro hn
      obtain ⟨v, hv⟩ := hsay "nan" .nan (by simp) q hq hn
      exact ⟨v, (metaTriAllow_ok ..).1 hv⟩
    · intro hn
      obtain ⟨v, hv⟩ := hsay "conflict" .conflict (by simp) q hq hn
      exact ⟨v, (metaAllow_ok ..).1 hv⟩
    · intro hn
      obtain ⟨v, hv⟩ := hsay "serde" .serde (by simp) q hq hn
      exact ⟨v, (metaFlags_ok E.syn E.serde "Serialize" "Deserialize" (by simp) q v).1 hv⟩
    · intro hn
      obtain ⟨v, hv⟩ := hsay "rocket" .rocket (by simp) q hq hn
      exact ⟨v, (metaFlags_ok E.syn E.rocket "FromFormField" "FromParam" (by simp) q v).1 hv⟩
  · rintro ⟨a, p, b, hg, hw, hsay, hn, o, ho⟩
    refine ⟨_, hg, (run_panic_iff ..).2 ?_⟩
    have hno : ∀ q ∈ a, q.name ≠ some "range" := by
      intro q hq e
      obtain ⟨n, hn, e'⟩ := hw.1 q hq
      rw [e] at e'
      cases e'
      simp at hn
    have hok : (run (table E numberNames) a (State.init _)).IsOk := by
      refine (run_isOk_names (table E numberNames) numberNames (fun _ => rfl) distinctA_number a).2
        ⟨⟨fun q hq => ?_, hw.2⟩, fun n k hm => ?_⟩
      · obtain ⟨n, hn, e⟩ := hw.1 q hq
        exact ⟨n, List.mem_cons_of_mem _ hn, e⟩
      · by_cases hex : ∃ q ∈ a, q.name = some n
        · obtain ⟨q, hq, e⟩ := hex
          obtain ⟨h1, h2, h3, h4⟩ := hsay q hq
          have : ∃ v, Key.read E k q = .ok v := by
            simp only [numberNames, List.mem_cons, Prod.mk.injEq, List.not_mem_nil, or_false] at hm
            rcases hm with ⟨rfl, rfl⟩ | ⟨rfl, rfl⟩ | ⟨rfl, rfl⟩ | ⟨rfl, rfl⟩ | ⟨rfl, rfl⟩
            · exact absurd e (hno q hq)
            · obtain ⟨v, hv⟩ := h1 e; exact ⟨v, (metaTriAllow_ok ..).2 hv⟩
            · obtain ⟨v, hv⟩ := h2 e; exact ⟨v, (metaAllow_ok ..).2 hv⟩
            · obtain ⟨v, hv⟩ := h3 e
              exact ⟨v, (metaFlags_ok E.syn E.serde "Serialize" "Deserialize" (by simp) q v).2 hv⟩
            · obtain ⟨v, hv⟩ := h4 e
              exact ⟨v, (metaFlags_ok E.syn E.rocket "FromFormField" "FromParam" (by simp) q v).2 hv⟩
          obtain ⟨v, hv⟩ := this
          exact ⟨some v, .inl ⟨q, hq, e, v, rfl, hv⟩⟩
        · exact ⟨none, .inr ⟨fun q hq e => hex ⟨q, hq, e⟩, rfl⟩⟩
    obtain ⟨s, hs⟩ := hok
    refine ⟨a, p, b, s, rfl, hs, (step_panic_iff ..).2 ⟨.range, (hkey "range" .range (by simp) p).2 hn, ?_, (readRange_panic E p).2 ⟨o, ho⟩⟩⟩
    rcases run_set (table E numberNames) numberNames (fun _ => rfl) distinctA_number a s hs "range" .range (by simp) with
      ⟨q, hq, e, _⟩ | ⟨_, e⟩
    · exact absurd e (hno q hq)
    · exact e

end Verif.Attr
