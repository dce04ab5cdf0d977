import Verif.Spec.Attr

/-!
# Lemmas about reading parameters
-/

namespace Verif.Attr

open Verif.Spec.Attr
open Verif.Range (Bounds RangeOption CmpOp evalOp)

variable {τ α κ β γ : Type}

theorem orErr_ok (e : AttrError) (o : Option β) (b : β) : orErr e o = .ok b ↔ o = some b := by
  cases o <;> simp [orErr]

theorem bind_ok_iff {ε : Type} (x : Out ε β) (f : β → Out ε γ) (c : γ) : x.bind f = .ok c ↔ ∃ b, x = .ok b ∧ f b = .ok c := by
  cases x <;> simp

theorem map_ok_iff {ε : Type} (x : Out ε β) (f : β → γ) (c : γ) : x.map f = .ok c ↔ ∃ b, x = .ok b ∧ f b = c := by
  cases x <;> simp

@[simp] theorem ex2 {δ : Type} (a : β) (b : δ) (p : β → δ → Prop) : (∃ x y, (a = x ∧ b = y) ∧ p x y) ↔ p a b :=
  ⟨fun ⟨_, _, ⟨h1, h2⟩, h⟩ => h1 ▸ h2 ▸ h, fun h => ⟨a, b, ⟨rfl, rfl⟩, h⟩⟩

/-! ## Readers -/

theorem metaIdent_ok (syn : Syn τ) (m : Meta τ) (w : String) : metaIdent syn m = .ok w ↔ Word syn m w := by
  unfold Word
  cases m with
  | path n => simp [metaIdent]
  | nameValue n e =>
    cases e <;> simp [metaIdent]
    rename_i i; cases i <;> simp
  | list n t => simp [metaIdent, orErr_ok]

theorem word_unique (syn : Syn τ) (m : Meta τ) (w w' : String) (h : Word syn m w) (h' : Word syn m w') : w = w' := by
  rw [← metaIdent_ok] at h h'
  rw [h] at h'; exact Out.ok.inj h'

theorem metaAllow_ok (syn : Syn τ) (m : Meta τ) (v : Allow) : metaAllow syn m = .ok v ↔ SaysAllow syn m v := by
  simp only [metaAllow, bind_ok_iff, metaIdent_ok, allowOf]
  cases v <;> simp only [SaysAllow] <;> constructor
  all_goals first
    | (intro h; exact ⟨_, h, by simp⟩)
    | (rintro ⟨w, hw, h⟩; grind)

theorem metaTriAllow_ok (syn : Syn τ) (m : Meta τ) (v : TriAllow) : metaTriAllow syn m = .ok v ↔ SaysTri syn m v := by
  simp only [metaTriAllow, bind_ok_iff, metaIdent_ok, triAllowOf]
  cases v <;> simp only [SaysTri] <;> constructor
  all_goals first
    | (intro h; exact ⟨_, h, by simp⟩)
    | (rintro ⟨w, hw, h⟩; grind)

theorem metaCase_ok (syn : Syn τ) (m : Meta τ) (v : CaseOption) : metaCase syn m = .ok v ↔ SaysCase syn m v := by
  simp only [metaCase, bind_ok_iff, metaIdent_ok, caseOf]
  cases v <;> simp only [SaysCase] <;> constructor
  all_goals first
    | (intro h; exact ⟨_, h, by simp⟩)
    | (rintro ⟨w, hw, h⟩; grind)

theorem metaSeparator_ok (syn : Syn τ) (m : Meta τ) (v : SeparatorOption) : metaSeparator syn m = .ok v ↔ SaysSeparator syn m v := by
  unfold SaysSeparator
  cases m with
  | path n => simp [metaSeparator]
  | nameValue n e => simp [metaSeparator]
  | list n t =>
    simp only [metaSeparator, bind_ok_iff, orErr_ok]
    constructor
    · rintro ⟨m, hm, h⟩
      refine ⟨n, t, m, rfl, hm, ?_⟩
      cases m with
      | path i => by_cases hi : i = some "Disallow" <;> simp [hi] at h; subst h; simp [hi]
      | nameValue i e =>
        cases i with
        | none => simp at h
        | some i =>
          cases e with
          | lit l =>
            cases l with
            | byte b =>
              simp only at h
              by_cases h1 : i = "Must"
              · simp only [if_pos h1] at h; cases h; subst h1; exact .inl rfl
              · by_cases h2 : i = "Allow"
                · simp only [if_neg h1, if_pos h2] at h; cases h; subst h2; exact .inl rfl
                · simp [h1, h2] at h
            | _ => simp at h
          | _ => simp at h
      | list i u =>
        cases i with
        | none => simp at h
        | some i =>
          simp only at h
          by_cases h1 : i = "Must"
          · simp only [if_pos h1, map_ok_iff, orErr_ok] at h; obtain ⟨b, hb, rfl⟩ := h; subst h1; exact .inr ⟨u, rfl, hb⟩
          · by_cases h2 : i = "Allow"
            · simp only [if_neg h1, if_pos h2, map_ok_iff, orErr_ok] at h; obtain ⟨b, hb, rfl⟩ := h; subst h2; exact .inr ⟨u, rfl, hb⟩
            · simp [h1, h2] at h
    · rintro ⟨n', t', m, e, hm, h⟩
      cases e
      refine ⟨m, hm, ?_⟩
      cases v with
      | must b => obtain rfl | ⟨u, rfl, hu⟩ := h <;> simp [map_ok_iff, orErr_ok, *]
      | allow b => obtain rfl | ⟨u, rfl, hu⟩ := h <;> simp [map_ok_iff, orErr_ok, *]
      | disallow => simp only at h; subst h; simp

theorem litNumber_ok (fromStr : List UInt8 → Option α) (l : Lit) (v : α) :
    litNumber fromStr l = .ok v ↔ ∃ d, Digits l d ∧ fromStr d = some v := by
  unfold Digits
  cases l <;> simp [litNumber, orErr_ok]

theorem metaNumber_ok (syn : Syn τ) (fromStr : List UInt8 → Option α) (m : Meta τ) (v : α) :
    metaNumber syn fromStr m = .ok v ↔ SaysNumber syn fromStr m v := by
  unfold SaysNumber
  cases m with
  | path n => simp [metaNumber]
  | nameValue n e =>
    cases e with
    | lit l => simp [metaNumber, exprNumber, litNumber_ok]
    | neg l => cases l <;> simp [metaNumber, exprNumber, orErr_ok, Digits]
    | group l => cases l <;> simp [metaNumber, exprNumber, litNumber_ok]
    | _ => simp [metaNumber, exprNumber]
  | list n t =>
    simp only [metaNumber]
    cases h : syn.litInt t <;> simp [orErr_ok, bind_ok_iff, h]

theorem metaBool_ok (syn : Syn τ) (m : Meta τ) (v : Bool) : metaBool syn m = .ok v ↔ SaysBool syn m v := by
  unfold SaysBool
  cases m with
  | path n => simp [metaBool]
  | list n t => simp [metaBool, orErr_ok]
  | nameValue n e =>
    cases e with
    | lit l => cases l <;> simp [metaBool]
    | group l =>
      cases l with
      | none => simp [metaBool]
      | some l => cases l <;> simp [metaBool]
    | _ => simp [metaBool]

theorem flagLoop_ok (enabled : Bool) (a b : String) (hab : a ≠ b) (ws : List String) (f g : Flags) :
    flagLoop enabled a b ws f = .ok g ↔
      ws.Nodup ∧ (∀ w ∈ ws, w = a ∨ w = b) ∧ (ws ≠ [] → enabled = true) ∧ (f.first = true → a ∉ ws) ∧ (f.second = true → b ∉ ws) ∧
        (g.first = true ↔ f.first = true ∨ a ∈ ws) ∧ (g.second = true ↔ f.second = true ∨ b ∈ ws) := by
  induction ws generalizing f with
  | nil =>
    obtain ⟨f1, f2⟩ := f; obtain ⟨g1, g2⟩ := g
    cases f1 <;> cases f2 <;> cases g1 <;> cases g2 <;> simp [flagLoop]
  | cons w ws ih =>
    simp only [flagLoop, bind_ok_iff]
    by_cases h1 : w = a
    · subst h1
      obtain ⟨f1, f2⟩ := f
      cases f1
      · cases enabled
        · simp
        · simp [ih]; grind
      · simp
    · by_cases h2 : w = b
      · subst h2
        obtain ⟨f1, f2⟩ := f
        cases f2
        · cases enabled
          · simp [h1]
          · simp [h1, ih]; grind
        · simp [h1]
      · simp [h1, h2]

theorem metaFlags_ok (syn : Syn τ) (enabled : Bool) (a b : String) (hab : a ≠ b) (m : Meta τ) (f : Flags) :
    metaFlags syn enabled a b m = .ok f ↔ SaysFlags syn enabled a b m f := by
  unfold SaysFlags
  cases m with
  | path n =>
    obtain ⟨f1, f2⟩ := f
    cases enabled <;> cases f1 <;> cases f2 <;> simp [metaFlags]
  | nameValue n e =>
    cases e with
    | lit l =>
      cases l <;> simp [metaFlags]
      rename_i c; obtain ⟨f1, f2⟩ := f
      cases c <;> cases enabled <;> cases f1 <;> cases f2 <;> simp
    | _ => simp [metaFlags]
  | list n t => simp [metaFlags, bind_ok_iff, orErr_ok, flagLoop_ok _ _ _ hab]

theorem countryLoop_ok [DecidableEq κ] (country : String → Option κ) (is : List String) (cs ds : List κ) (hc : cs.Nodup) :
    countryLoop country is cs = .ok ds ↔ ∃ es, ds = cs ++ es ∧ is.map country = es.map some ∧ ds.Nodup := by
  induction is generalizing cs with
  | nil =>
    simp only [countryLoop, List.map_nil]
    constructor
    · intro h; cases h; exact ⟨[], by simp, by simp, hc⟩
    · rintro ⟨es, rfl, h, _⟩; cases es <;> simp_all
  | cons i is ih =>
    simp only [countryLoop, bind_ok_iff, orErr_ok]
    constructor
    · rintro ⟨c, hi, h⟩
      by_cases hm : c ∈ cs
      · simp [hm] at h
      · rw [if_neg hm, ih _ (by rw [List.nodup_append]; simp [hc]; intro a ha e; exact hm (e ▸ ha))] at h
        obtain ⟨es, rfl, he, hn⟩ := h
        exact ⟨c :: es, by simp, by simp [hi, he], hn⟩
    · rintro ⟨es, rfl, he, hn⟩
      cases es with
      | nil => simp at he
      | cons c es =>
        simp only [List.map_cons, List.cons.injEq] at he
        have hm : c ∉ cs := by
          rw [List.nodup_append] at hn
          intro hc'; exact hn.2.2 c hc' c (by simp) rfl
        refine ⟨c, he.1, ?_⟩
        rw [if_neg hm, ih _ (by rw [List.nodup_append]; simp [hc]; intro a ha e; exact hm (e ▸ ha))]
        exact ⟨es, by simp, he.2, by simpa using hn⟩

theorem metaCountries_ok [DecidableEq κ] (syn : Syn τ) (country : String → Option κ) (order : Order κ) (m : Meta τ)
    (cs : List κ) : metaCountries syn country order m = .ok cs ↔ SaysCountries syn country order m cs := by
  unfold SaysCountries
  cases m with
  | path n => simp [metaCountries]
  | nameValue n e => simp [metaCountries]
  | list n t =>
    simp only [metaCountries, bind_ok_iff, orErr_ok, map_ok_iff, Meta.list.injEq]
    constructor
    · rintro ⟨is, hi, ds, hd, rfl⟩
      obtain ⟨es, rfl, he, hn⟩ := (countryLoop_ok country is [] ds (by simp)).1 hd
      exact ⟨n, t, is, ds, ⟨rfl, rfl⟩, hi, he, by simpa using hn, rfl⟩
    · rintro ⟨_, _, is, es, ⟨rfl, rfl⟩, hi, he, hn, rfl⟩
      exact ⟨is, hi, es, (countryLoop_ok country is [] es (by simp)).2 ⟨es, by simp, he, by simpa using hn⟩, rfl⟩

theorem regexExpr_ok (regexOk : String → Bool) (e v : Expr) :
    regexExpr regexOk e = .ok v ↔ e = v ∧ ((∃ s, v = .lit (.str s) ∧ regexOk s = true) ∨ ∀ l, v ≠ .lit l) := by
  cases e with
  | lit l =>
    cases l with
    | str s =>
      simp only [regexExpr]
      by_cases h : regexOk s = true
      · rw [if_pos h]
        constructor
        · intro e; cases e; exact ⟨rfl, .inl ⟨s, rfl, h⟩⟩
        · rintro ⟨rfl, _⟩; rfl
      · rw [if_neg h]
        constructor
        · intro e; cases e
        · rintro ⟨rfl, ⟨s', e, h'⟩ | h'⟩
          · cases e; exact (h h').elim
          · exact (h' _ rfl).elim
    | _ =>
      simp only [regexExpr]
      constructor
      · intro e; cases e
      · rintro ⟨rfl, ⟨s', e, h'⟩ | h'⟩
        · cases e
        · exact (h' _ rfl).elim
  | _ =>
    simp only [regexExpr]
    constructor
    · intro e; cases e; exact ⟨rfl, .inr (by intro l e; cases e)⟩
    · rintro ⟨rfl, _⟩; rfl

theorem metaRegex_ok (syn : Syn τ) (regexOk : String → Bool) (m : Meta τ) (v : Expr) :
    metaRegex syn regexOk m = .ok v ↔ SaysRegex syn regexOk m v := by
  unfold SaysRegex
  cases m with
  | path n => simp [metaRegex]
  | nameValue n e => simp [metaRegex, regexExpr_ok]
  | list n t =>
    simp only [metaRegex, regexExpr_ok, bind_ok_iff, orErr_ok, reduceCtorEq, exists_false, false_or, Meta.list.injEq, ex2]
    exact ⟨fun ⟨b, h, e, h'⟩ => e ▸ ⟨h, e ▸ h'⟩, fun ⟨h, h'⟩ => ⟨v, h, rfl, h'⟩⟩

/-! ## The loop -/

section
variable {K : Type} {V : K → Type}

/-- The variable that a parameter sets. -/
def Table.keyOf (T : Table τ V) (m : Meta τ) : Option K := m.name.bind T.key

/-- The parameter can be read. -/
def Table.Good (T : Table τ V) (m : Meta τ) : Prop := ∃ k, T.keyOf m = some k ∧ ∃ v, T.read k m = .ok v

/-- What a variable holds after the loop. -/
def Table.Holds (T : Table τ V) (s0 : State V) (ms : List (Meta τ)) (k : K) (v : Option (V k)) : Prop :=
  (∃ m ∈ ms, T.keyOf m = some k ∧ ∃ w, T.read k m = .ok w ∧ v = some w) ∨ (∀ m ∈ ms, T.keyOf m ≠ some k) ∧ v = s0 k

variable [DecidableEq K]

theorem put_same (s : State V) (k : K) (v : V k) : State.put s k v k = some v := by
  simp [State.put]

theorem put_other (s : State V) (k j : K) (v : V k) (h : k ≠ j) : State.put s k v j = s j := by
  simp [State.put, h]

theorem assign_ok {ε : Type} (s s' : State V) (k : K) (e : ε) (r : Out ε (V k)) :
    assign s k e r = .ok s' ↔ s k = none ∧ ∃ v, r = .ok v ∧ s' = State.put s k v := by
  unfold assign
  cases r <;> cases hs : s k <;> simp [eq_comm]

theorem assign_err {ε : Type} (s : State V) (k : K) (e e' : ε) (r : Out ε (V k)) :
    assign s k e r = .err e' ↔ r = .err e' ∨ (s k).isSome = true ∧ (∀ e'', r ≠ .err e'') ∧ e = e' := by
  unfold assign
  cases r <;> cases hs : s k <;> simp

theorem assign_panic {ε : Type} (s : State V) (k : K) (e : ε) (r : Out ε (V k)) :
    assign s k e r = .panic ↔ r = .panic ∧ s k = none := by
  unfold assign
  cases r <;> cases hs : s k <;> simp

theorem step_ok (T : Table τ V) (s s' : State V) (m : Meta τ) :
    step T s m = .ok s' ↔ ∃ k, T.keyOf m = some k ∧ s k = none ∧ ∃ v, T.read k m = .ok v ∧ s' = State.put s k v := by
  unfold step Table.keyOf
  cases h : m.name.bind T.key with
  | none => simp
  | some k =>
    simp only [Option.some.injEq, exists_eq_left']
    split_ifs with hc
    · simp only [Bool.and_eq_true] at hc
      obtain ⟨w, hw⟩ := Option.isSome_iff_exists.1 hc.2
      simp [hw]
    · exact assign_ok s s' k _ _

/-- The loop succeeds if every parameter can be read, none sets a variable that is set, and no two set the same. -/
theorem run_isOk (T : Table τ V) (ms : List (Meta τ)) (s0 : State V) :
    (run T ms s0).IsOk ↔ (∀ m ∈ ms, T.Good m) ∧ (ms.map T.keyOf).Nodup ∧ ∀ m ∈ ms, ∀ k, T.keyOf m = some k → s0 k = none := by
  induction ms generalizing s0 with
  | nil => simp [run]
  | cons m ms ih =>
    constructor
    · rintro ⟨s, hs⟩
      simp only [run, bind_ok_iff] at hs
      obtain ⟨s1, h1, h2⟩ := hs
      rw [step_ok] at h1
      obtain ⟨k, hk, hn, v, hv, rfl⟩ := h1
      obtain ⟨g, nd, fresh⟩ := (ih _).1 ⟨s, h2⟩
      have hne : ∀ m' ∈ ms, T.keyOf m' ≠ some k := by
        intro m' hm' e
        have := fresh m' hm' k e
        simp [put_same] at this
      refine ⟨?_, ?_, ?_⟩
      · simp only [List.mem_cons, forall_eq_or_imp]; exact ⟨⟨k, hk, v, hv⟩, g⟩
      · simp only [List.map_cons, List.nodup_cons, List.mem_map, not_exists, not_and]
        exact ⟨fun m' hm' e => hne m' hm' (e.trans hk), nd⟩
      · simp only [List.mem_cons, forall_eq_or_imp]
        refine ⟨fun j hj => ?_, fun m' hm' j hj => ?_⟩
        · rw [hk] at hj; cases hj; exact hn
        · have := fresh m' hm' j hj
          rwa [put_other] at this
          rintro rfl; exact hne m' hm' hj
    · rintro ⟨g, nd, fresh⟩
      simp only [List.mem_cons, forall_eq_or_imp, List.map_cons, List.nodup_cons, List.mem_map, not_exists, not_and] at g nd fresh
      obtain ⟨⟨k, hk, v, hv⟩, g⟩ := g
      have hs : step T s0 m = .ok (State.put s0 k v) := (step_ok ..).2 ⟨k, hk, fresh.1 k hk, v, hv, rfl⟩
      have : (run T ms (State.put s0 k v)).IsOk := by
        refine (ih _).2 ⟨g, nd.2, fun m' hm' j hj => ?_⟩
        rw [put_other]
        · exact fresh.2 m' hm' j hj
        · rintro rfl; exact nd.1 m' hm' (hj.trans hk.symm)
      obtain ⟨s, h⟩ := this
      exact ⟨s, by simp [run, hs, h]⟩

theorem run_holds (T : Table τ V) (ms : List (Meta τ)) (s0 s : State V) (h : run T ms s0 = .ok s) (k : K) : T.Holds s0 ms k (s k) := by
  induction ms generalizing s0 with
  | nil => simp only [run, Out.ok.injEq] at h; subst h; exact .inr ⟨by simp, rfl⟩
  | cons m ms ih =>
    have hall := (run_isOk T (m :: ms) s0).1 ⟨s, h⟩
    simp only [run, bind_ok_iff] at h
    obtain ⟨s1, h1, h2⟩ := h
    rw [step_ok] at h1
    obtain ⟨j, hj, hn, v, hv, rfl⟩ := h1
    obtain ⟨m', hm', hk', w, hw, e⟩ | ⟨hno, e⟩ := ih _ h2
    · exact .inl ⟨m', by simp [hm'], hk', w, hw, e⟩
    · by_cases hjk : j = k
      · subst hjk
        exact .inl ⟨m, by simp, hj, v, hv, by rw [e, put_same]⟩
      · refine .inr ⟨?_, by rw [e, put_other _ _ _ _ hjk]⟩
        simp only [List.mem_cons, forall_eq_or_imp]
        exact ⟨by rw [hj]; simpa using hjk, hno⟩

/-- The parameters of a meta, and the loop over them. -/
theorem params_ok (syn : Syn τ) (T : Table τ V) (m : Meta τ) (s : State V) :
    params syn T m = .ok s ↔ ∃ ps, Gives syn m ps ∧ run T ps (State.init V) = .ok s := by
  unfold Gives
  cases m with
  | path n => simp [params, run]
  | nameValue n e => simp [params]
  | list n t => simp [params, bind_ok_iff, orErr_ok]

end

/-! ## Parameters by name -/

theorem set_iff (ps : List (Meta τ)) (n : String) (Says : Meta τ → β → Prop) (d v : β) :
    Spec.Attr.Set ps n Says d v ↔ ∃ o, SetOpt ps n Says o ∧ v = o.getD d := by
  unfold SetOpt Spec.Attr.Set
  constructor
  · rintro (⟨p, hp, hn, h⟩ | ⟨hno, rfl⟩)
    · exact ⟨some v, .inl ⟨p, hp, hn, v, rfl, h⟩, rfl⟩
    · exact ⟨none, .inr ⟨hno, rfl⟩, rfl⟩
  · rintro ⟨o, ⟨p, hp, hn, b, rfl, h⟩ | ⟨hno, rfl⟩, rfl⟩
    · exact .inl ⟨p, hp, hn, h⟩
    · exact .inr ⟨hno, rfl⟩

theorem name_inj (ps : List (Meta τ)) (hn : (ps.map Meta.name).Nodup) (p q : Meta τ) (hp : p ∈ ps) (hq : q ∈ ps)
    (h : p.name = q.name) : p = q := by
  induction ps with
  | nil => cases hp
  | cons x xs ih =>
    simp only [List.map_cons, List.nodup_cons, List.mem_map, not_exists, not_and] at hn
    rcases List.mem_cons.1 hp with rfl | hp' <;> rcases List.mem_cons.1 hq with rfl | hq'
    · rfl
    · exact (hn.1 q hq' h.symm).elim
    · exact (hn.1 p hp' h).elim
    · exact ih hn.2 hp' hq'

theorem setOpt_unique (ps : List (Meta τ)) (hn : (ps.map Meta.name).Nodup) (n : String) (Says : Meta τ → β → Prop)
    (hf : ∀ p v w, Says p v → Says p w → v = w) (o o' : Option β) (h : SetOpt ps n Says o) (h' : SetOpt ps n Says o') : o = o' := by
  rcases h with ⟨p, hp, e, b, rfl, hb⟩ | ⟨hno, rfl⟩ <;> rcases h' with ⟨p', hp', e', b', rfl, hb'⟩ | ⟨hno', rfl⟩
  · rw [name_inj ps hn p p' hp hp' (e.trans e'.symm)] at hb
    rw [hf _ _ _ hb hb']
  · exact (hno' p hp e).elim
  · exact (hno p' hp' e').elim
  · rfl

/-- A list of names and keys in which no name and no key occurs twice. -/
structure Distinct {δ : Type} (l : List (String × δ)) : Prop where
  names : (l.map Prod.fst).Nodup
  keys : (l.map Prod.snd).Nodup

theorem lookup_mem {δ : Type} (names : List (String × δ)) (x : String) (k : δ) (h : names.lookup x = some k) : (x, k) ∈ names := by
  induction names with
  | nil => simp at h
  | cons a as ih =>
    obtain ⟨y, j⟩ := a
    rw [List.lookup_cons] at h
    by_cases hxy : x == y
    · simp [hxy] at h; simp at hxy; simp [hxy, h]
    · simp [hxy] at h; exact List.mem_cons_of_mem _ (ih h)

theorem lookup_of_mem {δ : Type} (names : List (String × δ)) (hd : (names.map Prod.fst).Nodup) (x : String) (k : δ) (h : (x, k) ∈ names) :
    names.lookup x = some k := by
  induction names with
  | nil => simp at h
  | cons a as ih =>
    obtain ⟨y, j⟩ := a
    simp only [List.map_cons, List.nodup_cons] at hd
    rw [List.lookup_cons]
    rcases List.mem_cons.1 h with e | h'
    · cases e; simp
    · have : x ≠ y := by rintro rfl; exact hd.1 (List.mem_map.2 ⟨(x, k), h', rfl⟩)
      have hb : (x == y) = false := by simpa using this
      simp only [hb, ih hd.2 h']

theorem key_inj {δ : Type} (names : List (String × δ)) (hd : (names.map Prod.snd).Nodup) (x y : String) (k : δ) (h : (x, k) ∈ names)
    (h' : (y, k) ∈ names) : x = y := by
  induction names with
  | nil => simp at h
  | cons a as ih =>
    obtain ⟨z, j⟩ := a
    simp only [List.map_cons, List.nodup_cons] at hd
    rcases List.mem_cons.1 h with e | h1 <;> rcases List.mem_cons.1 h' with e' | h2
    · cases e; cases e'; rfl
    · cases e; exact (hd.1 (List.mem_map.2 ⟨(y, k), h2, rfl⟩)).elim
    · cases e'; exact (hd.1 (List.mem_map.2 ⟨(x, k), h1, rfl⟩)).elim
    · exact ih hd.2 h1 h2

section
variable {K : Type} [DecidableEq K] {V : K → Type} (T : Table τ V) (names : List (String × K)) (hk : ∀ n, T.key n = names.lookup n) (hd : Distinct names)
include hk hd

theorem keyOf_iff (n : String) (k : K) (h : (n, k) ∈ names) (m : Meta τ) : T.keyOf m = some k ↔ m.name = some n := by
  unfold Table.keyOf
  cases hm : m.name with
  | none => simp
  | some x =>
    simp only [Option.bind_some, hk, Option.some.injEq]
    constructor
    · intro e; exact key_inj names hd.keys _ _ k (lookup_mem names x k e) h
    · rintro rfl; exact lookup_of_mem names hd.names _ _ h

theorem run_set (ps : List (Meta τ)) (s : State V) (h : run T ps (State.init V) = .ok s) (n : String) (k : K) (hm : (n, k) ∈ names) :
    SetOpt ps n (fun p v => T.read k p = .ok v) (s k) := by
  rcases run_holds T ps _ s h k with ⟨p, hp, e, w, hw, e'⟩ | ⟨hno, e⟩
  · exact .inl ⟨p, hp, (keyOf_iff T names hk hd n k hm p).1 e, w, e', hw⟩
  · exact .inr ⟨fun p hp e' => hno p hp ((keyOf_iff T names hk hd n k hm p).2 e'), e⟩

theorem run_isOk_names (ps : List (Meta τ)) :
    (run T ps (State.init V)).IsOk ↔
      WellFormed (names.map Prod.fst) ps ∧ ∀ n k, (n, k) ∈ names → ∃ o, SetOpt ps n (fun p v => T.read k p = .ok v) o := by
  constructor
  · intro h
    obtain ⟨g, nd, _⟩ := (run_isOk T ps _).1 h
    have known : ∀ p ∈ ps, ∃ n k, (n, k) ∈ names ∧ p.name = some n := by
      intro p hp
      obtain ⟨k, e, _⟩ := g p hp
      unfold Table.keyOf at e
      cases hn : p.name with
      | none => simp [hn] at e
      | some n => simp only [hn, Option.bind_some, hk] at e; exact ⟨n, k, lookup_mem names n k e, rfl⟩
    refine ⟨⟨fun p hp => ?_, ?_⟩, fun n k hm => ?_⟩
    · obtain ⟨n, k, hm, e⟩ := known p hp
      exact ⟨n, List.mem_map.2 ⟨(n, k), hm, rfl⟩, e⟩
    · refine List.pairwise_map.2 ((List.pairwise_map.1 nd).imp fun {p q} hne e => hne ?_)
      unfold Table.keyOf; rw [e]
    · obtain ⟨s, hs⟩ := h
      exact ⟨s k, run_set T names hk hd ps s hs n k hm⟩
  · rintro ⟨⟨kn, nd⟩, h⟩
    have known : ∀ p ∈ ps, ∃ n k, (n, k) ∈ names ∧ p.name = some n ∧ T.keyOf p = some k := by
      intro p hp
      obtain ⟨n, hn, e⟩ := kn p hp
      obtain ⟨⟨n', k⟩, hm, rfl⟩ := List.mem_map.1 hn
      exact ⟨n', k, hm, e, (keyOf_iff T names hk hd n' k hm p).2 e⟩
    refine (run_isOk T ps _).2 ⟨fun p hp => ?_, ?_, fun _ _ _ _ => rfl⟩
    · obtain ⟨n, k, hm, e, ek⟩ := known p hp
      obtain ⟨o, ⟨q, hq, e', w, _, hw⟩ | ⟨hno, _⟩⟩ := h n k hm
      · rw [name_inj ps nd p q hp hq (e.trans e'.symm)]
        rw [name_inj ps nd p q hp hq (e.trans e'.symm)] at ek
        exact ⟨k, ek, w, hw⟩
      · exact (hno p hp e).elim
    · refine List.pairwise_map.2 ?_
      have := List.pairwise_map.1 nd
      refine List.Pairwise.imp_of_mem ?_ this
      intro p q hp hq hne e
      obtain ⟨n, k, hm, en, ek⟩ := known p hp
      obtain ⟨n', k', hm', en', ek'⟩ := known q hq
      rw [ek, ek'] at e
      cases e
      rw [key_inj names hd.keys n n' k hm hm'] at en
      exact hne (en.trans en'.symm)

/-- What follows if every variable is determined. `pick` reads the wanted values. -/
theorem run_names_ok (ps : List (Meta τ)) (s : State V) :
    run T ps (State.init V) = .ok s →
      WellFormed (names.map Prod.fst) ps ∧ ∀ n k, (n, k) ∈ names → SetOpt ps n (fun p v => T.read k p = .ok v) (s k) :=
  fun h => ⟨((run_isOk_names T names hk hd ps).1 ⟨s, h⟩).1, fun n k hm => run_set T names hk hd ps s h n k hm⟩

/-- Any values that the parameters determine are the result of the loop. -/
theorem run_names_of (ps : List (Meta τ)) (hw : WellFormed (names.map Prod.fst) ps) (f : (k : K) → Option (V k))
    (hf : ∀ n k, (n, k) ∈ names → SetOpt ps n (fun p v => T.read k p = .ok v) (f k)) :
    ∃ s, run T ps (State.init V) = .ok s ∧ ∀ n k, (n, k) ∈ names → s k = f k := by
  obtain ⟨s, hs⟩ := (run_isOk_names T names hk hd ps).2 ⟨hw, fun n k hm => ⟨f k, hf n k hm⟩⟩
  refine ⟨s, hs, fun n k hm => ?_⟩
  refine setOpt_unique ps hw.2 n _ (fun p v w h h' => ?_) _ _ (run_set T names hk hd ps s hs n k hm) (hf n k hm)
  rw [h] at h'; exact Out.ok.inj h'

end

end Verif.Attr
