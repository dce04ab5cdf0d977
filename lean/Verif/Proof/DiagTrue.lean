import Verif.Proof.Diag
import Verif.Proof.AttrAll
import Verif.Spec.Diag

/-!
# The messages are true
-/

namespace Verif.Diag

open Verif.Attr Verif.Derive Verif.Spec.Attr Verif.Spec.Diag
open Verif.Range (Bounds RangeOption CmpOp evalOp)

variable {τ α β γ κ : Type}

theorem bind_err_iff {ε : Type} (x : Out ε β) (f : β → Out ε γ) (e : ε) :
    x.bind f = .err e ↔ x = .err e ∨ ∃ b, x = .ok b ∧ f b = .err e := by cases x <;> simp [Out.bind]

theorem map_err_iff {ε : Type} (x : Out ε β) (f : β → γ) (e : ε) : x.map f = .err e ↔ x = .err e := by cases x <;> simp [Out.map]

theorem orMsg_ok (e : Message α) (x : Option β) (b : β) : orMsg e x = .ok b ↔ x = some b := by cases x <;> simp [orMsg]

theorem orMsg_err (e e' : Message α) (x : Option β) : orMsg e x = .err e' ↔ x = none ∧ e = e' := by cases x <;> simp [orMsg]

theorem forget_eq_ok (x : Out (Message α) β) (b : β) : forget x = .ok b ↔ x = .ok b := by cases x <;> simp [forget]

/-- What is not read successfully does not say a value. -/
theorem not_says {x : Out (Message α) β} {y : Out AttrError β} {P : β → Prop} (hf : forget x = y) (hy : ∀ b, y = .ok b ↔ P b)
    (e : Message α) (h : x = .err e) (b : β) : ¬ P b := by
  rw [← hy b, ← hf, h]; simp [forget]

theorem _root_.Verif.Spec.Diag.Within.trans {syn : Syn τ} {m p q : Meta τ} (h : Within syn m p) (h' : Within syn p q) : Within syn m q := by
  induction h with
  | self => exact h'
  | param n t ps p' q' hps hp _ ih => exact .param n t ps p' q hps hp (ih h')
  | inner n t p' q' hp _ ih => exact .inner n t p' q hp (ih h')

theorem within_of_gives {syn : Syn τ} {m p : Meta τ} {ps : List (Meta τ)} (hg : Gives syn m ps) (hp : p ∈ ps) : Within syn m p := by
  rcases hg with ⟨-, rfl⟩ | ⟨n, t, rfl, ht⟩
  · cases hp
  · exact .param n t ps p p ht hp (.self p)

/-- Truth does not depend on the surroundings of the parameter. -/
theorem Truthful.lift {E : Env τ α κ} {other : Meta τ → String} {m p : Meta τ} (h : Within E.syn m p) {e : Message α}
    (ht : Truthful E other p e) (h1 : ∀ n, e ≠ .missing n) (h2 : ∀ a b, e ≠ .conflict a b) : Truthful E other m e := by
  have hP : ∀ ps, Params E.syn p ps → Params E.syn m ps := fun ps ⟨q, hq, hg⟩ => ⟨q, h.trans hq, hg⟩
  have hW : ∀ ws, Words E.syn p ws → Words E.syn m ws := fun ws ⟨n, t, hq, hg⟩ => ⟨n, t, h.trans hq, hg⟩
  cases e with
  | missing n => exact absurd rfl (h1 n)
  | conflict a b => exact absurd rfl (h2 a b)
  | format x => obtain ⟨q, hq, r⟩ := ht; exact ⟨q, h.trans hq, r⟩
  | unknown x l => obtain ⟨ps, hp, r⟩ := ht; exact ⟨ps, hP ps hp, r⟩
  | reset n =>
    rcases ht with ⟨ps, hp, r⟩ | ⟨ws, hp, r⟩
    · exact .inl ⟨ps, hP ps hp, r⟩
    · exact .inr ⟨ws, hW ws hp, r⟩
  | numberForm x => obtain ⟨q, hq, r⟩ := ht; exact ⟨q, h.trans hq, r⟩
  | boolForm x => obtain ⟨q, hq, r⟩ := ht; exact ⟨q, h.trans hq, r⟩
  | bool => obtain ⟨n, q, hq, r⟩ := ht; exact ⟨n, q, h.trans hq, r⟩
  | separatorForm x => obtain ⟨q, hq, r⟩ := ht; exact ⟨q, h.trans hq, r⟩
  | rangeForm x => obtain ⟨q, hq, r⟩ := ht; exact ⟨q, h.trans hq, r⟩
  | countriesForm => obtain ⟨q, hq, r⟩ := ht; exact ⟨q, h.trans hq, r⟩
  | regexForm => exact h.trans ht
  | regexLiteral => obtain ⟨q, l, hq, r⟩ := ht; exact ⟨q, l, h.trans hq, r⟩
  | word ws =>
    rcases ht with ⟨q, w, hq, r⟩ | ⟨is, hp, r⟩
    · exact .inl ⟨q, w, h.trans hq, r⟩
    · exact .inr ⟨is, hW is hp, r⟩
  | wordForm x ws => obtain ⟨q, hq, r⟩ := ht; exact ⟨q, h.trans hq, r⟩
  | feature f => obtain ⟨⟨q, hq, r⟩, r'⟩ := ht; exact ⟨⟨q, h.trans hq, r⟩, r'⟩
  | above a b => obtain ⟨r, ps, hp, r'⟩ := ht; exact ⟨r, ps, hP ps hp, r'⟩
  | notBelow a b => obtain ⟨r, ps, hp, r'⟩ := ht; exact ⟨r, ps, hP ps hp, r'⟩
  | lengths x a y b => obtain ⟨r, ps, hp, r'⟩ := ht; exact ⟨r, ps, hP ps hp, r'⟩
  | repeated c => obtain ⟨ws, hp, r⟩ := ht; exact ⟨ws, hW ws hp, r⟩
  | syn | lib | number | literal => trivial

/-- A true message of a reader of one parameter. -/
def Local (E : Env τ α κ) (other : Meta τ → String) (m : Meta τ) (e : Message α) : Prop :=
  Truthful E other m e ∧ (∀ n, e ≠ .missing n) ∧ ∀ a b, e ≠ .conflict a b

theorem Local.lift {E : Env τ α κ} {other : Meta τ → String} {m p : Meta τ} (h : Within E.syn m p) {e : Message α}
    (ht : Local E other p e) : Local E other m e := ⟨Truthful.lift h ht.1 ht.2.1 ht.2.2, ht.2⟩

/-! ## Single values -/

variable (E : Env τ α κ) (other : Meta τ → String)

theorem litNumber_err (f : List UInt8 → Option β) (l : Lit) (e : Message α) (h : litNumber f l = .err e) : e = .lib ∨ e = .number := by
  cases l <;> simp_all [litNumber, orMsg_err]

theorem exprNumber_err (f : List UInt8 → Option β) (x : Expr) (e : Message α) (h : exprNumber f x = .err e) : e = .lib ∨ e = .number := by
  unfold exprNumber at h
  split at h
  · exact litNumber_err _ _ _ h
  · simp_all [orMsg_err]
  · simp_all [orMsg_err]
  · exact litNumber_err _ _ _ h
  · simp_all

theorem local_plain (m : Meta τ) (e : Message α) (h : e = .lib ∨ e = .number ∨ e = .syn ∨ e = .literal) : Local E other m e := by
  rcases h with rfl | rfl | rfl | rfl <;> exact ⟨trivial, by simp, by simp⟩

theorem metaNumber_true (f : List UInt8 → Option β) (m : Meta τ) (e : Message α) (h : metaNumber E.syn other f m = .err e) :
    Local E other m e := by
  cases m with
  | path n =>
    simp only [metaNumber, Out.err.injEq] at h
    subst h
    exact ⟨⟨n, .self _, rfl⟩, by simp, by simp⟩
  | nameValue n x => have := exprNumber_err _ _ _ h; exact local_plain E other _ _ (by grind)
  | list n t =>
    simp only [metaNumber] at h
    cases hi : E.syn.litInt t <;> rw [hi] at h <;> simp only [bind_err_iff, orMsg_err] at h <;>
      exact local_plain E other _ _ (by grind)

theorem metaBool_true (m : Meta τ) (e : Message α) (h : metaBool E.syn other m = .err e) : Local E other m e := by
  have hn := not_says (forget_metaBool E.syn other m) (metaBool_ok E.syn m) e h
  have key : e = .syn ∨ e = .boolForm (shown other m) := by
    unfold metaBool at h
    split at h <;> simp_all [orMsg_err]
  rcases key with rfl | rfl
  · exact local_plain E other _ _ (by simp)
  · exact ⟨⟨m, .self m, rfl, hn⟩, by simp, by simp⟩

theorem metaSeparator_true (m : Meta τ) (e : Message α) (h : metaSeparator E.syn other m = .err e) : Local E other m e := by
  have hn := not_says (forget_metaSeparator E.syn other m) (metaSeparator_ok E.syn m) e h
  have key : e = .syn ∨ e = .separatorForm (shown other m) := by
    cases m with
    | path n => simp_all [metaSeparator]
    | nameValue n x => simp_all [metaSeparator]
    | list n t =>
      simp only [metaSeparator, bind_err_iff, orMsg_err] at h
      rcases h with ⟨-, h⟩ | ⟨q, -, h⟩
      · exact .inl h.symm
      · split at h
        · split at h <;> first | cases h | (split at h <;> simp_all)
        · simp_all
        · split at h
          · simp only [map_err_iff, orMsg_err] at h; exact .inl h.2.symm
          · split at h
            · simp only [map_err_iff, orMsg_err] at h; exact .inl h.2.symm
            · simp_all
        · simp_all
        · split at h <;> simp_all
  rcases key with rfl | rfl
  · exact local_plain E other _ _ (by simp)
  · exact ⟨⟨m, .self m, rfl, hn⟩, by simp, by simp⟩

/-- A word is asked for, and the words shown are those that are taken. -/
theorem metaWord_true (ws : List String) (of : String → Out (Message α) β) (hof : ∀ w e, of w = .err e → e = .word ws ∧ w ∉ ws)
    (m : Meta τ) (e : Message α) (h : metaWord E.syn other ws of m = .err e) : Local E other m e := by
  have key : (∃ w, Word E.syn m w ∧ of w = .err e) ∨ ((∀ w, ¬ Word E.syn m w) ∧ e = .wordForm (shown other m) ws) := by
    unfold metaWord at h
    split at h
    · exact .inl ⟨_, .inl ⟨_, rfl⟩, h⟩
    · rename_i n x hx
      refine .inr ⟨?_, by simp_all⟩
      rintro w (⟨n', h'⟩ | ⟨n', t, h', -⟩)
      · cases h'; exact hx _ rfl
      · cases h'
    · rename_i n t
      cases hi : E.syn.ident t with
      | some i => rw [hi] at h; exact .inl ⟨i, .inr ⟨n, t, rfl, hi⟩, h⟩
      | none =>
        rw [hi] at h
        refine .inr ⟨?_, by simp_all⟩
        rintro w (⟨n', h'⟩ | ⟨n', t', h', h2⟩)
        · cases h'
        · cases h'; rw [hi] at h2; cases h2
    · refine .inr ⟨?_, by simp_all⟩
      rintro w (⟨n', h'⟩ | ⟨n', t', h', h2⟩) <;> cases h'
  rcases key with ⟨w, hw, ho⟩ | ⟨hw, rfl⟩
  · obtain ⟨rfl, hn⟩ := hof w e ho
    exact ⟨.inl ⟨m, w, .self m, hw, hn⟩, by simp, by simp⟩
  · exact ⟨⟨m, .self m, rfl, hw⟩, by simp, by simp⟩

theorem triAllowOf_err (w : String) (e : Message α) (h : triAllowOf w = .err e) :
    e = .word ["Must", "Allow", "Disallow"] ∧ w ∉ ["Must", "Allow", "Disallow"] := by
  unfold triAllowOf at h
  grind

theorem allowOf_err (w : String) (e : Message α) (h : allowOf w = .err e) : e = .word ["Allow", "Disallow"] ∧ w ∉ ["Allow", "Disallow"] := by
  unfold allowOf at h
  grind

theorem caseOf_err (w : String) (e : Message α) (h : caseOf w = .err e) :
    e = .word ["Any", "Upper", "Lower"] ∧ w ∉ ["Any", "Upper", "Lower"] := by
  unfold caseOf at h
  grind

theorem flagLoop_err (feature : String) (enabled : Bool) (a b : String) (ws done : List String) (f : Flags) (e : Message α)
    (ha : f.first = true → a ∈ done) (hb : f.second = true → b ∈ done) (h : flagLoop feature enabled a b ws f = .err e) :
    (∃ w, e = .reset w ∧ Twice (fun x => x = w) (done ++ ws)) ∨ (∃ w ∈ ws, e = .word [a, b] ∧ w ∉ [a, b]) ∨
      (e = .feature feature ∧ enabled = false) := by
  induction ws generalizing f done with
  | nil => cases h
  | cons w ws ih =>
    have twice : w ∈ done → Twice (fun x => x = w) (done ++ w :: ws) := by
      intro hw
      obtain ⟨x, y, rfl⟩ := List.append_of_mem hw
      exact ⟨x, w, y, w, ws, by simp, rfl, rfl⟩
    have next : ∀ g : Flags, (g.first = true → a ∈ done ++ [w]) → (g.second = true → b ∈ done ++ [w]) →
        (if enabled then flagLoop feature enabled a b ws g else .err (.feature feature)) = .err e →
        (∃ w', e = .reset w' ∧ Twice (fun x => x = w') (done ++ w :: ws)) ∨ (∃ w' ∈ w :: ws, e = .word [a, b] ∧ w' ∉ [a, b]) ∨
          (e = .feature feature ∧ enabled = false) := by
      intro g g1 g2 hg
      cases enabled with
      | false => simp at hg; exact .inr (.inr ⟨hg.symm, rfl⟩)
      | true =>
        simp only [if_true] at hg
        rcases ih (done ++ [w]) g g1 g2 hg with ⟨w', h1, h2⟩ | ⟨w', h1, h2⟩ | h1
        · exact .inl ⟨w', h1, by simpa using h2⟩
        · exact .inr (.inl ⟨w', .tail _ h1, h2⟩)
        · exact .inr (.inr h1)
    unfold flagLoop at h
    rw [bind_err_iff] at h
    rcases h with h | ⟨g, hg, h⟩
    · split at h
      · split at h
        · cases h; rename_i h1 h2; exact .inl ⟨w, rfl, twice (by rw [h1]; exact ha h2)⟩
        · cases h
      · split at h
        · split at h
          · cases h; rename_i h1 h2; exact .inl ⟨w, rfl, twice (by rw [h1]; exact hb h2)⟩
          · cases h
        · cases h; rename_i h1 h2; exact .inr (.inl ⟨w, .head _, rfl, by simp [h1, h2]⟩)
    · refine next g ?_ ?_ h
      · intro h1
        by_cases hw : w = a
        · simp [hw]
        · simp only [hw, if_false] at hg
          have : a ∈ done := ha (by grind)
          simp [this]
      · intro h1
        by_cases hw : w = b
        · simp [hw]
        · have : b ∈ done := hb (by grind)
          simp [this]

theorem metaFlags_true (feature : String) (enabled : Bool) (a b : String) (m : Meta τ) (hn : m.name = some feature)
    (hf : enabled = false → feature = "serde" ∧ E.serde = false ∨ feature = "rocket" ∧ E.rocket = false) (e : Message α)
    (h : metaFlags E.syn feature enabled a b m = .err e) : Local E other m e := by
  have off : enabled = false → Local E other m (.feature feature) := fun h => ⟨⟨⟨m, .self m, hn⟩, hf h⟩, by simp, by simp⟩
  unfold metaFlags at h
  split at h
  · split at h
    · cases h
    · cases h; exact off (by simp_all)
  · split at h
    · cases h; exact off (by simp_all)
    · cases h
  · rename_i n x hx
    cases h
    exact ⟨⟨n, x, .self _, fun b hb => hx b hb⟩, by simp, by simp⟩
  · rename_i n t
    rw [bind_err_iff] at h
    rcases h with h | ⟨ws, hw, h⟩
    · rw [orMsg_err] at h
      exact local_plain E other _ _ (by simp [← h.2])
    · rw [orMsg_ok] at hw
      have hW : Words E.syn (Meta.list n t) ws := ⟨n, t, .self _, hw⟩
      rcases flagLoop_err feature enabled a b ws [] ⟨false, false⟩ e (by simp) (by simp) h with ⟨w, rfl, h2⟩ | ⟨w, hm, rfl, h2⟩ | ⟨rfl, h2⟩
      · exact ⟨.inr ⟨ws, hW, by simpa using h2⟩, by simp, by simp⟩
      · exact ⟨.inr ⟨ws, hW, w, hm, h2⟩, by simp, by simp⟩
      · exact off h2

/-! ## The loop over the parameters -/

section
variable {K : Type} [DecidableEq K] {V : K → Type} (T : Table τ α V)

theorem step_err (s : State V) (m : Meta τ) (e : Message α) (h : step other T s m = .err e) :
    (m.name.bind T.key = none ∧ e = .unknown (shown other m) T.listed) ∨
    ∃ k, m.name.bind T.key = some k ∧ (((s k).isSome = true ∧ e = .reset (shown other m)) ∨ T.read k m = .err e) := by
  unfold step at h
  split at h
  · rename_i hk; cases h; exact .inl ⟨hk, rfl⟩
  · rename_i k hk
    refine .inr ⟨k, hk, ?_⟩
    split at h
    · rename_i hc; cases h; simp at hc; exact .inl ⟨hc.2, rfl⟩
    · rcases (Attr.assign_err ..).1 h with h | ⟨hc, -, rfl⟩
      · exact .inr h
      · exact .inl ⟨hc, rfl⟩

theorem step_some (s s' : State V) (m : Meta τ) (h : step other T s m = .ok s') (k : K) (v : V k) (hv : s' k = some v) :
    s k = some v ∨ (m.name.bind T.key = some k ∧ T.read k m = .ok v) := by
  unfold step at h
  split at h
  · cases h
  · rename_i j hj
    split at h
    · cases h
    · obtain ⟨-, w, hw, rfl⟩ := (Attr.assign_ok ..).1 h
      by_cases hjk : j = k
      · subst hjk
        rw [put_same] at hv
        cases hv
        exact .inr ⟨hj, hw⟩
      · rw [put_other _ _ _ _ hjk] at hv
        exact .inl hv

theorem run_some (ms : List (Meta τ)) (s s' : State V) (h : run other T ms s = .ok s') (k : K) (v : V k) (hv : s' k = some v) :
    s k = some v ∨ ∃ m ∈ ms, m.name.bind T.key = some k ∧ T.read k m = .ok v := by
  induction ms generalizing s with
  | nil => cases h; exact .inl hv
  | cons m ms ih =>
    obtain ⟨s1, h1, h2⟩ := (Attr.bind_ok_iff _ _ _).1 h
    rcases ih s1 h2 with h3 | ⟨m', hm, h3⟩
    · rcases step_some other T s s1 m h1 k v h3 with h4 | h4
      · exact .inl h4
      · exact .inr ⟨m, .head _, h4⟩
    · exact .inr ⟨m', .tail _ hm, h3⟩

theorem run_err (ms : List (Meta τ)) (s : State V) (e : Message α) (h : run other T ms s = .err e) :
    ∃ a m b s', ms = a ++ m :: b ∧ run other T a s = .ok s' ∧ step other T s' m = .err e := by
  induction ms generalizing s with
  | nil => cases h
  | cons m ms ih =>
    simp only [run, bind_err_iff] at h
    rcases h with h | ⟨s1, h1, h⟩
    · exact ⟨[], m, ms, s, rfl, rfl, h⟩
    · obtain ⟨a, m', b, s', rfl, h2, h3⟩ := ih s1 h
      exact ⟨m :: a, m', b, s', rfl, by simp [run, h1, h2, Out.bind], h3⟩

/-- The first parameter that is refused: why. -/
theorem run_init_err (ms : List (Meta τ)) (e : Message α) (h : run other T ms (State.init V) = .err e) :
    ∃ m ∈ ms, (m.name.bind T.key = none ∧ e = .unknown (shown other m) T.listed) ∨
      ∃ k, m.name.bind T.key = some k ∧
        ((e = .reset (shown other m) ∧ ∃ a q b c, ms = a ++ q :: (b ++ m :: c) ∧ q.name.bind T.key = some k) ∨ T.read k m = .err e) := by
  obtain ⟨a, m, b, s', rfl, h1, h2⟩ := run_err other T ms _ e h
  refine ⟨m, by simp, ?_⟩
  rcases step_err other T s' m e h2 with h3 | ⟨k, hk, ⟨h3, rfl⟩ | h3⟩
  · exact .inl h3
  · obtain ⟨v, hv⟩ := Option.isSome_iff_exists.1 h3
    rcases run_some other T a _ s' h1 k v hv with h4 | ⟨q, hq, h4, -⟩
    · cases h4
    · obtain ⟨x, y, rfl⟩ := List.append_of_mem hq
      exact .inr ⟨k, hk, .inl ⟨rfl, x, q, y, b, by simp, h4⟩⟩
  · exact .inr ⟨k, hk, .inr h3⟩

/-- The messages of the loop are true, if those of the readers are, the names listed are those with an arm, and different names have
different arms. -/
theorem run_true (m : Meta τ) (ms : List (Meta τ)) (hg : Gives E.syn m ms) (e : Message α) (h : run other T ms (State.init V) = .err e)
    (hl : ∀ n, T.key n = none → n ∉ T.listed) (hi : ∀ n n' k, T.key n = some k → T.key n' = some k → e = .reset n → n = n')
    (hr : ∀ n q k, q.name = some n → T.key n = some k → T.read k q = .err e → Local E other q e) : Local E other m e := by
  obtain ⟨q, hq, ⟨h1, rfl⟩ | ⟨k, h1, ⟨rfl, a, q', b, c, rfl, h2⟩ | h2⟩⟩ := run_init_err other T ms e h
  · refine ⟨⟨ms, ⟨m, .self m, hg⟩, q, hq, rfl, ?_⟩, by simp, by simp⟩
    intro n hn
    rw [hn] at h1
    exact hl n h1
  · obtain ⟨n, hn, h1⟩ := Option.bind_eq_some_iff.1 h1
    obtain ⟨n', hn', h2⟩ := Option.bind_eq_some_iff.1 h2
    have hs : shown other q = n := by simp [shown, hn]
    have := hi n n' k h1 h2 (by rw [hs])
    subst this
    rw [hs]
    exact ⟨.inl ⟨_, ⟨m, .self m, hg⟩, a, q', b, q, c, rfl, hn', hn⟩, by simp, by simp⟩
  · obtain ⟨n, hn, h1⟩ := Option.bind_eq_some_iff.1 h1
    exact (hr n q k hn h1 h2).lift (within_of_gives hg hq)

end

/-! ## Ranges and lengths -/

theorem operand_err (num : NumTy α) (x : Option (Option Lit)) (e : Message α) (h : operand num x = .err e) :
    e = .lib ∨ e = .number ∨ e = .literal := by
  match x with
  | none => cases h
  | some none => cases h; simp
  | some (some l) =>
    simp only [operand, map_err_iff] at h
    have := litNumber_err _ _ _ h
    grind

theorem fromExprRange_true (m : Meta τ) (r : RangeExpr) (e : Message α) (h : fromExprRange E.num r = .err e) : Local E other m e := by
  refine local_plain E other m e ?_
  simp only [fromExprRange, bind_err_iff] at h
  rcases h with h | ⟨_, -, h | ⟨_, -, h⟩⟩
  · have := operand_err _ _ _ h; grind
  · have := operand_err _ _ _ h; grind
  · cases h

theorem key_cases {δ : Type} {l : List (String × δ)} {n : String} {k : δ} (h : l.lookup n = some k) : (n, k) ∈ l := Attr.lookup_mem l n k h

theorem namedRange_true (n : Option String) (t : τ) (e : Message α) (h : namedRange E.syn other E.num t = .err e) :
    Local E other (.list n t) e := by
  unfold namedRange at h
  rw [bind_err_iff] at h
  rcases h with h | ⟨ps, hp, h⟩
  · rw [orMsg_err] at h; exact local_plain E other _ _ (by simp [← h.2])
  · rw [orMsg_ok] at hp
    have hg : Gives E.syn (Meta.list n t) ps := .inr ⟨n, t, rfl, hp⟩
    rw [bind_err_iff] at h
    rcases h with h | ⟨s, hs, h⟩
    · refine run_true E other _ _ ps hg e h ?_ ?_ ?_
      · intro x hx
        simp only [rangeTable, List.lookup] at hx ⊢
        simp only [List.mem_cons, List.not_mem_nil, or_false]
        rintro (rfl | rfl | rfl) <;> simp at hx
      · intro x y k hx hy _
        have h1 := key_cases hx
        have h2 := key_cases hy
        simp at h1 h2
        grind
      · intro x q k _ hx hr
        cases k with
        | min => exact metaNumber_true E other _ q e hr
        | max => exact metaNumber_true E other _ q e hr
        | inclusive => exact metaBool_true E other q e hr
    · have from' : ∀ x k, (rangeTable (α := α) E.syn other E.num).key x = some k → ∀ v : k.Val α, s k = some v →
          (∀ y, (rangeTable (α := α) E.syn other E.num).key y = some k → y = x) →
          Has ps x fun q => (rangeTable E.syn other E.num).read k q = .ok v := by
        intro x k hx v hv hu
        rcases run_some other _ ps _ s hs k v hv with h1 | ⟨q, hq, hk, hr⟩
        · cases h1
        · obtain ⟨y, hy, hk⟩ := Option.bind_eq_some_iff.1 hk
          exact ⟨q, hq, by rw [hy, hu y hk], hr⟩
      have uniq : ∀ x y k, (rangeTable (α := α) E.syn other E.num).key x = some k →
          (rangeTable (α := α) E.syn other E.num).key y = some k → y = x := by
        intro x y k hx hy
        have h1 := key_cases hx
        have h2 := key_cases hy
        simp at h1 h2
        grind
      have num : ∀ x k, (rangeTable (α := α) E.syn other E.num).key x = some k → ∀ v : k.Val α, s k = some v →
          Has ps x fun q => (rangeTable E.syn other E.num).read k q = .ok v :=
        fun x k hx v hv => from' x k hx v hv fun y hy => uniq x y k hx hy
      have says : ∀ (q : Meta τ) (v : α), metaNumber (α := α) E.syn other E.num.fromStr q = .ok v → SaysNumber E.syn E.num.fromStr q v := by
        intro q v hv
        rw [← Attr.metaNumber_ok, ← forget_metaNumber (α := α) E.syn other, hv]; rfl
      have lower : ∀ v, s .min = some v → Has ps "min" (SaysNumber E.syn E.num.fromStr · v) := by
        intro v hv
        obtain ⟨q, hq, hn, hr⟩ := num "min" .min rfl v hv
        exact ⟨q, hq, hn, says q v hr⟩
      have upper : ∀ v, s .max = some v → Has ps "max" (SaysNumber E.syn E.num.fromStr · v) := by
        intro v hv
        obtain ⟨q, hq, hn, hr⟩ := num "max" .max rfl v hv
        exact ⟨q, hq, hn, says q v hr⟩
      have incl : ∀ v, s .inclusive = some v → Has ps "inclusive" (SaysBool E.syn · v) := by
        intro v hv
        obtain ⟨q, hq, hn, hr⟩ := num "inclusive" .inclusive rfl v hv
        refine ⟨q, hq, hn, ?_⟩
        change SaysBool E.syn q v
        rw [← Attr.metaBool_ok, ← forget_metaBool (α := α) E.syn other]
        change metaBool E.syn other q = .ok v at hr
        rw [hr]; rfl
      unfold checkOrder at h
      simp only at h
      split at h
      · rename_i a b ha hb
        have ha := lower a ha
        have hb := upper b hb
        split at h
        · split at h
          · rename_i hc; cases h
            refine ⟨⟨?_, ps, ⟨_, .self _, hg⟩, ha, hb⟩, by simp, by simp⟩
            simpa [evalOp] using hc
          · cases h
        · rename_i hi
          split at h
          · rename_i hc; cases h
            refine ⟨⟨?_, ps, ⟨_, .self _, hg⟩, ha, hb, ?_⟩, by simp, by simp⟩
            · simpa [evalOp] using hc
            · refine incl false ?_
              cases hv : s .inclusive with
              | none => rw [hv] at hi; simp at hi
              | some v => rw [hv] at hi; simp at hi; rw [hi]
          · cases h
      · cases h

theorem metaRange_true (m : Meta τ) (e : Message α) (h : metaRange E.syn other E.full E.num m = .err e) : Local E other m e := by
  have form : (∀ n t, m ≠ .list n t) → Local E other m (.format (shown other m)) := fun hl => ⟨⟨m, .self m, rfl, hl⟩, by simp, by simp⟩
  cases m with
  | path n => cases h; exact form (by simp)
  | nameValue n x =>
    unfold metaRange at h
    split at h
    · cases h; exact form (by simp)
    · split at h
      · exact fromExprRange_true E other _ _ e h
      · cases h; exact form (by simp)
    · cases h; exact form (by simp)
    · rename_i hx; cases hx
  | list n t =>
    simp only [metaRange] at h
    split at h
    · exact fromExprRange_true E other _ _ e h
    · exact namedRange_true E other n t e h

theorem metaRangeOption_true (m : Meta τ) (e : Message α) (h : metaRangeOption E.syn other E.full E.num m = .err e) :
    Local E other m e := by
  have hm : Attr.metaRangeOption E.syn E.full E.num m = .err e.kind := by
    rw [← forget_metaRangeOption E.syn other, h]; rfl
  have form : (∀ o, ¬ SaysRangeOption E.syn E.full E.num m o) → Local E other m (.rangeForm (shown other m)) :=
    fun hl => ⟨⟨m, .self m, rfl, hl⟩, by simp, by simp⟩
  cases m with
  | path n => cases h; exact form (by rintro o ⟨_, _, _, h', -⟩; cases h')
  | nameValue n x => cases h; exact form (by rintro o ⟨_, _, _, h', -⟩; cases h')
  | list n t =>
    simp only [metaRangeOption, bind_err_iff, orMsg_err, orMsg_ok] at h
    rcases h with ⟨-, h⟩ | ⟨q, hq, h⟩
    · exact local_plain E other _ _ (by simp [← h])
    · have hw : Within E.syn (Meta.list n t) q := .inner n t q q hq (.self q)
      split at h
      · rw [map_err_iff] at h; exact (metaRange_true E other q e h).lift hw
      · split at h
        · rw [map_err_iff] at h; exact (metaRange_true E other q e h).lift hw
        · split at h
          · cases h
          · rename_i h1 h2 h3
            cases h
            refine form ?_
            rintro o ⟨_, _, q', h', hq', ho⟩
            cases h'
            rw [hq] at hq'; cases hq'
            cases o with
            | inside b => exact h1 ho.1
            | outside b => exact h2 ho.1
            | unlimited => exact h3 ho

theorem tokens_err (num : NumTy α) (o : RangeOption α) (e : Message α) (h : tokens num o = .err e) : False := by
  cases o <;> simp only [tokens] at h
  · split at h <;> cases h
  · split at h <;> cases h
  · cases h

theorem tokens_ok (num : NumTy α) (o o' : RangeOption α) (h : tokens num o = .ok o') : o = o' := by
  cases o <;> simp only [tokens] at h
  · split at h <;> cases h; rfl
  · split at h <;> cases h; rfl
  · cases h; rfl

theorem notAbove_err (x y : String) (a b : Option Nat) (e : Message α) (h : notAbove x a y b = .err e) :
    ∃ u v, a = some u ∧ b = some v ∧ v < u ∧ e = .lengths x u y v := by
  unfold notAbove at h
  split at h
  · split at h
    · rename_i hc; cases h; exact ⟨_, _, rfl, rfl, hc, rfl⟩
    · cases h
  · cases h

theorem says_usize (q : Meta τ) (v : Nat) (h : metaNumber (α := α) E.syn other E.usize q = .ok v) : SaysNumber E.syn E.usize q v := by
  rw [← Attr.metaNumber_ok, ← forget_metaNumber (α := α) E.syn other, h]; rfl

theorem metaLength_true (m : Meta τ) (e : Message α) (h : metaLength E.syn other E.usize m = .err e) : Local E other m e := by
  have form : (∀ n t, m ≠ .list n t) → Local E other m (.format (shown other m)) := fun hl => ⟨⟨m, .self m, rfl, hl⟩, by simp, by simp⟩
  cases m with
  | path n => cases h; exact form (by simp)
  | nameValue n x => cases h; exact form (by simp)
  | list n t =>
    simp only [metaLength, bind_err_iff, orMsg_err, orMsg_ok] at h
    rcases h with ⟨-, h⟩ | ⟨ps, hp, h⟩
    · exact local_plain E other _ _ (by simp [← h])
    · have hg : Gives E.syn (Meta.list n t) ps := .inr ⟨n, t, rfl, hp⟩
      have uniq : ∀ x y k, (lengthTable (α := α) E.syn other E.usize).key x = some k →
          (lengthTable (α := α) E.syn other E.usize).key y = some k → y = x := by
        intro x y k hx hy
        have h1 := key_cases hx
        have h2 := key_cases hy
        simp at h1 h2
        grind
      rcases h with h | ⟨s, hs, h⟩
      · refine run_true E other _ _ ps hg e h ?_ (fun x y k hx hy _ => (uniq x y k hx hy).symm) ?_
        · intro x hx
          simp only [lengthTable, List.lookup] at hx ⊢
          simp only [List.mem_cons, List.not_mem_nil, or_false]
          rintro (rfl | rfl | rfl) <;> simp at hx
        · intro x q k _ hx hr
          exact metaNumber_true E other _ q e hr
      · have has : ∀ x k, (lengthTable (α := α) E.syn other E.usize).key x = some k → ∀ v : Nat, s k = some v →
            Has ps x (SaysNumber E.syn E.usize · v) := by
          intro x k hx v hv
          rcases run_some other _ ps _ s hs k v hv with h1 | ⟨q, hq, hk, hr⟩
          · cases h1
          · obtain ⟨y, hy, hk⟩ := Option.bind_eq_some_iff.1 hk
            exact ⟨q, hq, by rw [hy, uniq x y k hx hk], says_usize E other q v hr⟩
        rcases h with h | ⟨_, -, h | ⟨_, -, h | ⟨_, -, h⟩⟩⟩
        · obtain ⟨u, v, hu, hv, hlt, rfl⟩ := notAbove_err _ _ _ _ _ h
          exact ⟨⟨hlt, ps, ⟨_, .self _, hg⟩, has _ .trimmedMin rfl u hu, has _ .min rfl v hv⟩, by simp, by simp⟩
        · obtain ⟨u, v, hu, hv, hlt, rfl⟩ := notAbove_err _ _ _ _ _ h
          exact ⟨⟨hlt, ps, ⟨_, .self _, hg⟩, has _ .min rfl u hu, has _ .max rfl v hv⟩, by simp, by simp⟩
        · obtain ⟨u, v, hu, hv, hlt, rfl⟩ := notAbove_err _ _ _ _ _ h
          exact ⟨⟨hlt, ps, ⟨_, .self _, hg⟩, has _ .trimmedMin rfl u hu, has _ .max rfl v hv⟩, by simp, by simp⟩
        · cases h

/-! ## Countries and regular expressions -/

variable [DecidableEq κ]

theorem countryLoop_err (country : String → Option κ) (is done : List String) (cs : List κ)
    (hd : ∀ c ∈ cs, ∃ i ∈ done, country i = some c) (e : Message α) (h : countryLoop country is cs = .err e) :
    e = .lib ∨ ∃ c, e = .repeated c ∧ ∃ a i b r, done ++ is = a ++ i :: (b ++ c :: r) ∧ ∃ k, country i = some k ∧ country c = some k := by
  induction is generalizing cs done with
  | nil => cases h
  | cons i is ih =>
    unfold countryLoop at h
    rw [bind_err_iff] at h
    rcases h with h | ⟨c, hc, h⟩
    · rw [orMsg_err] at h; exact .inl h.2.symm
    · rw [orMsg_ok] at hc
      split at h
      · rename_i hm
        cases h
        obtain ⟨j, hj, hjc⟩ := hd c hm
        obtain ⟨x, y, rfl⟩ := List.append_of_mem hj
        exact .inr ⟨i, rfl, x, j, y, is, by simp, c, hjc, hc⟩
      · rcases ih (done ++ [i]) (cs ++ [c]) (by
            intro c' hc'
            rcases List.mem_append.1 hc' with h1 | h1
            · obtain ⟨j, hj, hjc⟩ := hd c' h1; exact ⟨j, by simp [hj], hjc⟩
            · simp at h1; subst h1; exact ⟨i, by simp, hc⟩) h with h1 | h1
        · exact .inl h1
        · right; simpa using h1

theorem metaCountries_true (m : Meta τ) (hn : m.name = some "countries") (e : Message α)
    (h : metaCountries E.syn E.country E.order m = .err e) : Local E other m e := by
  cases m with
  | path n => cases h; exact ⟨⟨_, .self _, hn, by simp⟩, by simp, by simp⟩
  | nameValue n x => cases h; exact ⟨⟨_, .self _, hn, by simp⟩, by simp, by simp⟩
  | list n t =>
    simp only [metaCountries, bind_err_iff, map_err_iff, orMsg_err, orMsg_ok] at h
    rcases h with ⟨-, h⟩ | ⟨is, hi, h⟩
    · exact local_plain E other _ _ (by simp [← h])
    · rcases countryLoop_err E.country is [] [] (by simp) e h with h1 | ⟨c, rfl, h1⟩
      · exact local_plain E other _ _ (by simp [h1])
      · exact ⟨⟨is, ⟨n, t, .self _, hi⟩, by simpa using h1⟩, by simp, by simp⟩

theorem regexExpr_err (regexOk : String → Bool) (x : Expr) (e : Message α) (h : regexExpr regexOk x = .err e) :
    e = .lib ∨ (e = .regexLiteral ∧ ∃ l, x = .lit l ∧ ∀ s, l ≠ .str s) := by
  unfold regexExpr at h
  split at h
  · split at h <;> simp_all
  · rename_i l hl; cases h; exact .inr ⟨rfl, l, rfl, fun s hs => hl s hs⟩
  · cases h

omit [DecidableEq κ] in
theorem metaRegex_true (m : Meta τ) (hn : m.name = some "regex") (e : Message α) (h : metaRegex E.syn E.regexOk m = .err e) :
    Local E other m e := by
  cases m with
  | path n => cases h; cases hn; exact ⟨.self _, by simp, by simp⟩
  | nameValue n x =>
    rcases regexExpr_err _ _ _ h with h1 | ⟨rfl, l, rfl, hl⟩
    · exact local_plain E other _ _ (by simp [h1])
    · exact ⟨⟨_, l, .self _, hn, hl, .inl rfl⟩, by simp, by simp⟩
  | list n t =>
    simp only [metaRegex, bind_err_iff, orMsg_err, orMsg_ok] at h
    rcases h with ⟨-, h⟩ | ⟨x, hx, h⟩
    · exact local_plain E other _ _ (by simp [← h])
    · rcases regexExpr_err _ _ _ h with h1 | ⟨rfl, l, rfl, hl⟩
      · exact local_plain E other _ _ (by simp [h1])
      · exact ⟨⟨_, l, .self _, hn, hl, .inr ⟨t, rfl, hx⟩⟩, by simp, by simp⟩

/-! ## The attributes -/

theorem readKey_true (v : Validator) (n : String) (k : Key) (m : Meta τ) (hn : m.name = some n) (hk : (arms v).lookup n = some k)
    (e : Message α) (h : readKey E other k m = .err e) : Local E other m e := by
  have hm := key_cases hk
  have n1 : k = .countries → n = "countries" := by revert hm; cases v <;> simp [arms, serdeRocket] <;> grind
  have n2 : k = .regex → n = "regex" := by revert hm; cases v <;> simp [arms, serdeRocket] <;> grind
  have n3 : k = .serde → n = "serde" := by revert hm; cases v <;> simp [arms, serdeRocket] <;> grind
  have n4 : k = .rocket → n = "rocket" := by revert hm; cases v <;> simp [arms, serdeRocket] <;> grind
  cases k with
  | padding | loc | port | atl | ip | ipv4 | nan => exact metaWord_true E other _ _ triAllowOf_err m e h
  | comment | nonAscii | conflict => exact metaWord_true E other _ _ allowOf_err m e h
  | case => exact metaWord_true E other _ _ caseOf_err m e h
  | range =>
    simp only [readKey, bind_err_iff] at h
    rcases h with h | ⟨o, -, h⟩
    · exact metaRangeOption_true E other m e h
    · exact (tokens_err _ _ _ h).elim
  | bounds => exact metaRange_true E other m e h
  | ignoreCase => exact metaBool_true E other m e h
  | separator => exact metaSeparator_true E other m e h
  | length => simp only [readKey, map_err_iff] at h; exact metaLength_true E other m e h
  | countries => exact metaCountries_true E other m (by rw [hn, n1 rfl]) e h
  | regex => exact metaRegex_true E other m (by rw [hn, n2 rfl]) e h
  | min | max => exact metaNumber_true E other _ m e h
  | serde => exact metaFlags_true E other _ _ _ _ m (by rw [hn, n3 rfl]) (fun h => .inl ⟨rfl, h⟩) e h
  | rocket => exact metaFlags_true E other _ _ _ _ m (by rw [hn, n4 rfl]) (fun h => .inr ⟨rfl, h⟩) e h

/-- The names listed are those with an arm. -/
theorem listed_iff (v : Validator) (n : String) : n ∈ listed v ↔ ((arms v).lookup n).isSome = true := by
  constructor
  · have key : ∀ x ∈ listed v, ((arms v).lookup x).isSome = true := by cases v <;> decide
    exact key n
  · intro h
    obtain ⟨k, hk⟩ := Option.isSome_iff_exists.1 h
    have := key_cases hk
    revert this
    cases v <;> simp [arms, serdeRocket, listed] <;> grind

/-- Different names have different arms, except for the two lengths. -/
theorem arms_inj (v : Validator) (n n' : String) (k : Key) (h : (arms v).lookup n = some k) (h' : (arms v).lookup n' = some k) :
    n = n' ∨ (k = .length ∧ (n = "char_length" ∨ n = "byte_length") ∧ (n' = "char_length" ∨ n' = "byte_length")) := by
  have h1 := key_cases h
  have h2 := key_cases h'
  revert h1 h2
  cases v <;> simp [arms, serdeRocket] <;> grind

theorem params_true (v : Validator) (m : Meta τ) (e : Message α) (h : params E.syn other (table E other v) m = .err e)
    (h1 : e ≠ .reset "char_length") (h2 : e ≠ .reset "byte_length") : Local E other m e := by
  cases m with
  | path n => cases h
  | nameValue n x => cases h; exact ⟨⟨_, .self _, rfl, by simp⟩, by simp, by simp⟩
  | list n t =>
    simp only [params, bind_err_iff, orMsg_err, orMsg_ok] at h
    rcases h with ⟨-, h⟩ | ⟨ps, hp, h⟩
    · exact local_plain E other _ _ (by simp [← h])
    · refine run_true E other _ _ ps (.inr ⟨n, t, rfl, hp⟩) e h ?_ ?_ ?_
      · intro x hx hm
        have := (listed_iff v x).1 hm
        change (arms v).lookup x = none at hx
        rw [hx] at this; cases this
      · intro x y k hx hy he
        rcases arms_inj v x y k hx hy with h3 | ⟨-, h3 | h3, -⟩
        · exact h3
        · exact absurd (h3 ▸ he) h1
        · exact absurd (h3 ▸ he) h2
      · intro x q k hn hx hr
        exact readKey_true E other v x k q hn hx e hr

omit [DecidableEq κ] in
theorem run_keeps {K : Type} [DecidableEq K] {V : K → Type} (T : Table τ α V) (ms : List (Meta τ)) (s s' : State V)
    (h : run other T ms s = .ok s') (k : K) : ((s k).isSome = true → (s' k).isSome = true) ∧
      ∀ m ∈ ms, m.name.bind T.key = some k → (s' k).isSome = true := by
  induction ms generalizing s with
  | nil => cases h; simp
  | cons m ms ih =>
    obtain ⟨s1, h1, h2⟩ := (Attr.bind_ok_iff _ _ _).1 h
    obtain ⟨i1, i2⟩ := ih s1 h2
    have hs : ((s k).isSome = true → (s1 k).isSome = true) ∧ (m.name.bind T.key = some k → (s1 k).isSome = true) := by
      unfold step at h1
      split at h1
      · cases h1
      · rename_i j hj
        split at h1
        · cases h1
        · obtain ⟨-, w, hw, rfl⟩ := (Attr.assign_ok ..).1 h1
          by_cases hjk : j = k
          · subst hjk; simp [put_same]
          · rw [put_other _ _ _ _ hjk]
            exact ⟨id, fun h => absurd (Option.some.inj (hj.symm.trans h)) hjk⟩
    refine ⟨fun h => i1 (hs.1 h), ?_⟩
    rintro q (_ | ⟨_, hq⟩) hk
    · exact i1 (hs.2 hk)
    · exact i2 q hq hk

/-- The values after the loop come from the parameters. -/
theorem params_some (v : Validator) (m : Meta τ) (s : State (Key.Val α κ)) (h : params E.syn other (table E other v) m = .ok s) :
    ∃ ps, Gives E.syn m ps ∧ (∀ n k, (arms v).lookup n = some k → k ≠ .length → ∀ x, s k = some x → Has ps n fun q => readKey E other k q = .ok x) ∧
      ∀ n k, (arms v).lookup n = some k → s k = none → ∀ q ∈ ps, q.name ≠ some n := by
  have main : ∃ ps, Gives E.syn m ps ∧ run other (table E other v) ps (State.init _) = .ok s := by
    cases m with
    | path n => cases h; exact ⟨[], .inl ⟨⟨n, rfl⟩, rfl⟩, rfl⟩
    | nameValue n x => cases h
    | list n t =>
      obtain ⟨ps, h1, h2⟩ := (Attr.bind_ok_iff _ _ _).1 h
      rw [orMsg_ok] at h1
      exact ⟨ps, .inr ⟨n, t, rfl, h1⟩, h2⟩
  obtain ⟨ps, hg, hs⟩ := main
  refine ⟨ps, hg, ?_, ?_⟩
  · intro n k hk hl x hx
    rcases run_some other _ ps _ s hs k x hx with h1 | ⟨q, hq, hk', hr⟩
    · cases h1
    · obtain ⟨y, hy, hk'⟩ := Option.bind_eq_some_iff.1 hk'
      refine ⟨q, hq, ?_, hr⟩
      rcases arms_inj v n y k hk hk' with h1 | ⟨h1, -⟩
      · rw [hy, h1]
      · exact absurd h1 hl
  · intro n k hk hn q hq hqn
    have := (run_keeps other _ ps _ s hs k).2 q hq (by rw [hqn]; exact hk)
    rw [hn] at this
    cases this

omit [DecidableEq κ] in
theorem says_tri (q : Meta τ) (a : TriAllow) (h : metaWord E.syn other ["Must", "Allow", "Disallow"] (triAllowOf (α := α)) q = .ok a) :
    SaysTri E.syn q a := by
  rw [← Attr.metaTriAllow_ok, ← forget_metaTriAllow (α := α) E.syn other, h]; rfl

omit [DecidableEq κ] in
theorem ite_err (c : Prop) [Decidable c] (e e' : Message α) (h : (if c then .err e else .ok ()) = (.err e' : Out (Message α) Unit)) :
    c ∧ e = e' := by
  split at h
  · rename_i hc; cases h; exact ⟨hc, rfl⟩
  · cases h

theorem finish_true (v : Validator) (m : Meta τ) (s : State (Key.Val α κ)) (h : params E.syn other (table E other v) m = .ok s)
    (e : Message α) (he : finish v s = .err e) : Truthful E other m e := by
  obtain ⟨ps, hg, hs, hn⟩ := params_some E other v m s h
  have getTri : ∀ (o : Option TriAllow) (a : TriAllow), o.getD .allow = a → a ≠ .allow → o = some a := by
    intro o a h1 h2
    cases o with
    | none => exact absurd h1.symm h2
    | some b => simp at h1; rw [h1]
  unfold finish at he
  split at he
  · obtain ⟨u, w, hu, hw, hlt, rfl⟩ := notAbove_err _ _ _ _ _ he
    obtain ⟨q, hq, h1, h2⟩ := hs "min" .min rfl (by simp) u hu
    obtain ⟨q', hq', h1', h2'⟩ := hs "max" .max rfl (by simp) w hw
    exact ⟨hlt, ps, ⟨m, .self m, hg⟩, ⟨q, hq, h1, says_usize E other q u h2⟩, ⟨q', hq', h1', says_usize E other q' w h2'⟩⟩
  · split at he
    · cases he
    · rename_i hr
      cases he
      intro ps' hg' q hq
      cases gives_inj E.syn m ps ps' hg hg'
      exact hn "regex" .regex rfl (by simpa using hr) q hq
  · split at he
    · split at he
      · rename_i hc _
        cases he
        have a1 := getTri _ _ hc.1 (by simp)
        have a2 := getTri _ _ hc.2 (by simp)
        obtain ⟨q, hq, h1, h2⟩ := hs "ipv4" .ipv4 rfl (by simp) _ a1
        obtain ⟨q', hq', h1', h2'⟩ := hs "at_least_two_labels" .atl rfl (by simp) _ a2
        exact ⟨ps, hg, ⟨"ipv4", "Must", by decide, q, hq, h1, .inl (says_tri E other q _ h2)⟩,
          ⟨"at_least_two_labels", "Disallow", by decide, q', hq', h1', .inl (says_tri E other q' _ h2')⟩⟩
      · cases he
    · cases he
  · split at he
    · split at he
      · rename_i hc _
        cases he
        have a1 := getTri _ _ hc.1 (by simp)
        have a2 := getTri _ _ hc.2 (by simp)
        obtain ⟨q, hq, h1, h2⟩ := hs "ip" .ip rfl (by simp) _ a1
        obtain ⟨q', hq', h1', h2'⟩ := hs "at_least_two_labels" .atl rfl (by simp) _ a2
        exact ⟨ps, hg, ⟨"ip", "Must", by decide, q, hq, h1, .inl (says_tri E other q _ h2)⟩,
          ⟨"at_least_two_labels", "Disallow", by decide, q', hq', h1', .inl (says_tri E other q' _ h2')⟩⟩
      · cases he
    · cases he
  · obtain ⟨hc, rfl⟩ := ite_err _ _ _ he
    have a1 := getTri _ _ hc.1 (by simp)
    obtain ⟨q, hq, h1, h2⟩ := hs "nan" .nan rfl (by simp) _ a1
    have a2 : ∃ b, s Key.range = some (RangeOption.inside b) := by
      have := hc.2.1
      cases hr : s Key.range with
      | none => rw [hr] at this; simp at this
      | some o =>
        rw [hr] at this
        cases o with
        | inside b => exact ⟨b, rfl⟩
        | outside b => cases this
        | unlimited => cases this
    obtain ⟨b, a2⟩ := a2
    obtain ⟨q', hq', h1', h2'⟩ := hs "range" .range rfl (by simp) _ a2
    obtain ⟨o, ho, ht⟩ := (Attr.bind_ok_iff _ _ _).1 h2'
    have ho' : o = RangeOption.inside b := tokens_ok _ _ _ ht
    subst ho'
    have hm : Attr.metaRangeOption E.syn E.full E.num q' = .ok (.inside b) := by
      rw [← forget_metaRangeOption E.syn other, ho]; rfl
    obtain ⟨n, t, r, rfl, hr, hin, -⟩ := (Attr.metaRangeOption_ok E.syn E.full E.num q' _).1 hm
    cases h1'
    exact ⟨ps, hg, ⟨"nan", "Must", by decide, q, hq, h1, .inl (says_tri E other q _ h2)⟩,
      ⟨"range", "Inside", by decide, _, hq', rfl, .inr ⟨t, r, rfl, hr, hin⟩⟩⟩
  · cases he

theorem readAttribute_true (v : Validator) (m : Meta τ) (e : Message α) (h : readAttribute E other v m = .err e)
    (h1 : e ≠ .reset "char_length") (h2 : e ≠ .reset "byte_length") : Truthful E other m e := by
  unfold readAttribute at h
  rw [bind_err_iff] at h
  rcases h with h | ⟨s, hs, h⟩
  · exact (params_true E other v m e h h1 h2).1
  · exact finish_true E other v m s hs e h

end Verif.Diag
