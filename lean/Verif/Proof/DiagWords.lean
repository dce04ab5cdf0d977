import Verif.Proof.DiagTrue
import Verif.Proof.Derive

/-!
# Words shown in messages, validators shown in messages
-/

namespace Verif.Diag

open Verif.Attr Verif.Derive Verif.Spec.Attr Verif.Spec.Diag Verif.Spec.Derive
open Verif.Range (Bounds RangeOption CmpOp evalOp)

variable {τ α β γ κ : Type}

/-- The message shows words. -/
def ShowsWords (ws : List String) (e : Message α) : Prop := e = .word ws ∨ ∃ p, e = .wordForm p ws

/-- Messages that belong to the attribute itself: on its parameters and on the two lengths. -/
def Outer (e : Message α) : Prop :=
  (∃ p l, e = .unknown p l ∧ l ∉ [["min", "max", "inclusive"], ["min", "trimmed_min", "max"]]) ∨ e = .reset "char_length" ∨ e = .reset "byte_length"

/-- A reader whose messages never show words, and do not belong to the attribute itself. -/
def Wordless (x : Out (Message α) β) : Prop := ∀ e ws, x = .err e → ¬ (ShowsWords ws e ∨ Outer e)

theorem Wordless.bind {x : Out (Message α) β} {f : β → Out (Message α) γ} (hx : Wordless x) (hf : ∀ b, x = .ok b → Wordless (f b)) :
    Wordless (x.bind f) := by
  intro e ws h
  rcases (bind_err_iff _ _ _).1 h with h | ⟨b, hb, h⟩
  · exact hx e ws h
  · exact hf b hb e ws h

theorem Wordless.map {x : Out (Message α) β} (f : β → γ) (hx : Wordless x) : Wordless (x.map f) :=
  fun e ws h => hx e ws ((map_err_iff _ _ _).1 h)

theorem wordless_ok (b : β) : Wordless (.ok b : Out (Message α) β) := by intro e ws h; cases h

theorem wordless_err (e : Message α) (h : ∀ ws, ¬ (ShowsWords ws e ∨ Outer e)) : Wordless (.err e : Out (Message α) β) := by
  intro e' ws h'; cases h'; exact h ws

theorem wordless_orMsg (e : Message α) (h : ∀ ws, ¬ (ShowsWords ws e ∨ Outer e)) (o : Option β) : Wordless (orMsg e o) := by
  cases o with
  | none => exact wordless_err e h
  | some b => exact wordless_ok b

theorem wordless_litNumber (f : List UInt8 → Option β) (l : Lit) : Wordless (litNumber f l : Out (Message α) β) := by
  intro e ws h
  rcases litNumber_err f l e h with rfl | rfl <;> simp [ShowsWords, Outer]

theorem wordless_metaNumber (syn : Syn τ) (other : Meta τ → String) (f : List UInt8 → Option β) (m : Meta τ) :
    Wordless (metaNumber syn other f m : Out (Message α) β) := by
  cases m with
  | path n => exact wordless_err _ (by simp [ShowsWords, Outer])
  | nameValue n x =>
    intro e ws h
    rcases exprNumber_err f x e h with rfl | rfl <;> simp [ShowsWords, Outer]
  | list n t =>
    simp only [metaNumber]
    split
    · exact wordless_orMsg _ (by simp [ShowsWords, Outer]) _
    · exact (wordless_orMsg _ (by simp [ShowsWords, Outer]) _).bind fun _ _ => wordless_orMsg _ (by simp [ShowsWords, Outer]) _

theorem wordless_metaBool (syn : Syn τ) (other : Meta τ → String) (m : Meta τ) : Wordless (metaBool syn other m : Out (Message α) Bool) := by
  unfold metaBool
  split
  all_goals first
    | exact wordless_ok _
    | exact wordless_err _ (by simp [ShowsWords, Outer])
    | exact wordless_orMsg _ (by simp [ShowsWords, Outer]) _

theorem wordless_metaSeparator (syn : Syn τ) (other : Meta τ → String) (m : Meta τ) :
    Wordless (metaSeparator syn other m : Out (Message α) SeparatorOption) := by
  unfold metaSeparator
  split
  · refine (wordless_orMsg _ (by simp [ShowsWords, Outer]) _).bind fun q _ => ?_
    split
    · split
      · exact wordless_ok _
      · split
        · exact wordless_ok _
        · exact wordless_err _ (by simp [ShowsWords, Outer])
    · exact wordless_err _ (by simp [ShowsWords, Outer])
    · split
      · exact (wordless_orMsg _ (by simp [ShowsWords, Outer]) _).map _
      · split
        · exact (wordless_orMsg _ (by simp [ShowsWords, Outer]) _).map _
        · exact wordless_err _ (by simp [ShowsWords, Outer])
    · exact wordless_err _ (by simp [ShowsWords, Outer])
    · split
      · exact wordless_ok _
      · exact wordless_err _ (by simp [ShowsWords, Outer])
  · exact wordless_err _ (by simp [ShowsWords, Outer])

theorem wordless_run {K : Type} [DecidableEq K] {V : K → Type} (other : Meta τ → String) (T : Table τ α V)
    (hl : T.listed ∈ [["min", "max", "inclusive"], ["min", "trimmed_min", "max"]])
    (hc : T.key "char_length" = none) (hb : T.key "byte_length" = none) (hr : ∀ k m, Wordless (T.read k m)) (ms : List (Meta τ)) (s : State V) : Wordless (run other T ms s) := by
  induction ms generalizing s with
  | nil => exact wordless_ok _
  | cons m ms ih =>
    refine Wordless.bind ?_ fun s' _ => ih s'
    unfold step
    split
    · refine wordless_err _ ?_
      rintro ws ((h | ⟨_, h⟩) | (⟨p, l, h, hn⟩ | h | h)) <;> cases h
      exact hn hl
    · rename_i k hk
      obtain ⟨n, hn, hk⟩ := Option.bind_eq_some_iff.1 hk
      have hs : shown other m = n := by simp [shown, hn]
      have hreset : ∀ ws, ¬ (ShowsWords ws (.reset (shown other m) : Message α) ∨ Outer (.reset (shown other m) : Message α)) := by
        rw [hs]
        rintro ws ((h | ⟨_, h⟩) | (⟨p, l, h, -⟩ | h | h)) <;> cases h
        · rw [hc] at hk; cases hk
        · rw [hb] at hk; cases hk
      split
      · exact wordless_err _ hreset
      · intro e ws h
        rcases (Attr.assign_err ..).1 h with h | ⟨-, -, rfl⟩
        · exact hr _ _ e ws h
        · exact hreset ws

theorem wordless_fromExprRange (num : NumTy α) (r : RangeExpr) : Wordless (fromExprRange num r) := by
  have op : ∀ o, Wordless (operand num o) := by
    intro o e ws h
    rcases operand_err num o e h with rfl | rfl | rfl <;> simp [ShowsWords, Outer]
  exact (op _).bind fun _ _ => (op _).bind fun _ _ => wordless_ok _

theorem wordless_metaRange (syn : Syn τ) (other : Meta τ → String) (full : Bool) (num : NumTy α) (m : Meta τ) :
    Wordless (metaRange syn other full num m) := by
  have named : ∀ t, Wordless (namedRange syn other num t) := by
    intro t
    refine (wordless_orMsg _ (by simp [ShowsWords, Outer]) _).bind fun ps _ => (wordless_run _ _ (by simp [rangeTable]) rfl rfl ?_ _ _).bind fun s _ => ?_
    · intro k m
      cases k with
      | min => exact wordless_metaNumber _ _ _ _
      | max => exact wordless_metaNumber _ _ _ _
      | inclusive => exact wordless_metaBool _ _ _
    · unfold checkOrder
      split
      · split
        · split
          · exact wordless_err _ (by simp [ShowsWords, Outer])
          · exact wordless_ok _
        · split
          · exact wordless_err _ (by simp [ShowsWords, Outer])
          · exact wordless_ok _
      · exact wordless_ok _
  unfold metaRange
  split
  · exact wordless_err _ (by simp [ShowsWords, Outer])
  · split
    · exact wordless_fromExprRange _ _
    · exact wordless_err _ (by simp [ShowsWords, Outer])
  · exact wordless_err _ (by simp [ShowsWords, Outer])
  · split
    · exact wordless_fromExprRange _ _
    · exact named _

theorem wordless_metaRangeOption (syn : Syn τ) (other : Meta τ → String) (full : Bool) (num : NumTy α) (m : Meta τ) :
    Wordless (metaRangeOption syn other full num m) := by
  unfold metaRangeOption
  split
  · refine (wordless_orMsg _ (by simp [ShowsWords, Outer]) _).bind fun q _ => ?_
    split
    · exact (wordless_metaRange _ _ _ _ _).map _
    · split
      · exact (wordless_metaRange _ _ _ _ _).map _
      · split
        · exact wordless_ok _
        · exact wordless_err _ (by simp [ShowsWords, Outer])
  · exact wordless_err _ (by simp [ShowsWords, Outer])

theorem wordless_notAbove (x y : String) (a b : Option Nat) : Wordless (notAbove x a y b : Out (Message α) Unit) := by
  intro e ws h
  obtain ⟨_, _, _, _, _, rfl⟩ := notAbove_err _ _ _ _ _ h
  simp [ShowsWords, Outer]

theorem wordless_metaLength (syn : Syn τ) (other : Meta τ → String) (usize : List UInt8 → Option Nat) (m : Meta τ) :
    Wordless (metaLength syn other usize m : Out (Message α) Length) := by
  unfold metaLength
  split
  · refine (wordless_orMsg _ (by simp [ShowsWords, Outer]) _).bind fun ps _ => (wordless_run _ _ (by simp [lengthTable]) rfl rfl (fun _ _ => wordless_metaNumber _ _ _ _) _ _).bind fun s _ => ?_
    exact (wordless_notAbove _ _ _ _).bind fun _ _ => (wordless_notAbove _ _ _ _).bind fun _ _ => (wordless_notAbove _ _ _ _).bind fun _ _ =>
      wordless_ok _
  · exact wordless_err _ (by simp [ShowsWords, Outer])

variable [DecidableEq κ]

theorem wordless_metaCountries (syn : Syn τ) (country : String → Option κ) (order : Order κ) (m : Meta τ) :
    Wordless (metaCountries syn country order m : Out (Message α) (List κ)) := by
  unfold metaCountries
  split
  · refine (wordless_orMsg _ (by simp [ShowsWords, Outer]) _).bind fun is _ => ?_
    intro e ws h
    rw [map_err_iff] at h
    rcases countryLoop_err country is [] [] (by simp) e h with rfl | ⟨c, rfl, -⟩ <;> simp [ShowsWords, Outer]
  · exact wordless_err _ (by simp [ShowsWords, Outer])

theorem wordless_regexExpr (regexOk : String → Bool) (x : Expr) : Wordless (regexExpr regexOk x : Out (Message α) Expr) := by
  intro e ws h
  rcases regexExpr_err _ _ _ h with rfl | ⟨rfl, -⟩ <;> simp [ShowsWords, Outer]

theorem wordless_metaRegex (syn : Syn τ) (regexOk : String → Bool) (m : Meta τ) :
    Wordless (metaRegex syn regexOk m : Out (Message α) Expr) := by
  unfold metaRegex
  split
  · exact wordless_regexExpr _ _
  · exact (wordless_orMsg _ (by simp [ShowsWords, Outer]) _).bind fun _ _ => wordless_regexExpr _ _
  · exact wordless_err _ (by simp [ShowsWords, Outer])

variable (E : Env τ α κ) (other : Meta τ → String)

/-- Parameters with words, and the words. -/
def keyWords : Key → Option (List String)
  | .padding | .loc | .port | .atl | .ip | .ipv4 | .nan => some ["Must", "Allow", "Disallow"]
  | .comment | .nonAscii | .conflict => some ["Allow", "Disallow"]
  | .case => some ["Any", "Upper", "Lower"]
  | _ => none

theorem metaWord_words (syn : Syn τ) (ws ws' : List String) (of : String → Out (Message α) β) (hof : ∀ w e, of w = .err e → e = .word ws)
    (m : Meta τ) (e : Message α) (h : metaWord syn other ws of m = .err e) (hw : ShowsWords ws' e) : ws' = ws := by
  have key : (∃ w, of w = .err e) ∨ e = .wordForm (shown other m) ws := by
    unfold metaWord at h
    split at h
    · exact .inl ⟨_, h⟩
    · cases h; exact .inr rfl
    · split at h
      · exact .inl ⟨_, h⟩
      · cases h; exact .inr rfl
    · cases h; exact .inr rfl
  rcases key with ⟨w, hw'⟩ | rfl
  · rw [hof w e hw'] at hw
    simpa [ShowsWords, eq_comm] using hw
  · simpa [ShowsWords, eq_comm] using hw

theorem metaWord_isOk (syn : Syn τ) (ws : List String) (of : String → Out (Message α) β) (hof : ∀ w, (of w).IsOk ↔ w ∈ ws) (m : Meta τ)
    (w : String) (h : Word syn m w) : (metaWord syn other ws of m).IsOk ↔ w ∈ ws := by
  rcases h with ⟨n, rfl⟩ | ⟨n, t, rfl, ht⟩
  · exact hof w
  · simp only [metaWord, ht]; exact hof w

theorem triAllowOf_isOk (w : String) : (triAllowOf w : Out (Message α) TriAllow).IsOk ↔ w ∈ ["Must", "Allow", "Disallow"] := by
  unfold triAllowOf
  split
  · simp_all [Out.IsOk]
  · split
    · simp_all [Out.IsOk]
    · split <;> simp_all [Out.IsOk]

theorem allowOf_isOk (w : String) : (allowOf w : Out (Message α) Allow).IsOk ↔ w ∈ ["Allow", "Disallow"] := by
  unfold allowOf
  split
  · simp_all [Out.IsOk]
  · split <;> simp_all [Out.IsOk]

theorem caseOf_isOk (w : String) : (caseOf w : Out (Message α) CaseOption).IsOk ↔ w ∈ ["Any", "Upper", "Lower"] := by
  unfold caseOf
  split
  · simp_all [Out.IsOk]
  · split
    · simp_all [Out.IsOk]
    · split <;> simp_all [Out.IsOk]

omit [DecidableEq κ] in
theorem flagLoop_reset (feature : String) (enabled : Bool) (a b : String) (is : List String) (f : Flags) (e : Message α)
    (h : flagLoop feature enabled a b is f = .err e) : e = .reset a ∨ e = .reset b ∨ e = .feature feature ∨ ∃ ws, e = .word ws := by
  induction is generalizing f with
  | nil => cases h
  | cons p ps ih =>
    rcases (bind_err_iff _ _ _).1 h with h | ⟨g, -, h⟩
    · split at h
      · rename_i hp; split at h <;> cases h; exact .inl (by rw [hp])
      · split at h
        · rename_i hp; split at h <;> cases h; exact .inr (.inl (by rw [hp]))
        · cases h; exact .inr (.inr (.inr ⟨_, rfl⟩))
    · split at h
      · exact ih g h
      · cases h; exact .inr (.inr (.inl rfl))

theorem readKey_words (k : Key) (m : Meta τ) (e : Message α) (ws : List String) (h : readKey E other k m = .err e) (hw : ShowsWords ws e) :
    keyWords k = some ws ∨ (k = .serde ∧ ws = ["Serialize", "Deserialize"]) ∨ (k = .rocket ∧ ws = ["FromFormField", "FromParam"]) := by
  have flags : ∀ feature enabled a b, (metaFlags E.syn feature enabled a b m : Out (Message α) Flags) = .err e → ws = [a, b] := by
    intro feature enabled a b h
    unfold metaFlags at h
    split at h
    · split at h <;> cases h; simp [ShowsWords] at hw
    · split at h <;> cases h; simp [ShowsWords] at hw
    · cases h; simp [ShowsWords] at hw
    · rcases (bind_err_iff _ _ _).1 h with h | ⟨is, -, h⟩
      · rw [orMsg_err] at h; rw [← h.2] at hw; simp [ShowsWords] at hw
      · rcases flagLoop_err feature enabled a b is [] ⟨false, false⟩ e (by simp) (by simp) h with ⟨w, rfl, -⟩ | ⟨w, -, rfl, -⟩ | ⟨rfl, -⟩
        · simp [ShowsWords] at hw
        · simpa [ShowsWords, eq_comm] using hw
        · simp [ShowsWords] at hw
  cases k with
  | padding | loc | port | atl | ip | ipv4 | nan =>
    exact .inl (congrArg some (metaWord_words other E.syn _ ws _ (fun w e h => (triAllowOf_err w e h).1) m e h hw).symm)
  | comment | nonAscii | conflict =>
    exact .inl (congrArg some (metaWord_words other E.syn _ ws _ (fun w e h => (allowOf_err w e h).1) m e h hw).symm)
  | case => exact .inl (congrArg some (metaWord_words other E.syn _ ws _ (fun w e h => (caseOf_err w e h).1) m e h hw).symm)
  | range =>
    refine absurd (.inl hw) (((wordless_metaRangeOption _ _ _ _ _).bind fun o _ => ?_) e ws h)
    intro e' ws' h'
    exact (tokens_err _ _ _ h').elim
  | bounds => exact absurd (.inl hw) (wordless_metaRange _ _ _ _ _ e ws h)
  | ignoreCase => exact absurd (.inl hw) (wordless_metaBool _ _ _ e ws h)
  | separator => exact absurd (.inl hw) (wordless_metaSeparator _ _ _ e ws h)
  | length => exact absurd (.inl hw) (((wordless_metaLength _ _ _ _).map _) e ws h)
  | countries => exact absurd (.inl hw) (wordless_metaCountries _ _ _ _ e ws h)
  | regex => exact absurd (.inl hw) (wordless_metaRegex _ _ _ e ws h)
  | min | max => exact absurd (.inl hw) (wordless_metaNumber _ _ _ _ e ws h)
  | serde => exact .inr (.inl ⟨rfl, flags _ _ _ _ h⟩)
  | rocket => exact .inr (.inr ⟨rfl, flags _ _ _ _ h⟩)

/-- The reader of a parameter never complains about the parameters of the attribute. -/
theorem readKey_outer (k : Key) (m : Meta τ) (e : Message α) (h : readKey E other k m = .err e) : ¬ Outer e := by
  have word : ∀ {β : Type} (ws : List String) (of : String → Out (Message α) β), (∀ w e, of w = .err e → e = .word ws) →
      metaWord E.syn other ws of m = .err e → ¬ Outer e := by
    intro β ws of hof h
    unfold metaWord at h
    split at h
    · rw [hof _ _ h]; simp [Outer]
    · cases h; simp [Outer]
    · split at h
      · rw [hof _ _ h]; simp [Outer]
      · cases h; simp [Outer]
    · cases h; simp [Outer]
  have flags : ∀ feature enabled a b, a ∉ ["char_length", "byte_length"] → b ∉ ["char_length", "byte_length"] →
      (metaFlags E.syn feature enabled a b m : Out (Message α) Flags) = .err e → ¬ Outer e := by
    intro feature enabled a b ha hb h
    unfold metaFlags at h
    split at h
    · split at h <;> cases h; simp [Outer]
    · split at h <;> cases h; simp [Outer]
    · cases h; simp [Outer]
    · rcases (bind_err_iff _ _ _).1 h with h | ⟨is, -, h⟩
      · rw [orMsg_err] at h; rw [← h.2]; simp [Outer]
      · rcases flagLoop_reset feature enabled a b is _ e h with h' | h' | h' | ⟨ws, h'⟩ <;> subst h'
        · rintro (⟨p, l, h, -⟩ | h | h) <;> cases h <;> simp at ha
        · rintro (⟨p, l, h, -⟩ | h | h) <;> cases h <;> simp at hb
        · simp [Outer]
        · simp [Outer]
  cases k with
  | padding | loc | port | atl | ip | ipv4 | nan => exact word _ _ (fun w e h => (triAllowOf_err w e h).1) h
  | comment | nonAscii | conflict => exact word _ _ (fun w e h => (allowOf_err w e h).1) h
  | case => exact word _ _ (fun w e h => (caseOf_err w e h).1) h
  | range =>
    refine fun ho => absurd (.inr ho) (((wordless_metaRangeOption _ _ _ _ _).bind fun o _ => ?_) e [] h)
    intro e' ws' h'
    exact (tokens_err _ _ _ h').elim
  | bounds => exact fun ho => absurd (.inr ho) (wordless_metaRange _ _ _ _ _ e [] h)
  | ignoreCase => exact fun ho => absurd (.inr ho) (wordless_metaBool _ _ _ e [] h)
  | separator => exact fun ho => absurd (.inr ho) (wordless_metaSeparator _ _ _ e [] h)
  | length => exact fun ho => absurd (.inr ho) (((wordless_metaLength _ _ _ _).map _) e [] h)
  | countries => exact fun ho => absurd (.inr ho) (wordless_metaCountries _ _ _ _ e [] h)
  | regex => exact fun ho => absurd (.inr ho) (wordless_metaRegex _ _ _ e [] h)
  | min | max => exact fun ho => absurd (.inr ho) (wordless_metaNumber _ _ _ _ e [] h)
  | serde => exact flags _ _ _ _ (by decide) (by decide) h
  | rocket => exact flags _ _ _ _ (by decide) (by decide) h

theorem finish_outer (v : Validator) (s : State (Key.Val α κ)) (e : Message α) (h : finish v s = .err e) :
    ¬ Outer e ∧ ∀ ws, ¬ ShowsWords ws e := by
  unfold finish at h
  split at h
  · obtain ⟨_, _, _, _, _, rfl⟩ := notAbove_err _ _ _ _ _ h; simp [Outer, ShowsWords]
  · split at h <;> cases h; simp [Outer, ShowsWords]
  · split at h
    · split at h <;> cases h; simp [Outer, ShowsWords]
    · cases h
  · split at h
    · split at h <;> cases h; simp [Outer, ShowsWords]
    · cases h
  · obtain ⟨-, rfl⟩ := ite_err _ _ _ h; simp [Outer, ShowsWords]
  · cases h

/-- Why an attribute is refused. -/
theorem readAttribute_err (v : Validator) (m : Meta τ) (e : Message α) (h : readAttribute E other v m = .err e) (ho : Outer e ∨ ∃ ws, ShowsWords ws e) :
    ∃ ps, Gives E.syn m ps ∧ run other (table E other v) ps (State.init _) = .err e := by
  rcases (bind_err_iff _ _ _).1 h with h | ⟨s, -, h⟩
  · cases m with
    | path n => cases h
    | nameValue n x => cases h; simp [Outer, ShowsWords] at ho
    | list n t =>
      rcases (bind_err_iff _ _ _).1 h with h | ⟨ps, hp, h⟩
      · rw [orMsg_err] at h; rw [← h.2] at ho; simp [Outer, ShowsWords] at ho
      · rw [orMsg_ok] at hp; exact ⟨ps, .inr ⟨n, t, rfl, hp⟩, h⟩
  · obtain ⟨h1, h2⟩ := finish_outer v s e h
    rcases ho with ho | ⟨ws, ho⟩
    · exact absurd ho h1
    · exact absurd ho (h2 ws)

theorem lengths_reset (v : Validator) (m : Meta τ) (n : String) (hn : n = "char_length" ∨ n = "byte_length")
    (h : readAttribute E other v m = .err (.reset n)) :
    ∃ ps, Gives E.syn m ps ∧ ∃ a q b q' c, ps = a ++ q :: (b ++ q' :: c) ∧ (q.name = some "char_length" ∨ q.name = some "byte_length") ∧
      (q'.name = some "char_length" ∨ q'.name = some "byte_length") ∧ n = shown other q' := by
  have ho : Outer (.reset n : Message α) := by rcases hn with rfl | rfl <;> simp [Outer]
  obtain ⟨ps, hg, hr⟩ := readAttribute_err E other v m _ h (.inl ho)
  obtain ⟨q, hq, ⟨-, h1⟩ | ⟨k, hk, ⟨h1, a, q', b, c, rfl, hk'⟩ | h1⟩⟩ := run_init_err other _ ps _ hr
  · cases h1
  · obtain ⟨x, hx, hk⟩ := Option.bind_eq_some_iff.1 hk
    obtain ⟨y, hy, hk'⟩ := Option.bind_eq_some_iff.1 hk'
    have hs : n = x := by simpa [shown, hx] using h1
    subst hs
    refine ⟨_, hg, a, q', b, q, c, rfl, ?_, by rcases hn with rfl | rfl <;> simp [hx], by simp [shown, hx]⟩
    rcases arms_inj v n y k hk hk' with h2 | ⟨-, -, h2⟩
    · subst h2; rcases hn with rfl | rfl <;> simp [hy]
    · rcases h2 with rfl | rfl <;> simp [hy]
  · exact absurd ho (readKey_outer E other k q _ h1)

theorem listed_outer (v : Validator) : listed v ∉ [["min", "max", "inclusive"], ["min", "trimmed_min", "max"]] := by
  cases v <;> decide

theorem readKey_isOk (k : Key) (ws : List String) (hk : keyWords k = some ws) (m : Meta τ) (w : String) (h : Word E.syn m w) :
    (readKey E other k m).IsOk ↔ w ∈ ws := by
  cases k <;> cases hk
  all_goals first
    | exact metaWord_isOk other E.syn _ _ triAllowOf_isOk m w h
    | exact metaWord_isOk other E.syn _ _ allowOf_isOk m w h
    | exact metaWord_isOk other E.syn _ _ caseOf_isOk m w h

/-- An attribute with one parameter. -/
theorem one_param (v : Validator) (nm : Option String) (t : τ) (q : Meta τ) (ht : E.syn.metas t = some [q]) (n : String) (k : Key)
    (hn : q.name = some n) (hk : (arms v).lookup n = some k) :
    readAttribute E other v (.list nm t) = (readKey E other k q).bind fun x => finish v (State.put (State.init _) k x) := by
  have hkey : q.name.bind (table E other v).key = some k := by rw [hn]; exact hk
  simp only [readAttribute, params, ht, orMsg, Out.bind, run, step, hkey]
  cases hr : readKey E other k q with
  | ok x =>
    have : (table E other v).read k q = .ok x := hr
    simp [this, assign, Out.bind, State.init]
  | err e =>
    have : (table E other v).read k q = .err e := hr
    simp [this, assign, Out.bind, State.init]
  | panic =>
    have : (table E other v).read k q = .panic := hr
    simp [this, assign, Out.bind, State.init]

theorem finish_one (v : Validator) (n : String) (k : Key) (hk : (arms v).lookup n = some k) (hw : (keyWords k).isSome = true)
    (x : k.Val α κ) : finish (α := α) v (State.put (State.init _) k x) = .ok () := by
  have hm := key_cases hk
  cases v
  all_goals try rfl
  · cases k <;> first | (simp [keyWords] at hw; done) | (first | (cases x <;> rfl) | rfl)
  · cases k <;> first | (simp [keyWords] at hw; done) | (first | (cases x <;> rfl) | rfl)
  · exfalso
    simp only [arms, List.mem_cons, List.not_mem_nil, or_false, Prod.mk.injEq] at hm
    rcases hm with ⟨-, rfl⟩ | ⟨-, rfl⟩ | ⟨-, rfl⟩ <;> simp [keyWords] at hw
  · cases k <;> first | (simp [keyWords] at hw; done) | (first | (cases x <;> rfl) | rfl)
  · exfalso
    simp only [arms, serdeRocket, List.mem_cons, List.not_mem_nil, or_false, Prod.mk.injEq] at hm
    rcases hm with ⟨-, rfl⟩ | ⟨-, rfl⟩ | ⟨-, rfl⟩ <;> simp [keyWords] at hw

/-! ## The attributes without messages -/

theorem same (l : List (String × Key)) (v : Validator) (hl : arms v = l) (m : Meta τ) (f : State (Key.Val α κ) → Out AttrError β)
    (hf : ∀ s : State (Key.Val α κ), forget (finish (α := α) v s) = (f s).void) :
    forget (readAttribute E other v m) = ((Attr.params E.syn (Attr.table E l) m).bind f).void := by
  subst hl
  simp only [readAttribute, forget_bind, forget_params, plain_table]
  cases Attr.params E.syn (Attr.table E (arms v)) m with
  | ok s => exact hf s
  | err e => rfl
  | panic => rfl

theorem same_map (l : List (String × Key)) (v : Validator) (hl : arms v = l) (m : Meta τ) (f : State (Key.Val α κ) → β)
    (hf : ∀ s : State (Key.Val α κ), finish (α := α) v s = .ok ()) :
    forget (readAttribute E other v m) = ((Attr.params E.syn (Attr.table E l) m).map f).void := by
  have := same E other l v hl m (fun s => .ok (f s)) (fun s => by rw [hf s]; rfl)
  rw [this]
  cases Attr.params E.syn (Attr.table E l) m <;> rfl

theorem same_config (l : List (String × Key)) (v : Validator) (hl : arms v = l) (m : Meta τ) (g : State (Key.Val α κ) → β)
    (f : β → Out AttrError β) (hf : ∀ s : State (Key.Val α κ), forget (finish (α := α) v s) = (f (g s)).void) :
    forget (readAttribute E other v m) = (((Attr.params E.syn (Attr.table E l) m).map g).bind f).void := by
  rw [same E other l v hl m (fun s => f (g s)) hf]
  cases Attr.params E.syn (Attr.table E l) m <;> rfl

/-! ## The choice of the validator -/

omit [DecidableEq κ] in
theorem ite_same (c c' : Prop) [Decidable c] [Decidable c'] (h : c ↔ c') (e : Message α) (b : β) :
    forget (if c then .err e else .ok () : Out (Message α) Unit) = (if c' then .err e.kind else .ok b : Out AttrError β).void := by
  by_cases hc : c
  · rw [if_pos hc, if_pos (h.1 hc)]; rfl
  · rw [if_neg hc, if_neg (fun h' => hc (h.2 h'))]; rfl

/-- The validators shown are the enabled ones. -/
theorem available_iff (enabled : Validator → Bool) (n : String) : n ∈ available enabled ↔ ∃ v, enabled v = true ∧ n = name v := by
  have h1 : ∀ v, (v, name v) ∈ variants := by intro v; cases v <;> decide
  have h2 : ∀ x ∈ variants, x.2 = name x.1 := by decide
  simp only [available, List.mem_map, List.mem_filter]
  constructor
  · rintro ⟨x, ⟨hx, he⟩, rfl⟩; exact ⟨x.1, he, h2 x hx⟩
  · rintro ⟨v, he, rfl⟩; exact ⟨(v, name v), ⟨h1 v, he⟩, rfl⟩

omit [DecidableEq κ] in
theorem forget_select (syn : Syn τ) (other : Meta τ → String) (enabled : Validator → Bool) (used : Option (Validator × Meta τ)) (attrs : List (Meta τ)) :
    forgetSelect (select syn other enabled used attrs) = Derive.select syn enabled used attrs := by
  induction attrs generalizing used with
  | nil => rfl
  | cons a rest ih =>
    unfold select Derive.select
    by_cases ha : a.name = some "validator"
    · rw [if_pos ha, if_pos ha]
      cases a with
      | path n => rfl
      | nameValue n x => rfl
      | list n t =>
        cases h1 : syn.one t with
        | none => simp only [h1]; rfl
        | some m =>
          simp only [h1]
          cases fromPath enabled m.name with
          | none => rfl
          | some v =>
            cases used with
            | none => exact ih _
            | some u => rfl
    · rw [if_neg ha, if_neg ha]; exact ih used

omit [DecidableEq κ] in
theorem select_err (syn : Syn τ) (other : Meta τ → String) (enabled : Validator → Bool) (used : Option (Validator × Meta τ))
    (attrs : List (Meta τ)) (e : SelectMessage) (h : select syn other enabled used attrs = .err e) :
    ∃ a x b, attrs = a ++ x :: b ∧ x.name = some "validator" ∧
      ((e = .format ∧ ∀ n t, x ≠ .list n t) ∨ ∃ t, x = .list (some "validator") t ∧ ((e = .syn ∧ syn.one t = none) ∨
        ∃ m, syn.one t = some m ∧ ((e = .unsupported (shown other m) (available enabled) ∧ fromPath enabled m.name = none) ∨
          (e = .onlyOne ∧ (used.isSome = true ∨ ∃ y ∈ a, y.name = some "validator"))))) := by
  induction attrs generalizing used with
  | nil => cases h
  | cons x rest ih =>
    unfold select at h
    split at h
    · rename_i hx
      cases x with
      | path n => cases h; exact ⟨[], _, rest, rfl, hx, .inl ⟨rfl, by simp⟩⟩
      | nameValue n y => cases h; exact ⟨[], _, rest, rfl, hx, .inl ⟨rfl, by simp⟩⟩
      | list n t =>
        have hn : n = some "validator" := hx
        subst hn
        cases h1 : syn.one t with
        | none =>
          simp only [h1] at h
          cases h
          exact ⟨[], _, rest, rfl, hx, .inr ⟨t, rfl, .inl ⟨rfl, h1⟩⟩⟩
        | some m =>
          simp only [h1] at h
          cases h2 : fromPath enabled m.name with
          | none =>
            simp only [h2] at h
            cases h
            exact ⟨[], _, rest, rfl, hx, .inr ⟨t, rfl, .inr ⟨m, h1, .inl ⟨rfl, h2⟩⟩⟩⟩
          | some v =>
            simp only [h2] at h
            split at h
            · rename_i hu
              cases h
              exact ⟨[], _, rest, rfl, hx, .inr ⟨t, rfl, .inr ⟨m, h1, .inr ⟨rfl, .inl hu⟩⟩⟩⟩
            · obtain ⟨a, y, b, rfl, hy, r⟩ := ih _ h
              refine ⟨Meta.list (some "validator") t :: a, y, b, rfl, hy, ?_⟩
              rcases r with r | ⟨t', r1, r | ⟨m', r2, r | ⟨r3, r4⟩⟩⟩
              · exact .inl r
              · exact .inr ⟨t', r1, .inl r⟩
              · exact .inr ⟨t', r1, .inr ⟨m', r2, .inl r⟩⟩
              · exact .inr ⟨t', r1, .inr ⟨m', r2, .inr ⟨r3, .inr ⟨_, .head _, hx⟩⟩⟩⟩
    · obtain ⟨a, y, b, rfl, hy, r⟩ := ih _ h
      refine ⟨x :: a, y, b, rfl, hy, ?_⟩
      rcases r with r | ⟨t', r1, r | ⟨m', r2, r | ⟨r3, r4⟩⟩⟩
      · exact .inl r
      · exact .inr ⟨t', r1, .inl r⟩
      · exact .inr ⟨t', r1, .inr ⟨m', r2, .inl r⟩⟩
      · refine .inr ⟨t', r1, .inr ⟨m', r2, .inr ⟨r3, ?_⟩⟩⟩
        rcases r4 with r4 | ⟨z, hz, r4⟩
        · exact .inl r4
        · exact .inr ⟨z, .tail _ hz, r4⟩

omit [DecidableEq κ] in
theorem select_none (syn : Syn τ) (other : Meta τ → String) (enabled : Validator → Bool) (used : Option (Validator × Meta τ))
    (attrs : List (Meta τ)) (h : select syn other enabled used attrs = .ok none) :
    used = none ∧ ∀ x ∈ attrs, x.name ≠ some "validator" := by
  induction attrs generalizing used with
  | nil => cases h; simp
  | cons x rest ih =>
    unfold select at h
    split at h
    · exfalso
      split at h
      · split at h
        · cases h
        · split at h
          · split at h
            · cases h
            · exact absurd (ih _ h).1 (by simp)
          · cases h
      · cases h
    · rename_i hx
      obtain ⟨h1, h2⟩ := ih _ h
      refine ⟨h1, ?_⟩
      rintro y (_ | ⟨_, hy⟩)
      · exact hx
      · exact h2 y hy

theorem listed_names (v : Validator) (nm : Option String) (t : τ) (q : Meta τ) (n : String) (ht : E.syn.metas t = some [q])
    (hn : q.name = some n) : readAttribute E other v (.list nm t) = .err (.unknown n (listed v)) ↔ n ∉ listed v := by
  constructor
  · intro h hl
    have ho : Outer (.unknown n (listed v) : Message α) := .inl ⟨n, listed v, rfl, listed_outer v⟩
    obtain ⟨k, hk⟩ := Option.isSome_iff_exists.1 ((listed_iff v n).1 hl)
    rw [one_param E other v nm t q ht n k hn hk] at h
    rcases (bind_err_iff _ _ _).1 h with h | ⟨x, -, h⟩
    · exact readKey_outer E other k q _ h ho
    · exact (finish_outer v _ _ h).1 ho
  · intro hl
    have hk : q.name.bind (table E other v).key = none := by
      rw [hn]
      change (arms v).lookup n = none
      cases hk : (arms v).lookup n with
      | none => rfl
      | some k => exact absurd ((listed_iff v n).2 (by rw [hk]; rfl)) hl
    have hstep : step other (table E other v) (State.init _) q = .err (.unknown n (listed v)) := by
      unfold step
      rw [hk]
      simp [shown, hn, table]
    simp [readAttribute, params, ht, orMsg, Out.bind, run, hstep]


theorem listed_all (v : Validator) (m : Meta τ) (h : (readAttribute E other v m).IsOk) (ps : List (Meta τ)) (hg : Gives E.syn m ps) :
    ∀ q ∈ ps, ∃ n ∈ listed v, q.name = some n := by
  obtain ⟨_, hx⟩ := h
  obtain ⟨s, hs, -⟩ := (Attr.bind_ok_iff _ _ _).1 hx
  have hrun : run other (table E other v) ps (State.init _) = .ok s := by
    rcases hg with ⟨⟨n, rfl⟩, rfl⟩ | ⟨n, t, rfl, ht⟩
    · exact hs
    · obtain ⟨ps', h1, h2⟩ := (Attr.bind_ok_iff _ _ _).1 hs
      rw [orMsg_ok] at h1
      rw [ht] at h1
      cases h1
      exact h2
  have key : ∀ (ms : List (Meta τ)) (s0 : State (Key.Val α κ)), run other (table E other v) ms s0 = .ok s →
      ∀ q ∈ ms, ∃ k, q.name.bind (table E other v).key = some k := by
    intro ms
    induction ms with
    | nil => intro s0 _ q hq; cases hq
    | cons p ms ih =>
      intro s0 h q hq
      obtain ⟨s1, h1, h2⟩ := (Attr.bind_ok_iff _ _ _).1 h
      rcases List.mem_cons.1 hq with rfl | hq
      · unfold step at h1
        split at h1
        · cases h1
        · rename_i k hk; exact ⟨k, hk⟩
      · exact ih s1 h2 q hq
  intro q hq
  obtain ⟨k, hk⟩ := key ps _ hrun q hq
  obtain ⟨n, hn, hk⟩ := Option.bind_eq_some_iff.1 hk
  exact ⟨n, (listed_iff v n).2 (by change (arms v).lookup n = some k at hk; rw [hk]; rfl), hn⟩

theorem metaFlags_one (syn : Syn τ) (feature : String) (enabled : Bool) (a b : String) (n : Option String) (u : τ) (w : String)
    (hu : syn.idents u = some [w]) :
    (metaFlags syn feature enabled a b (.list n u) : Out (Message α) Flags) = .err (.word [a, b]) ↔ w ∉ [a, b] := by
  simp only [metaFlags, hu, orMsg, Out.bind, flagLoop]
  by_cases ha : w = a
  · cases enabled <;> simp [ha, Out.bind]
  · by_cases hb : w = b
    · subst hb; cases enabled <;> simp [ha, Out.bind]
    · simp [ha, hb]

theorem shown_words (v : Validator) (m : Meta τ) (e : Message α) (ws : List String) (h : readAttribute E other v m = .err e)
    (hw : e = .word ws ∨ ∃ p, e = .wordForm p ws) :
    ∃ ps n, Gives E.syn m ps ∧ (∃ q ∈ ps, q.name = some n) ∧
      ((n ≠ "serde" ∧ n ≠ "rocket" ∧ ∀ nm t q w, E.syn.metas t = some [q] → q.name = some n → Word E.syn q w →
          ((readAttribute E other v (.list nm t)).IsOk ↔ w ∈ ws)) ∨
       ((n = "serde" ∨ n = "rocket") ∧ ∀ nm t u w, E.syn.metas t = some [.list (some n) u] → E.syn.idents u = some [w] →
          (readAttribute E other v (.list nm t) = .err (.word ws) ↔ w ∉ ws))) := by
  obtain ⟨ps, hg, hr⟩ := readAttribute_err E other v m e h (.inr ⟨ws, hw⟩)
  obtain ⟨q, hq, ⟨-, rfl⟩ | ⟨k, hk, ⟨rfl, -⟩ | h1⟩⟩ := run_init_err other _ ps _ hr
  · simp at hw
  · simp at hw
  · obtain ⟨n, hn, hk⟩ := Option.bind_eq_some_iff.1 hk
    change (arms v).lookup n = some k at hk
    have hm := key_cases hk
    refine ⟨ps, n, hg, ⟨q, hq, hn⟩, ?_⟩
    have fin : ∀ nm t (q : Meta τ) ws', E.syn.metas t = some [q] → q.name = some n →
        (readAttribute E other v (.list nm t) = .err (.word ws') ↔ readKey E other k q = .err (.word ws')) := by
      intro nm t q ws' ht hq
      rw [one_param E other v nm t q ht n k hq hk, bind_err_iff]
      constructor
      · rintro (h | ⟨x, -, h⟩)
        · exact h
        · exact absurd (Or.inl rfl) ((finish_outer v _ _ h).2 ws')
      · exact .inl
    rcases readKey_words E other k q e ws h1 hw with h2 | ⟨rfl, rfl⟩ | ⟨rfl, rfl⟩
    · left
      refine ⟨?_, ?_, ?_⟩
      · rintro rfl
        have : k = .serde := by revert hm; cases v <;> simp [arms, serdeRocket]
        subst this; cases h2
      · rintro rfl
        have : k = .rocket := by revert hm; cases v <;> simp [arms, serdeRocket]
        subst this; cases h2
      · intro nm t q' w ht hq' hw'
        rw [one_param E other v nm t q' ht n k hq' hk, ← readKey_isOk E other k ws h2 q' w hw']
        cases readKey E other k q' with
        | ok x => simp [Out.bind, Out.IsOk, finish_one v n k hk (by rw [h2]; rfl) x]
        | err e => simp [Out.bind, Out.IsOk]
        | panic => simp [Out.bind, Out.IsOk]
    · right
      have : n = "serde" := by revert hm; cases v <;> simp [arms, serdeRocket]
      subst this
      refine ⟨.inl rfl, fun nm t u w ht hu => ?_⟩
      rw [fin nm t _ _ ht rfl]
      exact metaFlags_one E.syn "serde" E.serde "Serialize" "Deserialize" (some "serde") u w hu
    · right
      have : n = "rocket" := by revert hm; cases v <;> simp [arms, serdeRocket]
      subst this
      refine ⟨.inr rfl, fun nm t u w ht hu => ?_⟩
      rw [fin nm t _ _ ht rfl]
      exact metaFlags_one E.syn "rocket" E.rocket "FromFormField" "FromParam" (some "rocket") u w hu

theorem choice_true (syn : Syn τ) (enabled : Validator → Bool) (attrs : List (Meta τ)) (e : SelectMessage)
    (h : choose syn other enabled attrs = .err e) :
    match e with
    | .unsupported p names => ∃ t m, .list (some "validator") t ∈ attrs ∧ syn.one t = some m ∧ Shows other m p ∧ ∀ n, m.name = some n → n ∉ names
    | .onlyOne => Twice (fun a : Meta τ => a.name = some "validator") attrs
    | .format => ∃ a ∈ attrs, a.name = some "validator" ∧ ∀ n t, a ≠ .list n t
    | .notSetUp => ∀ a ∈ attrs, a.name ≠ some "validator"
    | .syn => ∃ t, .list (some "validator") t ∈ attrs ∧ syn.one t = none := by
  rcases (bind_err_iff _ _ _).1 h with h | ⟨used, hu, h⟩
  · obtain ⟨a, x, b, rfl, hx, ⟨rfl, h1⟩ | ⟨t, rfl, ⟨rfl, h1⟩ | ⟨m, h1, ⟨rfl, h2⟩ | ⟨rfl, h2⟩⟩⟩⟩ := select_err syn other enabled none attrs e h
    · exact ⟨x, by simp, hx, h1⟩
    · exact ⟨t, by simp, h1⟩
    · refine ⟨t, m, by simp, h1, rfl, fun n hn hm => ?_⟩
      rw [available_iff] at hm
      obtain ⟨v, hv, rfl⟩ := hm
      exact (fromPath_none enabled m.name).1 h2 v hv hn
    · rcases h2 with h2 | ⟨y, hy, h2⟩
      · cases h2
      · obtain ⟨c, d, rfl⟩ := List.append_of_mem hy
        exact ⟨c, y, d, _, b, by simp, h2, hx⟩
  · cases used with
    | some u => cases h
    | none => cases h; exact (select_none syn other enabled none attrs hu).2

end Verif.Diag
