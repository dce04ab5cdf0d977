import Verif.Proof.Attr

/-!
# Lemmas about reading ranges and lengths
-/

namespace Verif.Attr

open Verif.Spec.Attr
open Verif.Range (Bounds RangeOption CmpOp evalOp)

variable {τ α κ β γ : Type}

theorem setOpt_congr {ps : List (Meta τ)} {n : String} {A B : Meta τ → β → Prop} {o : Option β} (h : ∀ p v, A p v ↔ B p v) :
    SetOpt ps n A o ↔ SetOpt ps n B o := by
  have : A = B := by funext p v; exact propext (h p v)
  rw [this]

theorem operand_ok (num : NumTy α) (o : Option (Option Lit)) (v : Option α) : operand num o = .ok v ↔ SaysOperand num o v := by
  unfold SaysOperand
  match o with
  | none =>
    constructor
    · intro e; cases e; exact .inl ⟨rfl, rfl⟩
    · rintro (⟨_, rfl⟩ | ⟨l, d, a, e, _⟩)
      · rfl
      · cases e
  | some none => simp [operand]
  | some (some l) =>
    simp only [operand, map_ok_iff, litNumber_ok, reduceCtorEq, false_and, false_or, Option.some.injEq]
    constructor
    · rintro ⟨a, ⟨d, hd, ha⟩, rfl⟩; exact ⟨l, d, a, rfl, hd, ha, rfl⟩
    · rintro ⟨l', d, a, rfl, hd, ha, rfl⟩; exact ⟨a, ⟨d, hd, ha⟩, rfl⟩

theorem operand_some (num : NumTy α) (o : Option (Option Lit)) (v : Option α) (h : SaysOperand num o v) : o.isSome = true ↔ v ≠ none := by
  rcases h with ⟨rfl, rfl⟩ | ⟨l, d, a, rfl, _, _, rfl⟩ <;> simp

theorem fromExprRange_ok (num : NumTy α) (r : RangeExpr) (b : Bounds α) : fromExprRange num r = .ok b ↔ SaysRangeExpr num r b := by
  unfold SaysRangeExpr
  simp only [fromExprRange, bind_ok_iff, operand_ok]
  constructor
  · rintro ⟨min, h1, max, h2, e⟩
    cases e
    refine ⟨h1, h2, ?_⟩
    rw [← operand_some num _ _ h2]
    cases r.stop.isSome <;> cases r.halfOpen <;> simp
  · rintro ⟨h1, h2, h3⟩
    refine ⟨b.min, h1, b.max, h2, ?_⟩
    rw [← operand_some num _ _ h2] at h3
    obtain ⟨min, max, incl⟩ := b
    simp only [Out.ok.injEq, Bounds.mk.injEq, true_and]
    simp only at h3
    cases hs : r.stop.isSome <;> cases hh : r.halfOpen <;> cases incl <;> simp_all

theorem checkOrder_ok (num : NumTy α) (b c : Bounds α) : checkOrder num b = .ok c ↔ b = c ∧ InOrder num b := by
  unfold InOrder
  obtain ⟨min, max, incl⟩ := b
  cases min with
  | none => simp [checkOrder]
  | some min =>
    cases max with
    | none => simp [checkOrder]
    | some max =>
      simp only [checkOrder, evalOp, Option.some.injEq]
      constructor
      · intro h
        cases incl
        · cases hp : num.pcmp min max with
          | none => simp [hp] at h; exact ⟨h, by rintro _ _ rfl rfl; simp [hp]⟩
          | some o => cases o <;> simp [hp] at h; exact ⟨h, by rintro _ _ rfl rfl; simp [hp]⟩
        · cases hp : num.pcmp min max with
          | none => simp [hp] at h; exact ⟨h, by rintro _ _ rfl rfl; simp [hp]⟩
          | some o => cases o <;> simp [hp] at h <;> exact ⟨h, by rintro _ _ rfl rfl; simp [hp]⟩
      · rintro ⟨rfl, h⟩
        have := h min max rfl rfl
        cases incl <;> cases hp : num.pcmp min max with
          | none => simp
          | some o => cases o <;> simp_all

theorem distinct_range : Distinct [("min", RangeKey.min), ("max", .max), ("inclusive", .inclusive)] :=
  ⟨by simp, by simp⟩

theorem namedRange_ok (syn : Syn τ) (num : NumTy α) (t : τ) (b : Bounds α) :
    namedRange syn num t = .ok b ↔ SaysNamed syn num t b ∧ InOrder num b := by
  unfold SaysNamed
  simp only [namedRange, bind_ok_iff, orErr_ok, checkOrder_ok]
  constructor
  · rintro ⟨ps, hp, s, hr, rfl, ho⟩
    obtain ⟨hw, hs⟩ := run_names_ok (rangeTable syn num) _ (fun _ => rfl) distinct_range ps s hr
    refine ⟨⟨ps, hp, hw, ?_, ?_, ?_⟩, ho⟩
    · exact (setOpt_congr fun p v => metaNumber_ok syn num.fromStr p v).1 (hs "min" RangeKey.min (by simp))
    · exact (setOpt_congr fun p v => metaNumber_ok syn num.fromStr p v).1 (hs "max" RangeKey.max (by simp))
    · exact (set_iff ..).2 ⟨s .inclusive, (setOpt_congr fun p v => metaBool_ok syn p v).1 (hs "inclusive" RangeKey.inclusive (by simp)), rfl⟩
  · rintro ⟨⟨ps, hp, hw, h1, h2, h3⟩, ho⟩
    obtain ⟨o3, h3, e3⟩ := (set_iff ..).1 h3
    obtain ⟨s, hs, he⟩ := run_names_of (rangeTable syn num) _ (fun _ => rfl) distinct_range ps hw
      (fun | .min => b.min | .max => b.max | .inclusive => o3) (by
        intro n k hm
        simp only [List.mem_cons, Prod.mk.injEq, List.not_mem_nil, or_false] at hm
        rcases hm with ⟨rfl, rfl⟩ | ⟨rfl, rfl⟩ | ⟨rfl, rfl⟩
        · exact (setOpt_congr fun p v => metaNumber_ok syn num.fromStr p v).2 h1
        · exact (setOpt_congr fun p v => metaNumber_ok syn num.fromStr p v).2 h2
        · exact (setOpt_congr fun p v => metaBool_ok syn p v).2 h3)
    have e1 : s .min = b.min := he "min" RangeKey.min (by simp)
    have e2 : s .max = b.max := he "max" RangeKey.max (by simp)
    have e3' : s .inclusive = o3 := he "inclusive" RangeKey.inclusive (by simp)
    have e : (⟨s .min, s .max, (s .inclusive).getD true⟩ : Bounds α) = b := by
      rw [e1, e2, e3', ← e3]
    exact ⟨ps, hp, s, hs, e, e ▸ ho⟩

theorem metaRange_ok (syn : Syn τ) (full : Bool) (num : NumTy α) (m : Meta τ) (b : Bounds α) :
    metaRange syn full num m = .ok b ↔ SaysRange syn full num m b := by
  unfold SaysRange ByExpr ByName
  cases m with
  | path n => simp [metaRange]
  | nameValue n e =>
    cases e with
    | range r => cases full <;> simp [metaRange, fromExprRange_ok]
    | _ => simp [metaRange]
  | list n t =>
    cases full with
    | false => simp [metaRange, namedRange_ok]
    | true =>
      cases hr : syn.range t with
      | none =>
        simp only [metaRange, hr, namedRange_ok, true_and, Meta.list.injEq, reduceCtorEq, exists_false, false_or, exists_and_right]
        constructor
        · intro h; exact .inr ⟨t, ⟨⟨⟨n, rfl⟩, rfl⟩, fun _ => hr⟩, h⟩
        · rintro (⟨r, ⟨n', t', ⟨_, rfl⟩, h'⟩, _⟩ | ⟨t', ⟨⟨_, _, rfl⟩, _⟩, h⟩)
          · rw [hr] at h'; cases h'
          · exact h
      | some r => simp [metaRange, hr, fromExprRange_ok]

theorem metaRangeOption_ok (syn : Syn τ) (full : Bool) (num : NumTy α) (m : Meta τ) (o : RangeOption α) :
    metaRangeOption syn full num m = .ok o ↔ SaysRangeOption syn full num m o := by
  unfold SaysRangeOption
  cases m with
  | path n => simp [metaRangeOption]
  | nameValue n e => simp [metaRangeOption]
  | list n t =>
    simp only [metaRangeOption, bind_ok_iff, orErr_ok]
    constructor
    · rintro ⟨m, hm, h⟩
      refine ⟨n, t, m, rfl, hm, ?_⟩
      by_cases h1 : m.name = some "Inside"
      · rw [if_pos h1, map_ok_iff] at h
        obtain ⟨b, hb, rfl⟩ := h
        exact ⟨h1, (metaRange_ok ..).1 hb⟩
      · rw [if_neg h1] at h
        by_cases h2 : m.name = some "Outside"
        · rw [if_pos h2, map_ok_iff] at h
          obtain ⟨b, hb, rfl⟩ := h
          exact ⟨h2, (metaRange_ok ..).1 hb⟩
        · rw [if_neg h2] at h
          by_cases h3 : m.name = some "Unlimited"
          · rw [if_pos h3] at h; cases h; exact h3
          · rw [if_neg h3] at h; cases h
    · rintro ⟨n', t', m, e, hm, h⟩
      cases e
      refine ⟨m, hm, ?_⟩
      cases o with
      | inside b => rw [if_pos h.1, map_ok_iff]; exact ⟨b, (metaRange_ok ..).2 h.2, rfl⟩
      | outside b => rw [if_neg (by simp [h.1]), if_pos h.1, map_ok_iff]; exact ⟨b, (metaRange_ok ..).2 h.2, rfl⟩
      | unlimited => simp only at h; simp [h]

theorem tokens_ok (num : NumTy α) (o o' : RangeOption α) : tokens num o = .ok o' ↔ o = o' ∧ Writable num o := by
  unfold Writable
  cases o with
  | inside b =>
    obtain ⟨min, max, incl⟩ := b
    cases min <;> cases max <;> simp [tokens] <;> grind
  | outside b =>
    obtain ⟨min, max, incl⟩ := b
    cases min <;> cases max <;> simp [tokens] <;> grind
  | unlimited => simp [tokens]

theorem readRange_ok (E : Env τ α κ) (m : Meta τ) (o : RangeOption α) :
    (metaRangeOption E.syn E.full E.num m).bind (tokens E.num) = .ok o ↔ SaysFinite E.syn E.full E.num m o := by
  simp only [bind_ok_iff, tokens_ok, metaRangeOption_ok, SaysFinite]
  exact ⟨fun ⟨_, h, e, w⟩ => e ▸ ⟨h, w⟩, fun ⟨h, w⟩ => ⟨o, h, rfl, w⟩⟩

theorem notAbove_ok (x y : Option Nat) : notAbove x y = .ok () ↔ NotAbove x y := by
  unfold NotAbove
  cases x <;> cases y <;> simp [notAbove]

theorem distinct_length : Distinct [("min", LengthKey.min), ("trimmed_min", .trimmedMin), ("max", .max)] :=
  ⟨by simp, by simp⟩

theorem metaLength_ok (syn : Syn τ) (usize : List UInt8 → Option Nat) (m : Meta τ) (l : Length) :
    metaLength syn usize m = .ok l ↔ SaysLength syn usize m l := by
  unfold SaysLength
  cases m with
  | path n => simp [metaLength]
  | nameValue n e => simp [metaLength]
  | list n t =>
    simp only [metaLength, bind_ok_iff, orErr_ok, Meta.list.injEq]
    constructor
    · rintro ⟨ps, hp, s, hr, _, h1, _, h2, _, h3, e⟩
      cases e
      obtain ⟨hw, hs⟩ := run_names_ok (lengthTable syn usize) _ (fun _ => rfl) distinct_length ps s hr
      refine ⟨n, t, ps, ⟨rfl, rfl⟩, hp, hw, ?_, ?_, ?_, (notAbove_ok ..).1 h1, (notAbove_ok ..).1 h2, (notAbove_ok ..).1 h3⟩
      · exact (setOpt_congr fun p v => metaNumber_ok syn usize p v).1 (hs "min" LengthKey.min (by simp))
      · exact (setOpt_congr fun p v => metaNumber_ok syn usize p v).1 (hs "trimmed_min" LengthKey.trimmedMin (by simp))
      · exact (setOpt_congr fun p v => metaNumber_ok syn usize p v).1 (hs "max" LengthKey.max (by simp))
    · rintro ⟨n', t', ps, ⟨rfl, rfl⟩, hp, hw, h1, h2, h3, n1, n2, n3⟩
      obtain ⟨s, hs, he⟩ := run_names_of (lengthTable syn usize) _ (fun _ => rfl) distinct_length ps hw
        (fun | .min => l.min | .trimmedMin => l.trimmedMin | .max => l.max) (by
          intro n k hm
          simp only [List.mem_cons, Prod.mk.injEq, List.not_mem_nil, or_false] at hm
          rcases hm with ⟨rfl, rfl⟩ | ⟨rfl, rfl⟩ | ⟨rfl, rfl⟩
          · exact (setOpt_congr fun p v => metaNumber_ok syn usize p v).2 h1
          · exact (setOpt_congr fun p v => metaNumber_ok syn usize p v).2 h2
          · exact (setOpt_congr fun p v => metaNumber_ok syn usize p v).2 h3)
      have e1 : s .min = l.min := he "min" LengthKey.min (by simp)
      have e2 : s .trimmedMin = l.trimmedMin := he "trimmed_min" LengthKey.trimmedMin (by simp)
      have e3 : s .max = l.max := he "max" LengthKey.max (by simp)
      refine ⟨ps, hp, s, hs, (), ?_, (), ?_, (), ?_, ?_⟩
      · rw [e1, e2]; exact (notAbove_ok ..).2 n1
      · rw [e1, e3]; exact (notAbove_ok ..).2 n2
      · rw [e2, e3]; exact (notAbove_ok ..).2 n3
      · rw [e1, e2, e3]

end Verif.Attr
