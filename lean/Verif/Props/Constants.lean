import Verif.Props.Surface
import Verif.Props.Options
import Verif.Spec.Constants

/-!
# C81: the constants of the feature `test`
-/

namespace Verif.Props.Constants

open Verif Verif.Attr Verif.Derive Verif.Constants Verif.Spec.Constants
open Verif.Spec.Attr (Set SetOpt SaysTri SaysAllow SaysCase SaysSeparator Word)
open Verif.Spec.Generated (Options)

variable {τ φ κ : Type}

/-! ## Lemmas -/

theorem set_map {A B : Type} {ps : List (Meta τ)} {name : String} {P : Meta τ → A → Prop} {Q : Meta τ → B → Prop} {d v : A} (f : A → B)
    (hPQ : ∀ p a, P p a → Q p (f a)) (h : Set ps name P d v) : Set ps name Q (f d) (f v) := by
  rcases h with ⟨p, hp, hn, hs⟩ | ⟨hn, rfl⟩
  · exact .inl ⟨p, hp, hn, hPQ p _ hs⟩
  · exact .inr ⟨hn, rfl⟩

theorem chosen_tri {syn : Syn τ} {ps : List (Meta τ)} {name : String} {t : TriAllow} (h : Set ps name (SaysTri syn) .allow t) :
    Chosen syn ps name (ofTri t) :=
  set_map ofTri (fun p a h => by cases a <;> exact h) h

theorem chosen_allow {syn : Syn τ} {ps : List (Meta τ)} {name : String} {t : Allow} (h : Set ps name (SaysAllow syn) .allow t) :
    Chosen syn ps name (ofAllow t) ∧ ofAllow t ≠ .must :=
  ⟨set_map ofAllow (fun p a h => by cases a <;> exact h) h, by cases t <;> decide⟩

theorem written_token {α : Type} (lit : α → Literal φ) (b : Option α) : Spec.Constants.Written lit b (optionToken lit b) := by
  cases b with
  | none => exact .inl ⟨rfl, rfl⟩
  | some x => exact .inr ⟨x, rfl, rfl⟩

theorem same_range {α : Type} (lit : α → Literal φ) (r : Range.RangeOption α) : SameRange lit r (ofRange lit r) := by
  cases r with
  | inside b => exact ⟨written_token lit _, written_token lit _, rfl⟩
  | outside b => exact ⟨written_token lit _, written_token lit _, rfl⟩
  | unlimited => trivial

theorem set_range {α : Type} (lit : α → Literal φ) {ps : List (Meta τ)} {P : Meta τ → Range.RangeOption α → Prop} {r : Range.RangeOption α}
    (h : Set ps "range" P .unlimited r) : Set ps "range" (fun p r => ∃ o, P p o ∧ SameRange lit o r) .unlimited (ofRange lit r) :=
  set_map (ofRange lit) (fun _ o ho => ⟨o, ho, same_range lit o⟩) h

theorem typeName_eq (signed : Bool) (w : IntV.Width) : typeName signed w = Spec.Derive.intName signed w := by
  cases signed <;> cases w <;> rfl

theorem set_opt {syn : Syn τ} {usize : List UInt8 → Option Nat} {ps : List (Meta τ)} {name : String} {n : Option Nat}
    (h : SetOpt ps name (Spec.Attr.SaysNumber syn usize) n) :
    Set ps name (fun p n => ∃ k, Spec.Attr.SaysNumber syn usize p k ∧ n = some (Literal.int (φ := φ) "usize" k)) none
      (optionToken (fun k : Nat => .int "usize" (k : Int)) n) := by
  refine set_map (optionToken fun k : Nat => Literal.int "usize" (k : Int)) ?_ h
  rintro p _ ⟨k, rfl, hk⟩
  exact ⟨k, hk, rfl⟩

theorem length_set {syn : Syn τ} {usize : List UInt8 → Option Nat} {ps : List (Meta τ)} {v : Option (Bool × Attr.Length)}
    (h : Spec.Attr.SaysText syn usize ps v) (field : Attr.Length → Option Nat) (hf : field ⟨none, none, none⟩ = none) :
    LengthSet (φ := φ) syn usize ps (v.getD (false, ⟨none, none, none⟩)).1 field
      (optionToken (fun k : Nat => .int "usize" (k : Int)) (field (v.getD (false, ⟨none, none, none⟩)).2)) := by
  rcases h with ⟨rfl, hn⟩ | ⟨p, hp, isByte, l, rfl, hl, hn, -⟩
  · exact .inl ⟨hn, rfl, by simp [hf, optionToken]⟩
  · exact .inr ⟨p, hp, hn, l, hl, written_token _ _⟩

/-! ## Values -/

/-- The values, by the validator and its parameters. -/
theorem values [DecidableEq κ] (M : Macro τ φ κ) (v : Validator) (ps : List (Meta τ)) (p : Plan φ κ) (h : Options M v ps p) :
    ∀ c ∈ constants p, Shows M v ps c := by
  intro c hc
  cases p with
  | base w a =>
    obtain ⟨-, -, -, h1, -⟩ := h
    simp only [constants, List.mem_singleton] at hc
    subst hc
    exact chosen_tri h1
  | basic w a => simp [constants] at hc
  | regex a => simp [constants] at hc
  | bit a =>
    obtain ⟨rfl, -, h1, -⟩ := h
    simp only [constants, List.mem_singleton] at hc
    subst hc
    simp only [Shows, true_or, if_true]
    exact set_map ofBounds (fun p b hb => ⟨b, _, _, _, hb, ⟨written_token _ _, written_token _ _, rfl⟩, rfl⟩) h1
  | byte a =>
    obtain ⟨rfl, -, h1, h2, -⟩ := h
    simp only [constants, List.mem_cons, List.not_mem_nil, or_false] at hc
    rcases hc with rfl | rfl
    · simp only [Shows, or_true, if_true]
      exact set_map ofBounds (fun p b hb => ⟨b, _, _, _, hb, ⟨written_token _ _, written_token _ _, rfl⟩, rfl⟩) h1
    · exact h2
  | domain a =>
    obtain ⟨-, -, h1, h2, h3, h4, -⟩ := h
    simp only [constants, List.mem_cons, List.not_mem_nil, or_false] at hc
    rcases hc with rfl | rfl | rfl | rfl
    exacts [chosen_tri h1, chosen_tri h2, chosen_tri h3, chosen_tri h4]
  | email a =>
    obtain ⟨-, -, h1, h2, h3, h4, h5, -⟩ := h
    simp only [constants, List.mem_cons, List.not_mem_nil, or_false] at hc
    rcases hc with rfl | rfl | rfl | rfl | rfl
    exacts [chosen_allow h1, chosen_tri h2, chosen_tri h3, chosen_tri h4, chosen_allow h5]
  | host a =>
    obtain ⟨-, -, h1, h2, h3, -⟩ := h
    simp only [constants, List.mem_cons, List.not_mem_nil, or_false] at hc
    rcases hc with rfl | rfl | rfl
    exacts [chosen_tri h1, chosen_tri h2, chosen_tri h3]
  | url w a =>
    obtain ⟨-, -, -, h1, -⟩ := h
    simp only [constants, List.mem_singleton] at hc
    subst hc
    exact chosen_tri h1
  | ip w a =>
    obtain ⟨-, -, -, h1, h2, -⟩ := h
    simp only [constants, List.mem_cons, List.not_mem_nil, or_false] at hc
    rcases hc with rfl | rfl
    exacts [chosen_tri h1, chosen_tri h2]
  | length a =>
    obtain ⟨-, -, h1, h2, -⟩ := h
    simp only [constants, List.mem_cons, List.not_mem_nil, or_false] at hc
    rcases hc with rfl | rfl <;> simp only [Shows, sizeConst]
    exacts [set_opt h1, set_opt h2]
  | utf8 w a =>
    obtain ⟨-, -, -, h1, -⟩ := h
    have k1 := length_set (φ := φ) h1 Attr.Length.min rfl
    have k2 := length_set (φ := φ) h1 Attr.Length.trimmedMin rfl
    have k3 := length_set (φ := φ) h1 Attr.Length.max rfl
    simp only [constants, textConsts] at hc
    generalize a.length.getD (false, ⟨none, none, none⟩) = x at hc k1 k2 k3
    obtain ⟨isByte, l⟩ := x
    cases isByte <;> simp only [if_true, Bool.false_eq_true, if_false, List.mem_cons, List.not_mem_nil, or_false] at hc <;>
      rcases hc with rfl | rfl | rfl <;> simp only [Shows, sizeConst] <;> assumption
  | hex w a =>
    obtain ⟨rfl, -, -, h1, h2, -⟩ := h
    simp only [constants, List.mem_cons, List.not_mem_nil, or_false] at hc
    rcases hc with rfl | rfl
    · simp only [Shows]
      exact set_map ofCase (Q := fun p x => Word M.syn p (caseWord x)) (fun p a h => by cases a <;> exact h) h1
    · simp only [Shows]
      exact set_map ofSeparator (fun p a h => by cases a <;> exact h) h2
  | number double a =>
    obtain ⟨rfl, -, h1, h2, -⟩ := h
    simp only [constants, List.mem_cons, List.not_mem_nil, or_false] at hc
    rcases hc with rfl | rfl
    · exact chosen_tri h2
    · simp only [Shows, reduceCtorEq, or_self, if_false]
      exact ⟨_, rfl, .inr ⟨double, rfl, set_range _ h1⟩⟩
  | phone a =>
    obtain ⟨-, -, h1, -⟩ := h
    simp only [constants, List.mem_singleton] at hc
    subst hc
    exact h1
  | int signed w a =>
    obtain ⟨rfl, -, h1, -⟩ := h
    simp only [constants, List.mem_singleton] at hc
    subst hc
    have hv : ¬ ((if signed = true then Validator.signed_integer else .unsigned_integer) = .bit ∨
        (if signed = true then Validator.signed_integer else .unsigned_integer) = .byte) := by cases signed <;> decide
    simp only [Shows, if_neg hv]
    exact ⟨_, rfl, .inl ⟨signed, w, typeName_eq signed w, set_range _ h1⟩⟩

/-- C81, values: every constant of an accepted item holds what is written in its attribute, or the default of the manual where nothing
is written. -/
theorem C81_values [DecidableEq κ] (M : Macro τ φ κ) (ast : Input τ) (p : Plan φ κ) (h : derive M ast = .ok p) :
    ∃ a v m ps, Spec.Derive.Only Spec.Derive.Ours ast.attrs a ∧ Spec.Derive.Requests M.syn M.enabled a v m ∧ Spec.Attr.Gives M.syn m ps ∧
      ∀ c ∈ constants p, Shows M v ps c := by
  obtain ⟨v, a, m, ps, h1, h2, h3, ho, -⟩ := Generated.C71_written M ast p h
  exact ⟨a, v, m, ps, h1, h2, h3, values M v ps p ho⟩

/-! ## Names -/

/-- C81, names: an accepted item has exactly the constants of its validator, each once, in one block of its own; the rest of the code
is what it is without the feature. `line` and `text` count bytes exactly if `byte_length` is given. -/
theorem C81_names [DecidableEq κ] (M : Macro τ φ κ) (ast : Input τ) (p : Plan φ κ) (h : derive M ast = .ok p) (ptr : IntV.Ptr) :
    ∃ a v m ps isByte, Spec.Derive.Only Spec.Derive.Ours ast.attrs a ∧ Spec.Derive.Requests M.syn M.enabled a v m ∧
      Spec.Attr.Gives M.syn m ps ∧ (constants p).map Constant.name = names isByte v ∧ (names isByte v).Nodup ∧
      (v = .line ∨ v = .text → (isByte = true ↔ ∃ q ∈ ps, q.name = some "byte_length")) ∧
      Surface.blocks M true ptr p = (if names isByte v = [] then [] else [⟨none, names isByte v⟩]) ++ Surface.blocks M false ptr p := by
  obtain ⟨v, a, m, ps, h1, h2, h3, ho, -⟩ := Generated.C71_written M ast p h
  by_cases ht : v = .line ∨ v = .text
  · refine ⟨a, v, m, ps, ((match p with | .utf8 _ b => b.length | _ => none).map Prod.fst).getD false, h1, h2, h3, ?_⟩
    cases p with
    | utf8 w b =>
      obtain ⟨rfl, hv, -, hl, -⟩ := ho
      obtain ⟨hn, hd⟩ : (b.length.map Prod.fst).getD false = true ↔ ∃ q ∈ ps, q.name = some "byte_length" := by
        rcases hl with ⟨e, hn⟩ | ⟨q, hq, isByte, l, e, -, hn, huniq⟩
        · rw [e]
          simp only [Option.map_none, Option.getD_none, Bool.false_eq_true, false_iff]
          rintro ⟨q, hq, e⟩
          exact (hn q hq).2 e
        · rw [e]
          simp only [Option.map_some, Option.getD_some]
          constructor
          · rintro rfl
            exact ⟨q, hq, hn⟩
          · rintro ⟨r, hr, e⟩
            rw [huniq r hr (.inr e), hn] at e
            cases isByte <;> simp_all
      refine ⟨?_, ?_, fun _ => ⟨hn, hd⟩, ?_⟩
      · obtain ⟨ln, f1, f2⟩ := b
        rcases ht with rfl | rfl <;> rcases ln with _ | ⟨_ | _, l⟩ <;> rfl
      · rcases ht with rfl | rfl <;> cases (b.length.map Prod.fst).getD false <;> decide +kernel
      · obtain ⟨ln, f1, f2⟩ := b
        rcases ht with rfl | rfl <;> rcases ln with _ | ⟨_ | _, l⟩ <;> rfl
    | int signed w b => obtain ⟨e, -⟩ := ho; rcases ht with rfl | rfl <;> cases signed <;> simp at e
    | _ => rcases ht with rfl | rfl <;> simp [Options] at ho
  · refine ⟨a, v, m, ps, false, h1, h2, h3, ?_, by cases v <;> decide +kernel, fun h => absurd h ht, ?_⟩
    · cases p with
      | base w b =>
        obtain ⟨rfl, hv, -⟩ := ho
        simp only [List.mem_cons, List.not_mem_nil, or_false] at hv
        rcases hv with rfl | rfl | rfl | rfl | rfl | rfl <;> rfl
      | basic w b =>
        obtain ⟨rfl, hv, -⟩ := ho
        simp only [List.mem_cons, List.not_mem_nil, or_false] at hv
        rcases hv with rfl | rfl | rfl | rfl | rfl <;> rfl
      | url w b =>
        obtain ⟨rfl, hv, -⟩ := ho
        simp only [List.mem_cons, List.not_mem_nil, or_false] at hv
        rcases hv with rfl | rfl <;> rfl
      | ip w b =>
        obtain ⟨rfl, hv, -⟩ := ho
        simp only [List.mem_cons, List.not_mem_nil, or_false] at hv
        rcases hv with rfl | rfl | rfl <;> rfl
      | hex w b =>
        obtain ⟨rfl, hv, -⟩ := ho
        simp only [List.mem_cons, List.not_mem_nil, or_false] at hv
        rcases hv with rfl | rfl <;> rfl
      | utf8 w b =>
        obtain ⟨rfl, hv, -⟩ := ho
        simp only [List.mem_cons, List.not_mem_nil, or_false] at hv
        exact absurd hv ht
      | int signed w b =>
        obtain ⟨rfl, -⟩ := ho
        cases signed <;> rfl
      | _ => obtain ⟨rfl, -⟩ := ho; rfl
    · cases p with
      | base w b =>
        obtain ⟨rfl, hv, -⟩ := ho
        simp only [List.mem_cons, List.not_mem_nil, or_false] at hv
        rcases hv with rfl | rfl | rfl | rfl | rfl | rfl <;> rfl
      | basic w b =>
        obtain ⟨rfl, hv, -⟩ := ho
        simp only [List.mem_cons, List.not_mem_nil, or_false] at hv
        rcases hv with rfl | rfl | rfl | rfl | rfl <;> rfl
      | url w b =>
        obtain ⟨rfl, hv, -⟩ := ho
        simp only [List.mem_cons, List.not_mem_nil, or_false] at hv
        rcases hv with rfl | rfl <;> rfl
      | ip w b =>
        obtain ⟨rfl, hv, -⟩ := ho
        simp only [List.mem_cons, List.not_mem_nil, or_false] at hv
        rcases hv with rfl | rfl | rfl <;> rfl
      | hex w b =>
        obtain ⟨rfl, hv, -⟩ := ho
        simp only [List.mem_cons, List.not_mem_nil, or_false] at hv
        rcases hv with rfl | rfl <;> rfl
      | utf8 w b =>
        obtain ⟨rfl, hv, -⟩ := ho
        simp only [List.mem_cons, List.not_mem_nil, or_false] at hv
        exact absurd hv ht
      | int signed w b =>
        obtain ⟨rfl, -⟩ := ho
        cases signed <;> rfl
      | _ => obtain ⟨rfl, -⟩ := ho; rfl

/-! ## Types -/

theorem typed_option {α : Type} (lit : α → Literal φ) (t : String) (h : ∀ a, OfType t (lit a)) (n : Option α) :
    ∀ l ∈ optionToken lit n, OfType t l := by
  rintro l hl
  cases n with
  | none => simp [optionToken] at hl
  | some a =>
    simp only [optionToken, Option.mem_def, Option.some.injEq] at hl
    exact hl ▸ h a

theorem typed_range {α : Type} (lit : α → Literal φ) (t : String) (h : ∀ a, OfType t (lit a)) (r : Range.RangeOption α) :
    Typed (κ := κ) (.range t) (.limits (ofRange lit r)) := by
  cases r with
  | inside b => exact ⟨typed_option lit t h _, typed_option lit t h _⟩
  | outside b => exact ⟨typed_option lit t h _, typed_option lit t h _⟩
  | unlimited => trivial

/-- C81, types: the expression of every constant has the type that the constant is declared with, so the constants compile. -/
theorem C81_typed (p : Plan φ κ) : ∀ c ∈ constants p, Typed c.ty c.value := by
  intro c hc
  cases p with
  | bit a =>
    simp only [constants, List.mem_singleton] at hc
    subst hc
    exact ⟨typed_option (.int "u128") "u128" (fun _ => rfl) _, typed_option (.int "u128") "u128" (fun _ => rfl) _⟩
  | byte a =>
    simp only [constants, List.mem_cons, List.not_mem_nil, or_false] at hc
    rcases hc with rfl | rfl
    · exact ⟨typed_option (.int "u128") "u128" (fun _ => rfl) _, typed_option (.int "u128") "u128" (fun _ => rfl) _⟩
    · trivial
  | length a =>
    simp only [constants, List.mem_cons, List.not_mem_nil, or_false] at hc
    rcases hc with rfl | rfl <;> exact typed_option (fun k : Nat => .int "usize" (k : Int)) "usize" (fun _ => rfl) _
  | utf8 w a =>
    simp only [constants, textConsts] at hc
    generalize a.length.getD (false, ⟨none, none, none⟩) = x at hc
    obtain ⟨isByte, l⟩ := x
    cases isByte <;> simp only [if_true, Bool.false_eq_true, if_false, List.mem_cons, List.not_mem_nil, or_false] at hc <;>
      rcases hc with rfl | rfl | rfl <;> exact typed_option (fun k : Nat => .int "usize" (k : Int)) "usize" (fun _ => rfl) _
  | number double a =>
    simp only [constants, List.mem_cons, List.not_mem_nil, or_false] at hc
    rcases hc with rfl | rfl
    · trivial
    · exact typed_range (.float _) _ (fun _ => rfl) _
  | phone a =>
    simp only [constants, List.mem_singleton] at hc
    subst hc
    rfl
  | int signed w a =>
    simp only [constants, List.mem_singleton] at hc
    subst hc
    exact typed_range (.int _) _ (fun _ => rfl) _
  | base w a => simp only [constants, List.mem_singleton] at hc; subst hc; trivial
  | url w a => simp only [constants, List.mem_singleton] at hc; subst hc; trivial
  | basic w a => simp [constants] at hc
  | regex a => simp [constants] at hc
  | domain a =>
    simp only [constants, List.mem_cons, List.not_mem_nil, or_false] at hc
    rcases hc with rfl | rfl | rfl | rfl <;> trivial
  | email a =>
    simp only [constants, List.mem_cons, List.not_mem_nil, or_false] at hc
    rcases hc with rfl | rfl | rfl | rfl | rfl <;> trivial
  | host a =>
    simp only [constants, List.mem_cons, List.not_mem_nil, or_false] at hc
    rcases hc with rfl | rfl | rfl <;> trivial
  | ip w a =>
    simp only [constants, List.mem_cons, List.not_mem_nil, or_false] at hc
    rcases hc with rfl | rfl <;> trivial
  | hex w a =>
    simp only [constants, List.mem_cons, List.not_mem_nil, or_false] at hc
    rcases hc with rfl | rfl <;> trivial

/-! ## The constants determine the validator -/

theorem ofTri_inj : Function.Injective ofTri := by intro a b; cases a <;> cases b <;> decide
theorem ofAllow_inj : Function.Injective ofAllow := by intro a b; cases a <;> cases b <;> decide
theorem ofCase_inj : Function.Injective ofCase := by intro a b; cases a <;> cases b <;> decide
theorem ofSeparator_inj : Function.Injective ofSeparator := by intro a b h; cases a <;> cases b <;> simp_all [ofSeparator]

theorem token_inj {α : Type} {lit : α → Literal φ} (h : Function.Injective lit) : Function.Injective (optionToken lit) := by
  intro a b e
  cases a <;> cases b <;> simp_all [optionToken]
  exact h e

theorem int_inj (t : String) : Function.Injective (Literal.int (φ := φ) t) := fun a b e => by cases e; rfl
theorem float_inj (t : String) : Function.Injective (Literal.float (φ := φ) t) := fun a b e => by cases e; rfl

theorem range_inj {α : Type} {lit : α → Literal φ} (h : Function.Injective lit) : Function.Injective (ofRange lit) := by
  rintro (⟨a, b, c⟩ | ⟨a, b, c⟩ | _) (⟨a', b', c'⟩ | ⟨a', b', c'⟩ | _) e <;> simp_all [ofRange] <;>
    exact ⟨token_inj h e.1, token_inj h e.2.1⟩

theorem bounds_inj : Function.Injective (ofBounds (φ := φ)) := by
  rintro ⟨a, b, c⟩ ⟨a', b', c'⟩ e
  simp only [ofBounds, Limits.inside.injEq] at e
  rw [token_inj (int_inj _) e.1, token_inj (int_inj _) e.2.1, e.2.2]

theorem size_inj {name name' : String} {m n : Option Nat} (h : sizeConst (φ := φ) (κ := κ) name m = sizeConst name' n) : name = name' ∧ m = n := by
  simp only [sizeConst, Constant.mk.injEq, true_and, Value.number.injEq] at h
  exact ⟨h.1, token_inj (fun a b e => Int.ofNat.inj (by simpa using e)) h.2⟩

theorem typeName_inj {s s' : Bool} {w w' : IntV.Width} (h : typeName s w = typeName s' w') : s = s' ∧ w = w' := by
  revert h; cases s <;> cases s' <;> cases w <;> cases w' <;> decide +kernel

/-- Two texts with the same constants have the same lengths, up to lengths that say nothing. -/
theorem text_inj {a b : Utf8Attribute} (h : textConsts (φ := φ) (κ := κ) a = textConsts b) :
    a.length.getD (false, ⟨none, none, none⟩) = b.length.getD (false, ⟨none, none, none⟩) := by
  simp only [textConsts] at h
  generalize a.length.getD (false, ⟨none, none, none⟩) = x at h
  generalize b.length.getD (false, ⟨none, none, none⟩) = y at h
  obtain ⟨i, l1, l2, l3⟩ := x
  obtain ⟨j, m1, m2, m3⟩ := y
  cases i <;> cases j <;> simp only [if_true, Bool.false_eq_true, if_false, List.cons.injEq, and_true] at h
  · rw [(size_inj h.1).2, (size_inj h.2.1).2, (size_inj h.2.2).2]
  · exact absurd (size_inj h.1).1 (by decide +kernel)
  · exact absurd (size_inj h.1).1 (by decide +kernel)
  · rw [(size_inj h.1).2, (size_inj h.2.1).2, (size_inj h.2.2).2]

variable {N U V ε : Type} [LinearOrder φ]

theorem line_getD [DecidableEq κ] (L : Verif.Generated.Libs φ κ N U V ε) (k : Line.Kind) (a b : Utf8Attribute)
    (h : a.length.getD (false, ⟨none, none, none⟩) = b.length.getD (false, ⟨none, none, none⟩)) :
    Verif.Generated.lineImpl L k a = Verif.Generated.lineImpl L k b := by
  obtain ⟨la, _, _⟩ := a
  obtain ⟨lb, _, _⟩ := b
  rcases la with _ | ⟨i, l⟩ <;> rcases lb with _ | ⟨j, m⟩
  · rfl
  · simp only [Option.getD_none, Option.getD_some] at h
    cases h; rfl
  · simp only [Option.getD_none, Option.getD_some] at h
    cases h; rfl
  · simp only [Option.getD_some] at h
    cases h; rfl

/-- Which handler made a plan. -/
def kind : Plan φ κ → Nat
  | .base _ _ => 0
  | .basic _ _ => 1
  | .bit _ => 2
  | .byte _ => 3
  | .domain _ => 4
  | .email _ => 5
  | .host _ => 6
  | .url _ _ => 7
  | .ip _ _ => 8
  | .length _ => 9
  | .utf8 _ _ => 10
  | .hex _ _ => 11
  | .number _ _ => 12
  | .phone _ => 13
  | .regex _ => 14
  | .int _ _ _ => 15

theorem kind_eq [DecidableEq κ] (M : Macro τ φ κ) (v : Validator) (ps ps' : List (Meta τ)) (p q : Plan φ κ) (h : Options M v ps p)
    (h' : Options M v ps' q) : kind p = kind q := by
  have key : ∀ ps p, Options M v ps p → kind p = (match v with
      | .base32 | .base32_decoded | .base64 | .base64_decoded | .base64_url | .base64_url_decoded => 0
      | .boolean | .json | .semver | .semver_req | .url => 1
      | .bit => 2 | .byte => 3 | .domain => 4 | .email => 5 | .host => 6
      | .http_url | .http_ftp_url => 7
      | .ip | .ipv4 | .ipv6 => 8
      | .length => 9 | .line | .text => 10 | .mac_address | .uuid => 11 | .number => 12 | .phone => 13 | .regex => 14
      | .signed_integer | .unsigned_integer => 15) := by
    intro ps p h
    cases p with
    | base w b =>
      obtain ⟨-, hv, -⟩ := h
      simp only [List.mem_cons, List.not_mem_nil, or_false] at hv
      rcases hv with rfl | rfl | rfl | rfl | rfl | rfl <;> rfl
    | basic w b =>
      obtain ⟨-, hv, -⟩ := h
      simp only [List.mem_cons, List.not_mem_nil, or_false] at hv
      rcases hv with rfl | rfl | rfl | rfl | rfl <;> rfl
    | url w b =>
      obtain ⟨-, hv, -⟩ := h
      simp only [List.mem_cons, List.not_mem_nil, or_false] at hv
      rcases hv with rfl | rfl <;> rfl
    | ip w b =>
      obtain ⟨-, hv, -⟩ := h
      simp only [List.mem_cons, List.not_mem_nil, or_false] at hv
      rcases hv with rfl | rfl | rfl <;> rfl
    | hex w b =>
      obtain ⟨-, hv, -⟩ := h
      simp only [List.mem_cons, List.not_mem_nil, or_false] at hv
      rcases hv with rfl | rfl <;> rfl
    | utf8 w b =>
      obtain ⟨-, hv, -⟩ := h
      simp only [List.mem_cons, List.not_mem_nil, or_false] at hv
      rcases hv with rfl | rfl <;> rfl
    | int signed w b =>
      obtain ⟨rfl, -⟩ := h
      cases signed <;> rfl
    | _ => obtain ⟨rfl, -⟩ := h; rfl
  rw [key ps p h, key ps' q h']

theorem tri_inj {name : String} {s t : Tri} (h : triConst (φ := φ) (κ := κ) name s = triConst name t) : s = t := by
  simpa [triConst] using h

/-- C81: the constants tell all that matters. Two items with the same validator and the same constants get the same `impl
ValidateString`, and the same limits if they are collections, unless the validator is `regex`. -/
theorem C81_determined_partial [DecidableEq κ] (M : Macro τ φ κ) (ast ast' : Input τ) (p q : Plan φ κ)
    (v : Validator) (hv : Spec.Generated.Written M ast v p) (hv' : Spec.Generated.Written M ast' v q) (hr : v ≠ .regex)
    (hc : constants p = constants q) (L : Verif.Generated.Libs φ κ N U V ε) :
    Verif.Generated.generate L p = Verif.Generated.generate L q ∧
    ∀ a b, p = .length a → q = .length b → a.min = b.min ∧ a.max = b.max := by
  obtain ⟨-, -, ps, -, -, -, ho, -⟩ := hv
  obtain ⟨-, -, ps', -, -, -, ho', -⟩ := hv'
  have hk := kind_eq M v ps ps' p q ho ho'
  cases p <;> cases q <;> first
    | (simp [kind] at hk; done)
    | clear hk
  case base.base w a w' a' =>
    obtain ⟨rfl, -⟩ := ho
    obtain ⟨rfl, -⟩ := ho'
    simp only [constants, List.cons.injEq, and_true] at hc
    have e := ofTri_inj (tri_inj hc)
    refine ⟨?_, by simp⟩
    cases w' <;> simp [Verif.Generated.generate, Verif.Generated.textImpl, Verif.Generated.bytesImpl, e]
  case basic.basic w a w' a' =>
    obtain ⟨rfl, -⟩ := ho
    obtain ⟨rfl, -⟩ := ho'
    exact ⟨rfl, by simp⟩
  case bit.bit a a' =>
    simp only [constants, List.cons.injEq, and_true, Constant.mk.injEq, true_and, Value.limits.injEq] at hc
    exact ⟨by simp [Verif.Generated.generate, bounds_inj hc], by simp⟩
  case byte.byte a a' =>
    simp only [constants, List.cons.injEq, and_true, Constant.mk.injEq, true_and, Value.limits.injEq, Value.bool.injEq] at hc
    exact ⟨by simp [Verif.Generated.generate, bounds_inj hc.1, hc.2], by simp⟩
  case domain.domain a a' =>
    simp only [constants, List.cons.injEq, and_true] at hc
    obtain ⟨h1, h2, h3, h4⟩ := hc
    exact ⟨by simp [Verif.Generated.generate, ofTri_inj (tri_inj h1), ofTri_inj (tri_inj h2), ofTri_inj (tri_inj h3), ofTri_inj (tri_inj h4)],
      by simp⟩
  case email.email a a' =>
    simp only [constants, List.cons.injEq, and_true] at hc
    obtain ⟨h1, h2, h3, h4, h5⟩ := hc
    exact ⟨by simp [Verif.Generated.generate, ofAllow_inj (tri_inj h1), ofTri_inj (tri_inj h2), ofTri_inj (tri_inj h3), ofTri_inj (tri_inj h4),
      ofAllow_inj (tri_inj h5)], by simp⟩
  case host.host a a' =>
    simp only [constants, List.cons.injEq, and_true] at hc
    obtain ⟨h1, h2, h3⟩ := hc
    exact ⟨by simp [Verif.Generated.generate, ofTri_inj (tri_inj h1), ofTri_inj (tri_inj h2), ofTri_inj (tri_inj h3)], by simp⟩
  case url.url w a w' a' =>
    obtain ⟨rfl, -⟩ := ho
    obtain ⟨rfl, -⟩ := ho'
    simp only [constants, List.cons.injEq, and_true] at hc
    have e := ofTri_inj (tri_inj hc)
    refine ⟨?_, by simp⟩
    cases w' <;> simp [Verif.Generated.generate, e]
  case ip.ip w a w' a' =>
    obtain ⟨rfl, -⟩ := ho
    obtain ⟨rfl, -⟩ := ho'
    simp only [constants, List.cons.injEq, and_true] at hc
    have e := ofTri_inj (tri_inj hc.1)
    have e' := ofTri_inj (tri_inj hc.2)
    refine ⟨?_, by simp⟩
    cases w' <;> simp [Verif.Generated.generate, Verif.Generated.ipImpl, e, e']
  case length.length a a' =>
    simp only [constants, List.cons.injEq, and_true] at hc
    refine ⟨rfl, ?_⟩
    rintro b b' h1 h2
    cases h1
    cases h2
    exact ⟨(size_inj hc.1).2, (size_inj hc.2).2⟩
  case utf8.utf8 w a w' a' =>
    obtain ⟨rfl, -⟩ := ho
    obtain ⟨rfl, -⟩ := ho'
    have e := text_inj hc
    refine ⟨?_, by simp⟩
    cases w' <;> simp only [Verif.Generated.generate] <;> rw [line_getD L _ a a' e]
  case hex.hex w a w' a' =>
    obtain ⟨rfl, -⟩ := ho
    obtain ⟨rfl, -⟩ := ho'
    simp only [constants, List.cons.injEq, and_true, Constant.mk.injEq, true_and, Value.case.injEq, Value.separator.injEq] at hc
    have e := ofCase_inj hc.1
    have e' := ofSeparator_inj hc.2
    refine ⟨?_, by simp⟩
    cases w' <;> simp [Verif.Generated.generate, e, e']
  case number.number d a d' a' =>
    simp only [constants, List.cons.injEq, and_true, Constant.mk.injEq, true_and, Ty.range.injEq, Value.limits.injEq] at hc
    have e := ofTri_inj (tri_inj hc.1)
    have ed : d = d' := by
      have := hc.2.1
      revert this
      cases d <;> cases d' <;> decide +kernel
    subst ed
    have e' := range_inj (float_inj _) hc.2.2
    exact ⟨by simp [Verif.Generated.generate, Verif.Generated.numberImpl, e, e'], by simp⟩
  case phone.phone a a' =>
    simp only [constants, List.cons.injEq, and_true, Constant.mk.injEq, true_and, Value.countries.injEq] at hc
    exact ⟨by simp [Verif.Generated.generate, hc.2], by simp⟩
  case regex.regex a a' => exact absurd ho.1 hr
  case int.int s w a s' w' a' =>
    simp only [constants, List.cons.injEq, and_true, Constant.mk.injEq, true_and, Ty.range.injEq, Value.limits.injEq] at hc
    obtain ⟨rfl, rfl⟩ := typeName_inj hc.1
    have e' := range_inj (int_inj _) hc.2
    exact ⟨by simp [Verif.Generated.generate, Verif.Generated.intImpl, e'], by simp⟩

/-- C81 fails for `regex`: it has no constants, so two items with different expressions cannot be told apart. -/
theorem C81_violated_regex : ∃ (ast ast' : Input Toks) (p q : Plan Int Nat), derive Derive.full ast = .ok p ∧ derive Derive.full ast' = .ok q ∧
    Spec.Generated.Written Derive.full ast .regex p ∧ Spec.Generated.Written Derive.full ast' .regex q ∧ constants p = constants q ∧
    ∃ (L : Verif.Generated.Libs Int Nat Unit Unit Unit Unit) (I J : _), Verif.Generated.generate L p = some I ∧ Verif.Generated.generate L q = some J ∧
      I.parseStr "a".toList ≠ J.parseStr "a".toList := by
  have w : ∀ ast p, derive Derive.full ast = .ok p → (∃ a, p = .regex a) → Spec.Generated.Written Derive.full ast .regex p := by
    rintro ast p h ⟨a, rfl⟩
    obtain ⟨v, hw⟩ := Generated.C71_written Derive.full ast _ h
    have hw' := hw
    obtain ⟨-, -, -, -, -, -, ⟨rfl, -⟩, -⟩ := hw'
    exact hw
  refine ⟨⟨[Derive.attr (.list (some "regex") (.metas [.nameValue (some "regex") (.lit (.str "^a$"))]))], .struct (.unnamed ["String"])⟩,
    ⟨[Derive.attr (.list (some "regex") (.metas [.nameValue (some "regex") (.lit (.str "^b$"))]))], .struct (.unnamed ["String"])⟩,
    _, _, rfl, rfl, w _ _ rfl ⟨_, rfl⟩, w _ _ rfl ⟨_, rfl⟩, rfl, ?_⟩
  exact ⟨{ Generated.libs with isMatch := fun e _ => e = .lit (.str "^a$") }, _, _, rfl, rfl, by decide +kernel⟩

/-! ## The functions of the types -/

/-- C81: what the functions of `TriAllow`, `CaseOption` and `SeparatorOption` tell. -/
theorem C81_functions (t : Tri) (k : Case) (x : Separator) (b : UInt8) :
    (t.allows = true ↔ t ≠ .disallow) ∧ (t.disallows = true ↔ t = .disallow) ∧ (t.musts = true ↔ t = .must) ∧
    (k.isAny = true ↔ k = .any) ∧ (k.takesUpper = true ↔ k ≠ .lower) ∧ (k.takesLower = true ↔ k ≠ .upper) ∧
    (x.allowed = some b ↔ x = .must b ∨ x = .allow b) ∧ (x.disallows = true ↔ x = .disallow) ∧ (x.required = some b ↔ x = .must b) := by
  refine ⟨?_, ?_, ?_, ?_, ?_, ?_, ?_, ?_, ?_⟩
  · cases t <;> simp [Tri.allows]
  · cases t <;> simp [Tri.disallows]
  · cases t <;> simp [Tri.musts]
  · cases k <;> simp [Case.isAny]
  · cases k <;> simp [Case.takesUpper]
  · cases k <;> simp [Case.takesLower]
  · cases x <;> simp [Separator.allowed]
  · cases x <;> simp [Separator.disallows]
  · cases x <;> simp [Separator.required]

/-! ## What is accepted -/

/-- The padded encoding fills its blocks. -/
theorem encodePad_length (n : Spec.BaseN.Notation) (h : 0 < n.block) (d : List UInt8) : (Spec.BaseN.encodePad n d).length % n.block = 0 := by
  simp only [Spec.BaseN.encodePad, List.length_append, List.length_replicate]
  generalize (Spec.BaseN.encodeNopad n d).length = k
  have hk := Nat.mod_lt k h
  rcases Nat.eq_zero_or_pos (k % n.block) with e | e
  · rw [e]
    simp [e]
  · rw [Nat.mod_eq_of_lt (by omega : n.block - k % n.block < n.block), Nat.add_mod, Nat.mod_eq_of_lt (by omega : n.block - k % n.block < n.block)]
    rw [show k % n.block + (n.block - k % n.block) = n.block by omega, Nat.mod_self]

theorem parts_length (n : Spec.BaseN.Notation) (h : 0 < n.block) (ds : List (List UInt8)) :
    (ds.flatMap (Spec.BaseN.encodePad n)).length % n.block = 0 := by
  induction ds with
  | nil => simp
  | cons d ds ih => rw [List.flatMap_cons, List.length_append, Nat.add_mod, ih, encodePad_length n h d]; simp

theorem nopad_pad (n : Spec.BaseN.Notation) (h : Spec.BaseN.padByte ∉ n.alphabet) (d : List UInt8) :
    Spec.BaseN.padByte ∉ Spec.BaseN.encodeNopad n d := by
  intro hm
  simp only [Spec.BaseN.encodeNopad, List.mem_map] at hm
  obtain ⟨j, -, e⟩ := hm
  have key : ∀ i, n.alphabet.getD i 0 = Spec.BaseN.padByte → Spec.BaseN.padByte ∈ n.alphabet := by
    intro i hi
    rw [List.getD_eq_getElem?_getD] at hi
    rcases ho : n.alphabet[i]? with _ | b
    · rw [ho] at hi
      exact absurd hi (by decide)
    · rw [ho] at hi
      simp only [Option.getD_some] at hi
      subst hi
      exact List.mem_of_getElem? ho
  exact h (key _ e)

theorem obeys_local {t : TriAllow} {p : Prop} (h : Spec.Ip.LocalOk t p) : Obeys (ofTri t) p := by
  cases t <;> simp_all [Spec.Ip.LocalOk, Obeys, ofTri, Tri.musts, Tri.disallows]

theorem obeys_port {t : TriAllow} {p : Option Nat} (h : Spec.Ip.PortOk t p) : Obeys (ofTri t) (p ≠ none) := by
  cases t <;> simp_all [Spec.Ip.PortOk, Obeys, ofTri, Tri.musts, Tri.disallows]

theorem musts_iff {t : TriAllow} : (ofTri t).musts = true ↔ t = .must := by cases t <;> simp [ofTri, Tri.musts]
theorem disallows_iff {t : TriAllow} : (ofTri t).disallows = true ↔ t = .disallow := by cases t <;> simp [ofTri, Tri.disallows]

theorem token_int {s s' : String} {b : Option Int} {k : Int} (h : optionToken (Literal.int (φ := φ) s) b = some (.int s' k)) : b = some k := by
  cases b <;> simp [optionToken] at h
  rw [h.2]

theorem token_float {s s' : String} {b : Option φ} {k : φ} (h : optionToken (Literal.float s) b = some (.float s' k)) : b = some k := by
  cases b <;> simp [optionToken] at h
  rw [h.2]

theorem token_nat {s s' : String} {b : Option Nat} {k : Int}
    (h : optionToken (fun n : Nat => Literal.int (φ := φ) s (n : Int)) b = some (.int s' k)) : ∃ m : Nat, b = some m ∧ k = m := by
  cases b <;> simp [optionToken] at h
  exact ⟨_, rfl, h.2.symm⟩

theorem token_none {α : Type} {lit : α → Literal φ} {b : Option α} : optionToken lit b = none ↔ b = none := by
  cases b <;> simp [optionToken]

/-- The literals of bounds mean the bounds. -/
theorem between_of {α : Type} [LinearOrder α] (lit : String → α → Literal φ) (t : String) (hl : ∀ s s' x y, lit s x = lit s' y → x = y)
    (b : Range.Bounds α) (x : α) :
    Between lit (optionToken (lit t) b.min) (optionToken (lit t) b.max) b.inclusive x ↔ Spec.Range.Contains b x := by
  have key : ∀ (o : Option α) s m, optionToken (lit t) o = some (lit s m) → o = some m := by
    intro o s m h
    cases o with
    | none => simp [optionToken] at h
    | some y => exact congrArg some (hl _ _ _ _ (Option.some.inj h))
  constructor
  · rintro ⟨h1, h2⟩
    exact ⟨fun m hm => h1 t m (by rw [hm]; rfl), fun m hm => h2 t m (by rw [hm]; rfl)⟩
  · rintro ⟨h1, h2⟩
    exact ⟨fun s m hm => h1 m (key _ s m hm), fun s m hm => h2 m (key _ s m hm)⟩

theorem inLimits {α : Type} [LinearOrder α] (lit : String → α → Literal φ) (t : String) (hl : ∀ s s' x y, lit s x = lit s' y → x = y)
    (r : Range.RangeOption α) (x : α) (h : Spec.Range.Satisfies r x) : InLimits lit (ofRange (lit t) r) x := by
  cases r with
  | inside b => exact (between_of lit t hl b x).2 h
  | outside b =>
    intro hb hx
    refine h ⟨?_, (between_of lit t hl b x).1 hx⟩
    rcases hb with hb | hb
    · exact .inl fun e => hb (token_none.2 e)
    · exact .inr fun e => hb (token_none.2 e)
  | unlimited => trivial

theorem int_lit (s s' : String) (x y : Int) (h : Literal.int (φ := φ) s x = Literal.int s' y) : x = y := by injection h
theorem float_lit (s s' : String) (x y : φ) (h : Literal.float s x = Literal.float s' y) : x = y := by injection h

theorem cut_must (b : UInt8) (n m : Nat) (ns : List Nat) (ds text : List UInt8) (h : Spec.Hex.Cut (.must b) (n :: m :: ns) ds text) :
    b ∈ text := by
  obtain ⟨g, ds', s, text', -, -, rfl, hs, -⟩ := h
  obtain rfl : s = [b] := hs
  simp

theorem cut_disallow (ns : List Nat) : ∀ ds text, Spec.Hex.Cut .disallow ns ds text → text = ds := by
  induction ns with
  | nil => rintro ds text ⟨rfl, rfl⟩; rfl
  | cons n ns ih =>
    intro ds text h
    cases ns with
    | nil => exact h.2
    | cons m ns =>
      obtain ⟨g, ds', s, text', -, rfl, rfl, hs, h⟩ := h
      obtain rfl : s = [] := hs
      rw [ih _ _ h]
      simp

theorem mem_any (k : CaseOption) (b : UInt8) (h : b ∈ Spec.Hex.symbols k) : b ∈ Spec.Hex.symbols .any := by
  revert b
  cases k
  · exact fun _ h => h
  · apply BaseN.forall_uint8; decide +kernel
  · apply BaseN.forall_uint8; decide +kernel

theorem no_upper (k : CaseOption) (hk : (ofCase k).takesUpper = false) (b : UInt8) (h : b ∈ Spec.Hex.symbols k) : b ∉ ascii "ABCDEF" := by
  cases k
  · cases hk
  · cases hk
  · revert b; apply BaseN.forall_uint8; decide +kernel

theorem no_lower (k : CaseOption) (hk : (ofCase k).takesLower = false) (b : UInt8) (h : b ∈ Spec.Hex.symbols k) : b ∉ ascii "abcdef" := by
  cases k
  · cases hk
  · revert b; apply BaseN.forall_uint8; decide +kernel
  · cases hk

theorem labels_name {t : TriAllow} {a : List UInt8} (h : Spec.Domain.LabelsOk t (Spec.Domain.LocalName a) (Spec.Domain.ManyLabels a)) :
    HostLabels (ofTri t) (.domain a) := by
  constructor
  · rintro hm b hb
    cases hb
    rw [musts_iff] at hm
    subst hm
    exact h
  · intro hd
    rw [disallows_iff] at hd
    subst hd
    exact ⟨a, rfl, h⟩

theorem labels_ip {t : TriAllow} {x : Verif.Host.Host} (hx : ¬ ∃ a, x = .domain a) (h : t ≠ .disallow) : HostLabels (ofTri t) x :=
  ⟨fun _ a e => absurd ⟨a, e⟩ hx, fun hd => absurd (disallows_iff.1 hd) h⟩

theorem ascii_ascii : (∀ b ∈ Spec.Email.atext, b.toNat < 128) ∧ (∀ b ∈ ascii ".\\ \t", b.toNat < 128) ∧
    (∀ b ∈ Spec.Email.specials, b.toNat < 128) ∧ (asc '.').toNat < 128 := by
  decide +kernel

theorem email_ascii (o : Verif.Email.Opts) (c1 : Option (List UInt8)) (q : Bool) (t : List UInt8) (h : Spec.Email.LocalText o c1 q t)
    (hn : o.nonAscii = .disallow) : ∀ b ∈ t, b.toNat < 128 := by
  intro b hb
  have hw : ¬ Spec.Email.Wide o.nonAscii b := fun h => by rw [hn] at h; cases h.1
  cases q with
  | false =>
    rcases (h.unquoted rfl).1.2.2.1 b hb with hb | rfl | hb
    · exact ascii_ascii.1 b hb
    · exact ascii_ascii.2.2.2
    · exact absurd hb hw
  | true =>
    obtain ⟨pre, post, e⟩ := List.append_of_mem hb
    rcases (h.quoted rfl).1.2.1 pre b post e with hb | hb | hb | hb
    · exact ascii_ascii.1 b hb
    · exact ascii_ascii.2.1 b hb
    · exact absurd hb hw
    · exact ascii_ascii.2.2.1 b hb.1

theorem obeyed [DecidableEq κ] (M : Macro τ φ κ) (v : Validator) (ps : List (Meta τ)) (p : Plan φ κ) (ho : Options M v ps p)
    (L : Verif.Generated.Libs φ κ N U V ε) (s : List Char) (x : Verif.Generated.Value φ κ N U V) (h : Spec.Generated.Means L p s x) :
    ∀ c ∈ constants p, Obeyed L v c s x := by
  intro c hc
  cases p with
  | base w a =>
    obtain ⟨rfl, hv, -⟩ := ho
    simp only [constants, List.mem_singleton] at hc
    subst hc
    have hb : 0 < (Spec.Generated.notationOf w).block := by
      simp only [List.mem_cons, List.not_mem_nil, or_false] at hv
      rcases hv with rfl | rfl | rfl | rfl | rfl | rfl <;> decide
    have hp : Spec.BaseN.padByte ∉ (Spec.Generated.notationOf w).alphabet := by
      simp only [List.mem_cons, List.not_mem_nil, or_false] at hv
      rcases hv with rfl | rfl | rfl | rfl | rfl | rfl <;> decide +kernel
    simp only [Obeyed, triConst]
    rw [musts_iff, disallows_iff]
    cases x <;> try exact h.elim
    · obtain ⟨-, -, -, body, k, e, hbody, hk⟩ := h
      constructor
      · intro ha
        rcases hk with ⟨-, hk⟩ | ⟨-, -, -, hk, -⟩
        · exact hk ha
        · exact hk
      · intro ha hm
        rcases hk with ⟨rfl, -⟩ | ⟨-, -, hk, -⟩
        · rw [e] at hm
          exact hp (hbody _ (by simpa using hm))
        · exact hk ha
    · obtain ⟨-, h⟩ := h
      constructor
      · intro ha
        rw [ha] at h
        obtain ⟨ds, -, -, e, -⟩ := h
        rw [e]
        exact parts_length _ hb ds
      · intro ha
        rw [ha] at h
        rw [h.2]
        exact nopad_pad _ hp _
  | basic w a => simp [constants] at hc
  | bit a =>
    simp only [constants, List.mem_singleton] at hc
    subst hc
    cases x <;> try exact h.elim
    exact (between_of (fun t i => .int t i) "u128" int_lit _ _).2 h.2
  | byte a =>
    simp only [constants, List.mem_cons, List.not_mem_nil, or_false] at hc
    cases x <;> try exact h.elim
    rcases hc with rfl | rfl
    · exact (between_of (fun t i => .int t i) "u128" int_lit _ _).2 h.2
    · exact ⟨_, rfl, h.1⟩
  | domain a =>
    simp only [constants, List.mem_cons, List.not_mem_nil, or_false] at hc
    cases x <;> try exact h.elim
    obtain ⟨-, d, hd, hport, h⟩ := h
    rename_i y
    have hq : Spec.Domain.Plain (Spec.Generated.domainOpts a) ∨ (∃ x, Spec.Domain.AsIpv4 (Spec.Generated.domainOpts a) d x y) ∨
        (∀ x, ¬ Spec.Domain.QuadDot d x) ∧ Spec.Domain.AsName (Spec.Generated.domainOpts a) L.idna d y := by
      rcases h with ⟨-, h⟩ | h
      · exact .inr (.inl h)
      · rcases h.1 with h' | h'
        · exact .inl h'
        · exact .inr (.inr ⟨h', h⟩)
    have plain : ∀ {t : TriAllow} {p : Prop}, t = .allow → Obeys (ofTri t) p := by
      rintro _ p rfl
      exact ⟨nofun, nofun⟩
    rcases hc with rfl | rfl | rfl | rfl
    · refine ⟨_, rfl, d, hd, ?_⟩
      rcases hq with ⟨h, -⟩ | ⟨x, h⟩ | ⟨h, h'⟩
      · exact plain h
      · exact ⟨fun _ => ⟨x, h.2.1⟩, fun e => absurd (disallows_iff.1 e) h.2.2.1⟩
      · exact ⟨fun e => absurd (musts_iff.1 e) h'.2.1, fun _ ⟨x, hx⟩ => h x hx⟩
    · refine ⟨d, hd, ?_⟩
      rcases hq with ⟨-, h, -⟩ | ⟨x, h⟩ | ⟨h, h'⟩
      · exact plain h
      · have hl := obeys_local h.2.2.2.2.1
        refine ⟨fun e => .inl ⟨x, h.2.1, hl.1 e⟩, fun e => ?_⟩
        rintro (⟨y, hy, hy'⟩ | ⟨hn, -⟩)
        · obtain rfl := Options.quad_unique d x y h.2.1 hy
          exact hl.2 e hy'
        · exact hn x h.2.1
      · have hl := obeys_local h'.2.2.2.2.1
        refine ⟨fun e => .inr ⟨h, hl.1 e⟩, fun e => ?_⟩
        rintro (⟨y, hy, hy'⟩ | ⟨-, hn⟩)
        · exact h y hy
        · exact hl.2 e hn
    · exact obeys_port hport
    · refine ⟨d, hd, ?_⟩
      rcases hq with ⟨-, -, h⟩ | ⟨x, h⟩ | ⟨h, h'⟩
      · have h : a.atl = .allow := h
        rw [h]
        exact ⟨nofun, nofun⟩
      · exact ⟨fun _ => .inl ⟨x, h.2.1⟩, fun e => absurd (disallows_iff.1 e) h.2.2.2.1⟩
      · have hl := h'.2.2.2.1
        refine ⟨fun e => .inr ?_, fun e => ⟨h, ?_⟩⟩
        · have e : a.atl = .must := musts_iff.1 e
          simp only [Spec.Generated.domainOpts, e] at hl
          exact hl
        · have e : a.atl = .disallow := disallows_iff.1 e
          simp only [Spec.Generated.domainOpts, e] at hl
          exact hl
  | email a =>
    simp only [constants, List.mem_cons, List.not_mem_nil, or_false] at hc
    cases x <;> try exact h.elim
    rename_i y
    obtain ⟨q, t, h', tail, hd⟩ := h
    have hok := hd.domainText.ok
    rcases hc with rfl | rfl | rfl | rfl | rfl
    · refine ⟨y, rfl, fun e => ?_⟩
      have e : a.comment = .disallow := by cases ha : a.comment <;> simp [ha, ofAllow, Tri.disallows] at e ⊢
      have ne : ¬ (Spec.Generated.emailOpts L.checked a).comment = .allow := by simp [Spec.Generated.emailOpts, e]
      refine ⟨?_, ?_, ?_, ?_⟩ <;> by_contra hn
      · exact ne (hd.localText.allowed hn)
      · exact ne (hd.comment2.2 hn).1
      · exact ne (hd.domainText.allowed hn)
      · exact ne (hd.domainText.after.2.1 hn)
    · refine ⟨y, rfl, ?_⟩
      rcases hh : y.host with a4 | a6 | nm <;> rw [hh] at hok
      · exact ⟨fun _ => by simp, fun e => absurd (disallows_iff.1 e) hok.1⟩
      · exact ⟨fun _ => by simp, fun e => absurd (disallows_iff.1 e) hok.1⟩
      · exact ⟨fun e => absurd (musts_iff.1 e) hok.1, fun _ => by simp⟩
    · show Obeys _ _
      rcases hh : y.host with a4 | a6 | nm <;> rw [hh] at hok
      · exact obeys_local hok.2.2
      · exact obeys_local hok.2.2
      · exact obeys_local hok.2.2
    · show HostLabels _ _
      rcases hh : y.host with a4 | a6 | nm <;> rw [hh] at hok
      · exact labels_ip (by simp) hok.2.1
      · exact labels_ip (by simp) hok.2.1
      · exact labels_name hok.2.1
    · refine ⟨y, rfl, fun e => ?_⟩
      have e : a.nonAscii = .disallow := by cases ha : a.nonAscii <;> simp [ha, ofAllow, Tri.disallows] at e ⊢
      exact email_ascii _ _ _ _ hd.localText e
  | host a =>
    simp only [constants, List.mem_cons, List.not_mem_nil, or_false] at hc
    cases x <;> try exact h.elim
    rename_i y
    obtain ⟨hport, h⟩ := h
    rcases hc with rfl | rfl | rfl
    · show Obeys _ _
      rcases h with ⟨z, e, h⟩ | ⟨z, e, h⟩ | ⟨d, z, e, h⟩ <;> rw [e]
      · exact obeys_local h.2.2.1
      · exact obeys_local h.2.2.1
      · exact obeys_local h.2.2.2.2.1
    · exact obeys_port hport
    · show HostLabels _ _
      rcases h with ⟨z, e, h⟩ | ⟨z, e, h⟩ | ⟨d, z, e, h⟩ <;> rw [e]
      · exact labels_ip (by simp) h.2.1
      · exact labels_ip (by simp) h.2.1
      · exact labels_name h.2.2.2.1
  | url w a =>
    simp only [constants, List.mem_singleton] at hc
    subst hc
    cases x <;> try exact h.elim
    · exact obeys_local h.2.2.2
    · exact obeys_local h.2.2.2
  | ip w a =>
    simp only [constants, List.mem_cons, List.not_mem_nil, or_false] at hc
    cases x <;> try exact h.elim
    all_goals
      rcases hc with rfl | rfl
      · exact obeys_local h.2.2.2
      · exact obeys_port h.2.2.1
  | length a => cases x <;> exact h.elim
  | utf8 w a =>
    cases x <;> try exact h.elim
    obtain ⟨-, h⟩ := h
    simp only [constants, textConsts] at hc
    rcases ha : a.length with _ | ⟨isByte, l⟩
    · simp only [ha, Option.getD_none, Bool.false_eq_true, if_false, List.mem_cons, List.not_mem_nil, or_false] at hc
      rcases hc with rfl | rfl | rfl <;> intro t k hk <;> simp [optionToken] at hk
    · rw [ha] at h
      obtain ⟨⟨h1, h2⟩, h3, -⟩ := h
      cases isByte <;> simp only [ha, Option.getD_some, Bool.false_eq_true, if_false, if_true, List.mem_cons, List.not_mem_nil, or_false] at hc
      all_goals
        rcases hc with rfl | rfl | rfl <;> intro t k hk <;> obtain ⟨m, hm, rfl⟩ := token_nat hk
        · exact Int.ofNat_le.2 (h1 m hm)
        · exact Int.ofNat_le.2 (h3 m hm)
        · exact Int.ofNat_le.2 (h2 m hm)
  | hex w a =>
    obtain ⟨rfl, hv, -⟩ := ho
    simp only [constants, List.mem_cons, List.not_mem_nil, or_false] at hc
    cases x <;> try exact h.elim
    obtain ⟨ds, hcut, hds, -⟩ := h
    rcases hc with rfl | rfl
    · exact ⟨_, ds, hcut, fun e b hb => no_upper _ e b (hds b hb), fun e b hb => no_lower _ e b (hds b hb)⟩
    · constructor
      · intro b hb
        have hs : a.separator = .must b := by cases hs : a.separator <;> simp [hs, ofSeparator, Separator.required] at hb ⊢; exact hb
        rw [hs] at hcut
        by_cases hw : w = .uuid
        · rw [if_pos hw] at hcut
          exact cut_must _ _ _ _ _ _ hcut
        · rw [if_neg hw] at hcut
          exact cut_must _ _ _ _ _ _ hcut
      · intro e b hb
        have hs : a.separator = .disallow := by cases hs : a.separator <;> simp [hs, ofSeparator, Separator.disallows] at e ⊢
        rw [hs] at hcut
        rw [cut_disallow _ _ _ hcut] at hb
        exact mem_any _ b (hds b hb)
  | number d a =>
    simp only [constants, List.mem_cons, List.not_mem_nil, or_false] at hc
    cases x <;> try exact h.elim
    rename_i f
    obtain ⟨-, h⟩ := h
    rcases hc with rfl | rfl
    · refine ⟨f, rfl, ?_⟩
      cases f with
      | none => exact ⟨fun _ => rfl, fun e => absurd (disallows_iff.1 e) h⟩
      | some y => exact ⟨fun e => absurd (musts_iff.1 e) h.2, fun _ => nofun⟩
    · cases f with
      | none => trivial
      | some y => exact inLimits (fun t y => .float t y) _ float_lit _ _ h.1
  | phone a =>
    simp only [constants, List.mem_singleton] at hc
    subst hc
    cases x <;> try exact h.elim
    exact ⟨_, rfl, h⟩
  | regex a => simp [constants] at hc
  | int signed w a =>
    simp only [constants, List.mem_singleton] at hc
    subst hc
    cases x <;> try exact h.elim
    exact inLimits (fun t i => .int t i) _ int_lit _ _ h.2.2

/-- C81: what the constants say holds of every string that is accepted. Missing: the finding C73, `char_length` with the largest
maximum. -/
theorem C81_obeyed_partial [DecidableEq κ] (M : Macro τ φ κ) (ast : Input τ) (p : Plan φ κ) (h : derive M ast = .ok p) (v : Validator)
    (hv : Spec.Generated.Written M ast v p) (L : Verif.Generated.Libs φ κ N U V ε) (hu : Spec.Url.HostsPresent L.url)
    (I : Verif.Generated.Impl (Verif.Generated.Error ε) (Verif.Generated.Value φ κ N U V)) (hI : Verif.Generated.generate L p = some I)
    (hm : ¬ Spec.Generated.LargestMax L.ptr p) (s : List Char) (x : Verif.Generated.Value φ κ N U V) (hx : I.parseStr s = .ok x) :
    ∀ c ∈ constants p, Obeyed L v c s x := by
  have hs := (Generated.C71_sound_partial M ast p h L hu I hI hm s x hx).2
  obtain ⟨-, -, ps, -, -, -, ho, -⟩ := hv
  exact obeyed M v ps p ho L s x hs

/-! ### The hypotheses are met -/

/-- `#[validator(uuid(case(Upper), separator(Must(b'.'))))] struct S(u128);` -/
example : ∃ p, derive Derive.full ⟨[Derive.attr (.list (some "uuid") (.metas [.list (some "case") (.word "Upper"),
      .list (some "separator") (.one (.list (some "Must") (.expr (.lit (.byte (asc '.'))))))]))], .struct (.unnamed ["u128"])⟩ = .ok p ∧
    constants p = [⟨"V_CASE", .case, .case .upper⟩, ⟨"V_SEPARATOR", .separator, .separator (.must (asc '.'))⟩] ∧
    ∃ I, Verif.Generated.generate Generated.libs p = some I ∧
      I.parseStr "936DA01F.9ABD.4D9D.80C7.02AF85C822A8".toList = .ok (.hex 0x936da01f9abd4d9d80c702af85c822a8) := by
  exact ⟨_, rfl, by decide +kernel, _, rfl, by decide +kernel⟩

/-- `#[validator(line(byte_length(max = 5)))] struct S(String);` -/
example : ∃ p, derive Derive.full ⟨[Derive.attr (.list (some "line") (.metas [.list (some "byte_length")
      (.metas [.nameValue (some "max") (.lit (.int (ascii "5")))])]))], .struct (.unnamed ["String"])⟩ = .ok p ∧
    constants p = [⟨"V_BYTE_LENGTH_MIN", .optionUsize, .number none⟩, ⟨"V_BYTE_LENGTH_TRIMMED_MIN", .optionUsize, .number none⟩,
      ⟨"V_BYTE_LENGTH_MAX", .optionUsize, .number (some (.int "usize" 5))⟩] ∧ ¬ Spec.Generated.LargestMax Generated.libs.ptr p := by
  refine ⟨_, rfl, by decide +kernel, ?_⟩
  rintro ⟨l, m, h, -⟩
  cases h

/-- `#[validator(signed_integer(range(Outside(1..5))))] struct S(i8);` and `#[validator(bit)] struct S(Bit);`, whose range is not
`Unlimited`. -/
example : (∃ p, derive Derive.full ⟨[Derive.attr (.list (some "signed_integer") (.metas [.list (some "range") (.one (.list (some "Outside")
      (.range ⟨some (some (.int (ascii "1"))), some (some (.int (ascii "5"))), true⟩)))]))], .struct (.unnamed ["i8"])⟩ = .ok p ∧
    constants p = [⟨"V_RANGE", .range "i8", .limits (.outside (some (.int "i8" 1)) (some (.int "i8" 5)) false)⟩]) ∧
    ∃ p, derive Derive.full ⟨[Derive.attr (.path (some "bit"))], .struct (.unnamed ["Bit"])⟩ = .ok p ∧
    constants p = [⟨"V_RANGE", .range "u128", .limits (.inside none none false)⟩] :=
  ⟨⟨_, rfl, by decide +kernel⟩, _, rfl, by decide +kernel⟩

/-- `domain(conflict(Allow))` and `domain`: the same constants and the same code. -/
example : ∃ p q, derive Derive.full ⟨[Derive.attr (.path (some "domain"))], .struct (.named [("domain", "String"), ("port", "Option<u16>")])⟩ = .ok p ∧
    derive Derive.full ⟨[Derive.attr (.list (some "domain") (.metas [.list (some "conflict") (.word "Allow")]))],
      .struct (.named [("domain", "String"), ("port", "Option<u16>")])⟩ = .ok q ∧ p ≠ q ∧ constants p = constants q :=
  ⟨_, _, rfl, rfl, fun h => by injection h with h; exact absurd (congrArg DomainAttribute.conflict h) (by decide +kernel), by decide +kernel⟩

end Verif.Props.Constants
