import Verif.Spec.Surface

/-!
# Lemmas for C79
-/

namespace Verif.Proof.Surface

open Verif Verif.Attr Verif.Derive Verif.Integrations Verif.Surface Verif.Spec.Surface
open Verif.Spec.Generated (Options)
open Verif.Spec.Derive (intName)

variable {τ φ κ : Type}

/-! ## The blocks, without the conditions that do not matter -/

theorem uriBlocks_eq (x : TriAllow) : uriBlocks x = [uriBlock] := by cases x <;> rfl

theorem qualifyBlocks_eq (a : DomainAttribute) :
    qualifyBlocks a = [⟨some "QualifyDomain", ["is_fully_qualified", "get_domain_non_fully_qualified"]⟩] := by
  simp [qualifyBlocks]

theorem hostUri_eq (a : HostAttribute) : hostUri a = [uriBlock] := by simp [hostUri, uriBlocks_eq]

theorem emailText_eq (a : EmailAttribute) : emailText a = [⟨some "ToEmailString", ["to_email_string"]⟩] := by
  simp only [emailText]
  cases a.ip <;> simp

theorem hexText_eq (t i : String) (a : HexAttribute) : hexText t i a = [⟨some t, [i]⟩] := by
  simp only [hexText]
  cases a.separator <;> simp

instance (t : String) (is : List String) : Decidable (Conforms t is) :=
  match h : declared t with
  | none => isFalse fun ⟨_, e, _⟩ => by simp [h] at e
  | some d => decidable_of_iff (is.Nodup ∧ (∀ i ∈ d.required, i ∈ is) ∧ ∀ i ∈ is, i ∈ d.required ∨ i ∈ d.provided)
      (by simp [Conforms, h])

instance (i : String) : Decidable (Reserved i) := by unfold Reserved; infer_instance

/-- One block. -/
def Good (b : Block) : Prop :=
  match b.trait with
  | some t => Conforms t b.items
  | none => ∀ i ∈ b.items, Reserved i

instance (b : Block) : Decidable (Good b) := by unfold Good; split <;> infer_instance

/-- The names of the inherent items. -/
def inherent (bs : List Block) : List String := (bs.filter fun b => b.trait.isNone).flatMap (·.items)

/-- All blocks of a handler. -/
def Fine (v : Validator) (bs : List Block) : Prop :=
  (bs.filterMap (·.trait)).Perm (offered v) ∧ (inherent bs).Nodup ∧ ∀ b ∈ bs, Good b

instance (v : Validator) (bs : List Block) : Decidable (Fine v bs) := by unfold Fine; infer_instance

theorem own_fine (M : Macro τ φ κ) (v : Validator) (ps : List (Meta τ)) (p : Plan φ κ) (h : Options M v ps p) (test : Bool) (ptr : IntV.Ptr) :
    Fine v (ownBlocks test ptr p) := by
  cases p with
  | base w a =>
    obtain ⟨rfl, hv, -⟩ := h
    simp only [List.mem_cons, List.not_mem_nil, or_false] at hv
    rcases hv with rfl | rfl | rfl | rfl | rfl | rfl <;> cases test <;> simp only [ownBlocks] <;> decide +kernel
  | basic w a =>
    obtain ⟨rfl, hv, -⟩ := h
    simp only [List.mem_cons, List.not_mem_nil, or_false] at hv
    rcases hv with rfl | rfl | rfl | rfl | rfl <;> simp only [ownBlocks] <;> decide +kernel
  | bit a => obtain ⟨rfl, -⟩ := h; cases test <;> simp only [ownBlocks] <;> decide +kernel
  | byte a => obtain ⟨rfl, -⟩ := h; cases test <;> simp only [ownBlocks] <;> decide +kernel
  | domain a =>
    obtain ⟨rfl, -⟩ := h
    cases test <;> simp only [ownBlocks, domainBlocks, qualifyBlocks_eq, uriBlocks_eq] <;> decide +kernel
  | email a => obtain ⟨rfl, -⟩ := h; cases test <;> simp only [ownBlocks, emailBlocks, emailText_eq] <;> decide +kernel
  | host a => obtain ⟨rfl, -⟩ := h; cases test <;> simp only [ownBlocks, hostBlocks, hostUri_eq] <;> decide +kernel
  | url w a =>
    obtain ⟨rfl, hv, -⟩ := h
    simp only [List.mem_cons, List.not_mem_nil, or_false] at hv
    rcases hv with rfl | rfl <;> cases test <;> simp only [ownBlocks] <;> decide +kernel
  | ip w a =>
    obtain ⟨rfl, hv, -⟩ := h
    simp only [List.mem_cons, List.not_mem_nil, or_false] at hv
    rcases hv with rfl | rfl | rfl <;> cases test <;> simp only [ownBlocks, ipBlocks, uriBlocks_eq] <;> decide +kernel
  | length a => obtain ⟨rfl, -⟩ := h; cases test <;> simp only [ownBlocks] <;> decide +kernel
  | utf8 w a =>
    obtain ⟨rfl, hv, -⟩ := h
    simp only [List.mem_cons, List.not_mem_nil, or_false] at hv
    simp only [ownBlocks, utf8Blocks]
    generalize (a.length.map Prod.fst).getD false = b
    rcases hv with rfl | rfl <;> cases test <;> cases b <;> decide +kernel
  | hex w a =>
    obtain ⟨rfl, hv, -⟩ := h
    simp only [List.mem_cons, List.not_mem_nil, or_false] at hv
    rcases hv with rfl | rfl <;> cases test <;> simp only [ownBlocks, hexText_eq] <;> decide +kernel
  | number double a =>
    obtain ⟨rfl, -⟩ := h
    cases test <;> cases double <;> simp only [ownBlocks] <;> decide +kernel
  | phone a =>
    obtain ⟨rfl, -⟩ := h
    have e : phoneBlocks test a = (if test then [own ["V_COUNTRIES"]] else []) ++ [own ["v_parse_str"]] ++ [stringBlock] := by
      simp only [phoneBlocks]
      congr 2
      split <;> rfl
    simp only [ownBlocks, e]
    cases test <;> decide +kernel
  | regex a => obtain ⟨rfl, -⟩ := h; simp only [ownBlocks]; decide +kernel
  | int signed w a =>
    obtain ⟨rfl, -⟩ := h
    cases signed <;> cases test <;> cases w <;> cases ptr <;> simp only [ownBlocks] <;> decide +kernel

/-- The blocks of the frameworks. -/
theorem framework_good (M : Macro τ φ κ) (p : Plan φ κ) :
    inherent (frameworkBlocks M p) = [] ∧ ∀ b ∈ frameworkBlocks M p, Good b := by
  simp only [frameworkBlocks]
  generalize (M.serde && (serdeFlags p).first) = a
  generalize (M.serde && (serdeFlags p).second) = b
  generalize (M.rocket && (rocketFlags p).first) = c
  generalize (M.rocket && (rocketFlags p).second) = d
  cases a <;> cases b <;> cases c <;> cases d <;> decide +kernel

/-- The frameworks that an item asks for. -/
def frameworks (M : Macro τ φ κ) (p : Plan φ κ) : List String := (frameworkBlocks M p).filterMap (·.trait)

theorem frameworks_mem (M : Macro τ φ κ) (p : Plan φ κ) (t : String) : t ∈ frameworks M p ↔
    (t = "serde::Serialize" ∧ M.serde = true ∧ (serdeFlags p).first = true) ∨
    (t = "serde::Deserialize" ∧ M.serde = true ∧ (serdeFlags p).second = true) ∨
    (t = "rocket::form::FromFormField" ∧ M.rocket = true ∧ (rocketFlags p).first = true) ∨
    (t = "rocket::request::FromParam" ∧ M.rocket = true ∧ (rocketFlags p).second = true) := by
  simp only [frameworks, frameworkBlocks, ← Bool.and_eq_true]
  generalize (M.serde && (serdeFlags p).first) = a
  generalize (M.serde && (serdeFlags p).second) = b
  generalize (M.rocket && (rocketFlags p).first) = c
  generalize (M.rocket && (rocketFlags p).second) = d
  cases a <;> cases b <;> cases c <;> cases d <;> simp

theorem all_nodup (M : Macro τ φ κ) (v : Validator) (p : Plan φ κ) : (offered v ++ frameworks M p).Nodup := by
  simp only [frameworks, frameworkBlocks]
  generalize (M.serde && (serdeFlags p).first) = a
  generalize (M.serde && (serdeFlags p).second) = b
  generalize (M.rocket && (rocketFlags p).first) = c
  generalize (M.rocket && (rocketFlags p).second) = d
  cases v <;> revert a b c d <;> decide +kernel

theorem traits_iff (M : Macro τ φ κ) (v : Validator) (ps : List (Meta τ)) (p : Plan φ κ) (h : Options M v ps p) (test : Bool) (ptr : IntV.Ptr)
    (t : String) : (∃ b ∈ blocks M test ptr p, b.trait = some t) ↔ t ∈ offered v ∨ t ∈ frameworks M p := by
  rw [← (own_fine M v ps p h test ptr).1.mem_iff]
  simp only [frameworks, List.mem_filterMap, blocks, List.mem_append]
  grind

theorem denotes_nil_iff (ps : List Param) : (∃ is, Denotes ps [] is) ↔ ∀ q ∈ ps, Optional q := by
  induction ps with
  | nil => exact ⟨fun _ => by simp, fun _ => ⟨[], .nil⟩⟩
  | cons q ps ih =>
    rw [List.forall_mem_cons, ← ih]
    constructor
    · rintro ⟨_, h⟩
      cases h with
      | type h => exact ⟨rfl, _, h⟩
      | const h => exact ⟨rfl, _, h⟩
    · rintro ⟨hq, is, h⟩
      match q, hq with
      | .type (some d), _ => exact ⟨_, .type h⟩
      | .const (some d), _ => exact ⟨_, .const h⟩

/-- A path without arguments means one instance at most. -/
theorem denotes_unique (ps : List Param) (is js : List String) (h : Denotes ps [] is) (h' : Denotes ps [] js) : is = js := by
  induction ps generalizing is js with
  | nil => cases h; cases h'; rfl
  | cons q ps ih =>
    cases h with
    | type h => cases h' with | type h' => rw [ih _ _ h h']
    | const h => cases h' with | const h' => rw [ih _ _ h h']

theorem blocks_ne_nil (M : Macro τ φ κ) (test : Bool) (ptr : IntV.Ptr) (p : Plan φ κ) : blocks M test ptr p ≠ [] := by
  suffices ownBlocks test ptr p ≠ [] by simp [blocks, this]
  cases p with
  | base v a => cases v <;> cases test <;> simp [ownBlocks, textBlocks, decodedBlocks]
  | basic v a => cases v <;> simp [ownBlocks, booleanBlocks, jsonBlocks, wrapperBlocks]
  | hex v a => cases v <;> simp [ownBlocks, hexBlocks]
  | _ => simp [ownBlocks, bitBlocks, byteBlocks, domainBlocks, emailBlocks, hostBlocks, urlBlocks, ipBlocks, lengthBlocks, utf8Blocks,
      numberBlocks, phoneBlocks, wrapperBlocks, integerBlocks]

theorem expand_ok [DecidableEq κ] (M : Macro τ φ κ) (test : Bool) (ptr : IntV.Ptr) (i : Item τ) (out : List (Path × Block))
    (h : expand M test ptr i = .ok out) : ∃ p, derive M i.input = .ok p ∧ out ≠ [] ∧ ∀ b ∈ out, b.1 = ⟨i.name, []⟩ := by
  unfold expand at h
  cases e : derive M i.input with
  | ok p =>
    rw [e] at h
    cases h
    refine ⟨p, rfl, by simpa using blocks_ne_nil M test ptr p, fun b hb => ?_⟩
    obtain ⟨c, -, rfl⟩ := List.mem_map.1 hb
    rfl
  | err e' => rw [e] at h; cases h
  | panic => rw [e] at h; cases h

theorem conforms_plain (t : String) (is : List String) (h : Conforms t is) (i : String) (hi : i ∈ is) : ¬ Reserved i := by
  obtain ⟨d, hd, -, -, h⟩ := h
  have hi' := h i hi
  clear h hi
  unfold declared at hd
  split at hd
  all_goals first | (cases hd; done) | (cases hd; revert i; simp only [← List.mem_append]; decide +kernel)

/-- A block of constants. -/
def Consts (cs : List Block) : Prop := ∀ b ∈ cs, b.trait = none ∧ ∀ i ∈ b.items, ['V', '_'] <+: i.toList

instance (cs : List Block) : Decidable (Consts cs) := by unfold Consts; infer_instance

theorem test_blocks (M : Macro τ φ κ) (p : Plan φ κ) (ptr : IntV.Ptr) :
    ∃ cs, blocks M true ptr p = cs ++ blocks M false ptr p ∧ Consts cs := by
  suffices ∃ cs, ownBlocks true ptr p = cs ++ ownBlocks false ptr p ∧ Consts cs by
    obtain ⟨cs, e, h⟩ := this
    exact ⟨cs, by rw [blocks, e, List.append_assoc]; rfl, h⟩
  cases p with
  | base v a => cases v <;> exact ⟨[_], rfl, by decide +kernel⟩
  | basic v a => cases v <;> exact ⟨[], rfl, by decide +kernel⟩
  | regex a => exact ⟨[], rfl, by decide +kernel⟩
  | hex v a => cases v <;> exact ⟨[_], rfl, by decide +kernel⟩
  | utf8 v a =>
    refine ⟨[_], rfl, ?_⟩
    generalize (a.length.map Prod.fst).getD false = b
    cases b <;> decide +kernel
  | _ => exact ⟨[_], rfl, by decide +kernel⟩

end Verif.Proof.Surface
