import Verif.Props.Integrations
import Verif.Proof.Surface

/-!
# C79: the traits, the methods and the type of the generated code
-/

namespace Verif.Props.Surface

open Verif Verif.Attr Verif.Derive Verif.Integrations Verif.Surface Verif.Spec.Surface Verif.Proof.Surface
open Verif.Spec.Generated (Options Written)
open Verif.Spec.Derive (intName)

variable {τ φ κ : Type} [DecidableEq κ]

/-! ## Traits -/

/-- C79: an accepted item gets no trait twice (E0119), and exactly these: the ones of its validator, and those of `serde` and Rocket
that are enabled and not turned off in the attribute. -/
theorem C79_traits (M : Macro τ φ κ) (ast : Input τ) (p : Plan φ κ) (h : derive M ast = .ok p) (test : Bool) (ptr : IntV.Ptr) :
    ((blocks M test ptr p).filterMap (·.trait)).Nodup ∧
    ∃ a v m ps serde rocket, Spec.Derive.Only Spec.Derive.Ours ast.attrs a ∧ Spec.Derive.Requests M.syn M.enabled a v m ∧
      Spec.Attr.Gives M.syn m ps ∧ Spec.Attr.Set ps "serde" (Spec.Attr.SaysFlags M.syn M.serde "Serialize" "Deserialize") ⟨true, true⟩ serde ∧
      (v ≠ .length → Spec.Attr.Set ps "rocket" (Spec.Attr.SaysFlags M.syn M.rocket "FromFormField" "FromParam") ⟨true, true⟩ rocket) ∧
      ∀ t, (∃ b ∈ blocks M test ptr p, b.trait = some t) ↔ t ∈ offered v ∨
        (t = "serde::Serialize" ∧ M.serde = true ∧ serde.first = true) ∨
        (t = "serde::Deserialize" ∧ M.serde = true ∧ serde.second = true) ∨
        (t = "rocket::form::FromFormField" ∧ v ≠ .length ∧ M.rocket = true ∧ rocket.first = true) ∨
        (t = "rocket::request::FromParam" ∧ v ≠ .length ∧ M.rocket = true ∧ rocket.second = true) := by
  obtain ⟨v, a, m, ps, h1, h2, h3, ho, -⟩ := Generated.C71_written M ast p h
  obtain ⟨f1, f2, f3⟩ := Integrations.flags_written M v ps p ho
  refine ⟨?_, a, v, m, ps, serdeFlags p, rocketFlags p, h1, h2, h3, f1, f2, fun t => ?_⟩
  · rw [blocks, List.filterMap_append]
    exact ((own_fine M v ps p ho test ptr).1.append_right _).nodup_iff.2 (all_nodup M v p)
  · rw [traits_iff M v ps p ho test ptr t, frameworks_mem]
    by_cases hv : v = .length
    · obtain ⟨b, rfl⟩ := f3.1 hv
      simp [hv, rocketFlags]
    · simp [hv]

/-- C79: the traits that the manual names for a validator are all there, unless it is `line`, `text` or `length`, and no other one of the
library, unless it is `json`, `line` or `text`. -/
theorem C79_manual_partial (M : Macro τ φ κ) (ast : Input τ) (p : Plan φ κ) (h : derive M ast = .ok p) (test : Bool) (ptr : IntV.Ptr) :
    ∃ v, Written M ast v p ∧
      ((∀ t ∈ promised v, ∃ b ∈ blocks M test ptr p, b.trait = some t) ↔ v ≠ .line ∧ v ≠ .text ∧ v ≠ .length) ∧
      ((∀ b ∈ blocks M test ptr p, ∀ t, b.trait = some t → t ∈ promised v ∨ t ∈ ["serde::Serialize", "serde::Deserialize",
        "rocket::form::FromFormField", "rocket::request::FromParam"]) ↔ v ≠ .json ∧ v ≠ .line ∧ v ≠ .text) := by
  obtain ⟨v, hw⟩ := Generated.C71_written M ast p h
  obtain ⟨-, -, ps, -, -, -, ho, -⟩ := id hw
  have key := traits_iff M v ps p ho test ptr
  have hf : ∀ t ∈ frameworks M p, t ∈ ["serde::Serialize", "serde::Deserialize", "rocket::form::FromFormField",
      "rocket::request::FromParam"] := fun t ht => by
    rcases (frameworks_mem M p t).1 ht with h | h | h | h <;> simp [h.1]
  refine ⟨v, hw, ?_, ?_⟩
  · have e : (∀ t ∈ promised v, ∃ b ∈ blocks M test ptr p, b.trait = some t) ↔ ∀ t ∈ promised v, t ∈ offered v := by
      have apart : ∀ t ∈ promised v, t ∉ ["serde::Serialize", "serde::Deserialize", "rocket::form::FromFormField",
          "rocket::request::FromParam"] := by cases v <;> decide +kernel
      exact forall₂_congr fun t ht => (key t).trans ⟨fun h => h.elim id fun h => absurd (hf t h) (apart t ht), .inl⟩
    rw [e]
    cases v <;> decide +kernel
  · have e : (∀ b ∈ blocks M test ptr p, ∀ t, b.trait = some t → t ∈ promised v ∨ t ∈ ["serde::Serialize", "serde::Deserialize",
        "rocket::form::FromFormField", "rocket::request::FromParam"]) ↔ ∀ t ∈ offered v, t ∈ promised v ∨ t ∈ ["serde::Serialize",
        "serde::Deserialize", "rocket::form::FromFormField", "rocket::request::FromParam"] := by
      constructor
      · intro h t ht
        obtain ⟨b, hb, e⟩ := (key t).2 (.inl ht)
        exact h b hb t e
      · intro h b hb t e
        exact ((key t).1 ⟨b, hb, e⟩).elim (h t) fun h => .inr (hf t h)
    rw [e]
    cases v <;> decide +kernel

/-- C79 is false of the manual: an item with `line` or `text` never has `ValidateLength`, and one with `length` never has
`CollectionLength`. -/
theorem C79_violated_manual (M : Macro τ φ κ) (ast : Input τ) (p : Plan φ κ) (h : derive M ast = .ok p) (test : Bool) (ptr : IntV.Ptr) :
    ∃ v, Written M ast v p ∧
      (v = .line ∨ v = .text → "ValidateLength" ∈ promised v ∧ ∀ b ∈ blocks M test ptr p, b.trait ≠ some "ValidateLength") ∧
      (v = .length → "CollectionLength" ∈ promised v ∧ ∀ b ∈ blocks M test ptr p, b.trait ≠ some "CollectionLength") := by
  obtain ⟨v, hw⟩ := Generated.C71_written M ast p h
  obtain ⟨-, -, ps, -, -, -, ho, -⟩ := id hw
  have key := fun t => (traits_iff M v ps p ho test ptr t).1
  simp only [frameworks_mem] at key
  refine ⟨v, hw, ?_, ?_⟩
  · rintro (rfl | rfl) <;>
      exact ⟨by decide +kernel, fun b hb e => by have := key _ ⟨b, hb, e⟩; simp [offered] at this⟩
  · rintro rfl
    exact ⟨by decide +kernel, fun b hb e => by have := key _ ⟨b, hb, e⟩; simp [offered] at this⟩

/-- `#[validator(line)] struct S(String);`: the macro accepts it; it has `ValidateString`, `serde` and Rocket, and `ValidateLength` is not
among them. -/
example : ∃ p, derive Derive.full ⟨[Derive.attr (.path (some "line"))], .struct (.unnamed ["String"])⟩ = .ok p ∧
    (blocks Derive.full false .p64 p).filterMap (·.trait) = ["ValidateString", "serde::Serialize", "serde::Deserialize",
      "rocket::form::FromFormField", "rocket::request::FromParam"] := ⟨_, rfl, by decide +kernel⟩

/-- `#[validator(domain(port(Must), at_least_two_labels(Must), serde(Deserialize), rocket(FromParam)))]`: one trait of each framework. -/
example : ∃ p, derive Derive.full ⟨[Derive.attr (.list (some "domain") (.metas [.list (some "port") (.word "Must"), .list (some "at_least_two_labels") (.word "Must"),
      .list (some "serde") (.word "Deserialize"), .list (some "rocket") (.word "FromParam")]))],
      .struct (.named [("domain", "String"), ("is_ipv4", "bool"), ("is_local", "bool"), ("port", "u16")])⟩ = .ok p ∧
    (blocks Derive.full false .p64 p).filterMap (·.trait) = ["ValidateString", "QualifyDomain", "ToUriAuthorityString", "serde::Deserialize",
      "rocket::request::FromParam"] := ⟨_, rfl, by decide +kernel⟩

/-! ## Items -/

/-- C79: every `impl` of a trait has each of its items once, all required ones, and no others than the trait declares. -/
theorem C79_conforms (M : Macro τ φ κ) (ast : Input τ) (p : Plan φ κ) (h : derive M ast = .ok p) (test : Bool) (ptr : IntV.Ptr)
    (b : Block) (hb : b ∈ blocks M test ptr p) (t : String) (ht : b.trait = some t) : Conforms t b.items := by
  obtain ⟨v, -, -, ps, -, -, -, ho, -⟩ := Generated.C71_written M ast p h
  have : Good b := (List.mem_append.1 hb).elim ((own_fine M v ps p ho test ptr).2.2 b) ((framework_good M p).2 b)
  simpa only [Good, ht] using this

/-- C79: outside the traits, no name is defined twice (E0592), and all names are `v_..` or `V_..`; no trait has such a name. So the user's
own methods collide with none of them, as long as they have other names. -/
theorem C79_inherent (M : Macro τ φ κ) (ast : Input τ) (p : Plan φ κ) (h : derive M ast = .ok p) (test : Bool) (ptr : IntV.Ptr) :
    (((blocks M test ptr p).filter fun b => b.trait.isNone).flatMap (·.items)).Nodup ∧
    (∀ b ∈ blocks M test ptr p, ∀ i ∈ b.items, Reserved i ↔ b.trait = none) := by
  obtain ⟨v, -, -, ps, -, -, -, ho, -⟩ := Generated.C71_written M ast p h
  obtain ⟨-, h2, h3⟩ := own_fine M v ps p ho test ptr
  obtain ⟨g1, g2⟩ := framework_good M p
  refine ⟨?_, fun b hb i hi => ?_⟩
  · rw [blocks, List.filter_append, List.flatMap_append]
    rw [inherent] at g1 h2
    rwa [g1, List.append_nil]
  · have hg : Good b := (List.mem_append.1 hb).elim (h3 b) (g2 b)
    cases e : b.trait with
    | none =>
      rw [Good, e] at hg
      exact ⟨fun _ => rfl, fun _ => hg i hi⟩
    | some t =>
      rw [Good, e] at hg
      exact ⟨fun hr => absurd hr (conforms_plain t b.items hg i hi), nofun⟩

omit [DecidableEq κ] in
/-- C79: the methods that an integer type has of its own (the others come from the trait): for `parse_` and `validate_`, that of 128 bits,
that of its own type, and for `isize` and `usize` also that of the integer type with as many bits on the target. -/
theorem C79_width (M : Macro τ φ κ) (signed : Bool) (w : IntV.Width) (a : RangeAttribute Int) (test : Bool) (ptr : IntV.Ptr) :
    ∃ b ∈ blocks M test ptr (.int signed w a), b.trait = some (if signed then "ValidateSignedInteger" else "ValidateUnsignedInteger") ∧
      ∀ w', let own := w' = .w128 ∨ w' = w ∨ w = .size ∧ IntV.bits ptr w' = IntV.bits ptr w
        ("parse_" ++ intName signed w' ∈ b.items ↔ own) ∧ ("validate_" ++ intName signed w' ∈ b.items ↔ own) := by
  refine ⟨⟨some (if signed then "ValidateSignedInteger" else "ValidateUnsignedInteger"), integerItems ptr signed w⟩, ?_, rfl, ?_⟩
  · simp [blocks, ownBlocks, integerBlocks]
  · intro w'
    cases signed <;> cases w <;> cases ptr <;> cases w' <;> decide +kernel

omit [DecidableEq κ] in
/-- C79: the feature `test` adds constants `V_..` and changes nothing else. -/
theorem C79_test (M : Macro τ φ κ) (p : Plan φ κ) (ptr : IntV.Ptr) :
    ∃ cs, blocks M true ptr p = cs ++ blocks M false ptr p ∧ ∀ b ∈ cs, b.trait = none ∧ ∀ i ∈ b.items, ['V', '_'] <+: i.toList :=
  test_blocks M p ptr

/-- An `isize` on a machine of 32 bits, with the feature `test`: what is written in the three blocks. -/
example : (blocks Derive.full true .p32 (.int true .size ⟨.unlimited, ⟨false, false⟩, ⟨false, false⟩⟩)) =
    [⟨none, ["V_RANGE"]⟩, ⟨none, ["v_parse_str", "v_parse_i"]⟩, stringBlock, ⟨some "ValidateSignedInteger",
      ["Error", "parse_i128", "validate_i128", "parse_isize", "validate_isize", "parse_i32", "validate_i32"]⟩] := by decide +kernel

/-! ## Generic items -/

/-- C79: what the macro generates does not depend on the parameters of the item, and it is for the type without arguments. So the
code is for every instance of the type exactly if it has no parameters. -/
theorem C79_generic_partial (M : Macro τ φ κ) (test : Bool) (ptr : IntV.Ptr) (i : Item τ) (out : List (Path × Block))
    (h : expand M test ptr i = .ok out) :
    (∀ args, Instance i.generics args → ∀ b ∈ out, b.1.name = i.name ∧ Denotes i.generics b.1.args args) ↔ i.generics = [] := by
  obtain ⟨p, hp, e⟩ := expand_ok M test ptr i out h
  obtain ⟨hne, hall⟩ := e
  constructor
  · intro H
    match hg : i.generics with
    | [] => rfl
    | q :: ps =>
      exfalso
      obtain ⟨b, hb⟩ := List.exists_mem_of_ne_nil _ hne
      have h1 := (H (List.replicate i.generics.length "A") (by simp [Instance]) b hb).2
      have h2 := (H (List.replicate i.generics.length "B") (by simp [Instance]) b hb).2
      rw [hall b hb] at h1 h2
      have := denotes_unique _ _ _ h1 h2
      simp [hg, List.replicate_succ] at this
  · intro hg args ha b hb
    rw [hg] at ha ⊢
    rw [hall b hb]
    rw [List.length_eq_zero_iff.1 ha]
    exact ⟨rfl, .nil⟩

/-- C79: exactly if no parameter is a lifetime and each one has a default, the headers compile; they are for the instance of the
defaults then. -/
theorem C79_compiles (M : Macro τ φ κ) (test : Bool) (ptr : IntV.Ptr) (i : Item τ) (out : List (Path × Block))
    (h : expand M test ptr i = .ok out) :
    ((∀ b ∈ out, ∃ args, Denotes i.generics b.1.args args) ↔ ∀ q ∈ i.generics, Optional q) ∧
    ∀ b ∈ out, ∀ b' ∈ out, ∀ args args', Denotes i.generics b.1.args args → Denotes i.generics b'.1.args args' → args = args' := by
  obtain ⟨p, hp, hne, hall⟩ := expand_ok M test ptr i out h
  refine ⟨⟨fun H => ?_, fun H b hb => ?_⟩, fun b hb b' hb' args args' => ?_⟩
  · obtain ⟨b, hb⟩ := List.exists_mem_of_ne_nil _ hne
    have := H b hb
    rw [hall b hb] at this
    exact (denotes_nil_iff _).1 this
  · rw [hall b hb]
    exact (denotes_nil_iff _).2 H
  · rw [hall b hb, hall b' hb']
    exact denotes_unique _ _ _

/-- C79 is false of generic items: whatever item the macro accepts, it accepts with a parameter `T` too, and then no header of the
generated code is a type. -/
theorem C79_violated_generic (M : Macro τ φ κ) (test : Bool) (ptr : IntV.Ptr) (i : Item τ) (out : List (Path × Block))
    (h : expand M test ptr i = .ok out) : expand M test ptr { i with generics := [.type none] } = .ok out ∧ out ≠ [] ∧
      ∀ b ∈ out, ∀ args, ¬ Denotes [.type none] b.1.args args := by
  obtain ⟨p, hp, hne, hall⟩ := expand_ok M test ptr i out h
  refine ⟨h, hne, fun b hb args hd => ?_⟩
  rw [hall b hb] at hd
  cases hd

/-- `#[validator(length)] struct S<T>(Vec<T>);`: accepted, and the code does not compile; with `<T = u8>` it does, for `S<u8>` alone. -/
example : ∃ out, expand Derive.full false .p64 ⟨"S", [.type none], ⟨[Derive.attr (.path (some "length"))], .struct (.unnamed ["Vec<T>"])⟩⟩ = .ok out ∧
    out.length = 4 ∧ (∀ b ∈ out, b.1 = ⟨"S", []⟩) ∧ (∀ args, ¬ Denotes [.type none] [] args) ∧
    ∀ args, Denotes [.type (some "u8")] [] args ↔ args = ["u8"] := by
  refine ⟨_, rfl, by decide +kernel, by decide +kernel, ?_, fun args => ⟨fun h => ?_, ?_⟩⟩
  · rintro args ⟨⟩
  · cases h with | type h => cases h; rfl
  · rintro rfl
    exact .type .nil

end Verif.Props.Surface
