import Verif.Proof.Features

/-!
# C77: every combination of features builds

For every request — any set of features of `validators`, any features of its dependencies turned on elsewhere, with or without the
standard library in the deriving crate — every name that the compiled part of the library, of the macro and of the generated code
uses exists.
-/

namespace Verif.Props.Features

open Verif.Features

/-- The sources of `validators`: in every configuration every conditional name in use exists. -/
theorem C77_library (q : Request) : ∀ u ∈ libraryUses, Resolves (On rules q) existsWhen u := by
  have h : libraryUses.all (fun u => covers u.guard (existsWhen u.item)) = true := by decide +kernel
  intro u m g
  exact covers_sound (List.all_eq_true.1 h u m) g

/-- A use that is compiled: with only `http_url` on, `traits/http_url.rs` names the crate `url`. -/
example : ∃ u ∈ libraryUses, u.item ≠ .std ∧ Holds (On rules (only [.httpUrl])) u.guard := by
  have key := on_only (l := [.httpUrl]) (by decide +kernel) (by decide +kernel)
  have k : ∃ u ∈ libraryUses, u.item ≠ .std ∧ [[Atom.feature .httpUrl]] = u.guard := by decide +kernel
  obtain ⟨u, m, hi, e⟩ := k
  refine ⟨u, m, hi, e ▸ ⟨_, List.mem_singleton.2 rfl, ?_⟩⟩
  intro a ha
  rw [List.mem_singleton.1 ha, key]
  decide +kernel

/-- The sources of `validators-derive`, with the features that `validators` turns on in it. -/
theorem C77_macro (q : Request) : ∀ u ∈ macroUses, Resolves (On rules q) existsWhen u := by
  have h : macroUses.all (fun u => covers u.guard (existsWhen u.item)) = true := by decide +kernel
  intro u m g
  exact covers_sound (List.all_eq_true.1 h u m) g

/-- There is something to resolve, under a `cfg` that can hold. -/
example : ∃ u ∈ macroUses, ¬ Holds (On rules (only [.httpUrl])) u.guard ∧ Holds (On rules (only [.phone, .derive])) u.guard := by
  have key := on_only (l := [.httpUrl]) (by decide +kernel) (by decide +kernel)
  have key2 := on_only (l := [.phone, .derive]) (by decide +kernel) (by decide +kernel)
  have k : ∃ u ∈ macroUses, u.guard = [[Atom.derived .phone]] := by decide +kernel
  obtain ⟨u, m, e⟩ := k
  refine ⟨u, m, ?_, ?_⟩ <;> rw [e] <;> simp only [Holds, List.mem_singleton, exists_eq_left, forall_eq, key, key2] <;> decide +kernel

/-- The code that `#[derive(Validator)]` generates resolves in every configuration, in a crate that has the standard library. -/
theorem C77_generated (q : Request) (hq : q.std) (v : Feature) (u : Use Item) (m : (v, u) ∈ generatedUses) :
    Resolves (On rules q) existsWhen u := by
  by_cases hs : u.item = .userStd
  · intro _
    rw [hs]
    exact ⟨[.userStd], by simp [existsWhen], fun a ha => by rw [List.mem_singleton.1 ha]; exact .asked hq⟩
  · exact generated_aux q v u m hs

/-- In a `#![no_std]` crate: exactly the validators named here generate code that does not resolve. -/
theorem C77_generated_exactly (q : Request) (v : Feature) (hv : On rules q (.derived v)) :
    (∀ u, (v, u) ∈ generatedUses → Resolves (On rules q) existsWhen u) ↔
      (q.std ∨ v ∉ [.email, .host, .ip, .ipv4, .ipv6, .json, .phone]) := by
  constructor
  · intro h
    by_cases m : v ∈ [Feature.email, .host, .ip, .ipv4, .ipv6, .json, .phone]
    · left
      have k : ∀ v ∈ [Feature.email, .host, .ip, .ipv4, .ipv6, .json, .phone],
          ∃ p ∈ generatedUses, p.1 = v ∧ [Atom.derived v] ∈ p.2.guard ∧ p.2.item = .userStd := by decide +kernel
      obtain ⟨⟨w, u⟩, hp, rfl, hg, hi⟩ := k v m
      obtain ⟨l, hl, ha⟩ := h u hp ⟨_, hg, by simpa using hv⟩
      simp only at hi
      rw [hi] at hl
      simp only [existsWhen, List.mem_singleton] at hl
      subst hl
      exact userStd_inv (ha _ List.mem_cons_self)
    · exact .inr m
  · rintro (h | h) u m
    · exact C77_generated q h v u m
    · refine generated_aux q v u m fun hs => h ?_
      have k : ∀ p ∈ generatedUses, p.2.item = .userStd → p.1 ∈ [Feature.email, .host, .ip, .ipv4, .ipv6, .json, .phone] := by
        decide +kernel
      exact k _ m hs

/-- `base32` resolves without the standard library, `json` does not. -/
example (q : Request) (h : ¬ q.std) (hb : On rules q (.derived .base32)) (hj : On rules q (.derived .json)) :
    (∀ u, (Feature.base32, u) ∈ generatedUses → Resolves (On rules q) existsWhen u) ∧
      ¬ ∀ u, (Feature.json, u) ∈ generatedUses → Resolves (On rules q) existsWhen u := by
  rw [C77_generated_exactly q _ hb, C77_generated_exactly q _ hj]
  simp [h]

/-- Every other validator whose generated code needs the standard library says so: it turns the feature `std` on.  Missing: `json`,
see `C77_violated_json`. -/
theorem C77_std_partial (q : Request) (v : Feature) (hj : v ≠ .json) (hv : On rules q (.feature v))
    (h : ∃ u, (v, u) ∈ generatedUses ∧ u.item = .userStd) : On rules q (.feature .std) := by
  obtain ⟨u, m, e⟩ := h
  have k : generatedUses.all (fun p => decide (p.2.item ≠ .userStd ∨ p.1 = .json) || covers [[.feature p.1]] [[.feature .std]]) = true := by
    decide +kernel
  have := List.all_eq_true.1 k _ m
  rw [Bool.or_eq_true, decide_eq_true_eq] at this
  obtain ⟨l, hl, ha⟩ := covers_sound (q := q) (this.resolve_left fun x => x.elim (· e) hj) ⟨_, List.mem_singleton.2 rfl, by simpa using hv⟩
  rw [List.mem_singleton.1 hl] at ha
  exact ha _ List.mem_cons_self

/-- `phone` is such a validator. -/
example (q : Request) (h : On rules q (.feature .phone)) : On rules q (.feature .std) :=
  C77_std_partial q .phone (by decide) h
    (by
      have k : ∃ p ∈ generatedUses, p.1 = .phone ∧ p.2.item = .userStd := by decide +kernel
      obtain ⟨⟨_, u⟩, m, rfl, e⟩ := k
      exact ⟨u, m, e⟩)

/-- `json` with `derive` does not turn `std` on, so a `#![no_std]` crate may use it, but the generated code names `String` without
a path (`validators-derive/src/validator_handlers/json/mod.rs` L219, L223): it does not resolve there. -/
theorem C77_violated_json :
    ∃ q : Request, On rules q (.feature .json) ∧ On rules q (.feature .derive) ∧ ¬ On rules q (.feature .std) ∧ ¬ q.std ∧
      ∃ u, (Feature.json, u) ∈ generatedUses ∧ ¬ Resolves (On rules q) existsWhen u := by
  have key := on_only (l := [.json, .derive]) (by decide +kernel) (by decide +kernel)
  refine ⟨only [.json, .derive], .asked (by simp [Request.direct, only]), .asked (by simp [Request.direct, only]), ?_, id, ?_⟩
  · rw [key]; decide +kernel
  · by_contra hn
    have hv : On rules (only [.json, .derive]) (.derived .json) := by rw [key]; decide +kernel
    have := (C77_generated_exactly _ .json hv).1 (fun u m => by by_contra hr; exact hn ⟨u, m, hr⟩)
    exact this.elim id (fun h => h (by decide))

/-- The two crates agree: a feature that both have is on in the macro exactly when it is on in the library and `derive` is on. -/
theorem C77_aligned (q : Request) (f : Feature) (hf : f ∈ macroFeatures) :
    On rules q (.derived f) ↔ (On rules q (.feature f) ∧ On rules q (.feature .derive)) :=
  ⟨fun h => ⟨(derived_inv h).1, dep_derive_inv (derived_inv h).2.1⟩, fun h => derived_of hf h.1 h.2⟩

/-- Every validator is known to the macro exactly when its feature and `derive` are on. -/
theorem C77_variants (q : Request) (v : Feature) (hv : v ∈ validators) :
    ∃ i, variant v = some i ∧ (Holds (On rules q) (existsWhen i) ↔ (On rules q (.feature v) ∧ On rules q (.feature .derive))) := by
  have k : ∀ v ∈ validators, v ∈ macroFeatures ∧ ∃ i, variant v = some i ∧ existsWhen i = [[.derived v]] := by
    simp only [validators, List.forall_mem_cons]
    refine ⟨?_, ?_, ?_, ?_, ?_, ?_, ?_, ?_, ?_, ?_, ?_, ?_, ?_, ?_, ?_, ?_, ?_, ?_, ?_, ?_, ?_, ?_, ?_, ?_, ?_, ?_, ?_, ?_, ?_, ?_, ?_, ?_⟩
    all_goals first
      | exact ⟨by decide, _, rfl, rfl⟩
      | simp
  obtain ⟨m, i, h1, h2⟩ := k v hv
  refine ⟨i, h1, ?_⟩
  rw [h2, ← C77_aligned q v m]
  simp [Holds]

/-- With `derive` on, the macro's `compile_error!` fires exactly when no validator is on. -/
theorem C77_compile_error (q : Request) (hd : On rules q (.feature .derive)) :
    (∀ v ∈ oneOf, ¬ On rules q (.derived v)) ↔ ∀ v ∈ validators, ¬ On rules q (.feature v) := by
  have k : ∀ v, v ∈ oneOf ↔ v ∈ validators := by intro v; cases v <;> decide
  have k2 : ∀ v ∈ validators, v ∈ macroFeatures := by decide
  constructor
  · intro h v m hv
    exact h v ((k v).2 m) (derived_of (k2 v m) hv hd)
  · intro h v m hv
    exact h v ((k v).1 m) (derived_inv hv).1

/-- Both sides occur: `derive` alone has no validator, `derive` and `uuid` have one. -/
example : (∀ v ∈ validators, ¬ On rules (only [.derive]) (.feature v)) ∧ On rules (only [.derive, .uuid]) (.derived .uuid) := by
  have key := on_only (l := [.derive]) (by decide +kernel) (by decide +kernel)
  have key2 := on_only (l := [.derive, .uuid]) (by decide +kernel) (by decide +kernel)
  simp only [key, key2]
  constructor <;> decide +kernel

/-- The default features: every validator, the macro and the standard library. -/
theorem C77_default (q : Request) (hq : q.asked .default_) :
    On rules q (.feature .std) ∧ On rules q (.feature .derive) ∧ ∀ v ∈ validators, On rules q (.feature v) ∧ On rules q (.derived v) := by
  have on : On rules q (.feature .default_) := .asked hq
  have step : ∀ f, covers [[.feature .default_]] [[.feature f]] = true → On rules q (.feature f) := by
    intro f h
    obtain ⟨l, hl, ha⟩ := covers_sound (q := q) h ⟨_, List.mem_singleton.2 rfl, by simpa using on⟩
    rw [List.mem_singleton.1 hl] at ha
    exact ha _ List.mem_cons_self
  have hd := step .derive (by decide +kernel)
  have k : validators.all (fun v => covers [[.feature .default_]] [[.feature v]]) = true := by decide +kernel
  have k2 : ∀ v ∈ validators, v ∈ macroFeatures := by decide
  exact ⟨step _ (by decide +kernel), hd, fun v m =>
    have h := step v (List.all_eq_true.1 k v m)
    ⟨h, derived_of (k2 v m) h hd⟩⟩

/-- A validator asked for alone turns on itself, and `url` for the two HTTP validators, and no other validator; it builds exactly
the crates listed above. -/
theorem C77_alone (v : Feature) (hv : v ∈ validators) :
    (∀ w ∈ validators, On rules (only [v]) (.feature w) ↔ (w = v ∨ w ∈ brings v)) ∧
      ∀ c, On rules (only [v]) (.dep c) ↔ c ∈ crates v := by
  have k : ∀ v ∈ validators, closed (closure [v]) = true ∧
      closure [v] &&& mask ([v].map .feature) = mask ([v].map .feature) ∧
      (∀ w ∈ validators, ((closure [v]).testBit (Atom.feature w).code = true ↔ (w = v ∨ w ∈ brings v))) ∧
      ∀ c ∈ [Crate.validatorsDerive, .dataEncoding, .idna, .byteUnit, .urlDep, .strUtils, .serdeJson, .phonenumber, .regexDep,
        .semverDep, .serde, .rocket, .axum], ((closure [v]).testBit (Atom.dep c).code = true ↔ c ∈ crates v) := by
    decide +kernel
  obtain ⟨h1, h2, h3, h4⟩ := k v hv
  have key := on_only h1 h2
  refine ⟨fun w m => (key _).trans (h3 w m), fun c => (key _).trans (h4 c ?_)⟩
  cases c <;> decide

example : On rules (only [.httpUrl]) (.dep .urlDep) ∧ ¬ On rules (only [.httpUrl]) (.dep .regexDep) := by
  have h := (C77_alone .httpUrl (by decide)).2
  exact ⟨(h _).2 (by decide), fun x => absurd ((h _).1 x) (by decide)⟩

end Verif.Props.Features
