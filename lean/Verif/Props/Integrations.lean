import Verif.Proof.Integrations

/-!
# C76: from the attribute to the data that is accepted
-/

namespace Verif.Props.Integrations

open Verif Verif.Attr Verif.Derive Verif.Generated Verif.Integrations Verif.Spec.Generated Verif.Spec.Integrations
open Verif.Serde (Body Deserializer Hint custom)
open Verif.Spec.Serde (Outcome Finishes dataOf WellTyped)
open Verif.Number (Fl)
open Verif.BaseN (strBytes)
open Verif.Props.Serde (reply_ok)
open Verif.Props.Generated (sizesOk)

variable {τ φ κ N U V ε : Type} [LinearOrder φ] [DecidableEq κ]

/-- What is generated compiles. -/
theorem deserialize_some (M : Macro τ φ κ) (ast : Input τ) (p : Plan φ κ) (h : derive M ast = .ok p) (L : Libs φ κ N U V ε) (S : SerdeLibs φ V ε)
    (hptr : L.ptr = M.ptr) (hc : Compiles p) : (deserialize L S p).isSome = true ∧ ((∀ a, p ≠ .length a) → (generate L p).isSome = true) := by
  have hi := Generated.C71_has_impl M ast p h L hptr
  cases p with
  | length a =>
    refine ⟨?_, fun h => absurd rfl (h a)⟩
    simp only [deserialize, Option.isSome_map, Option.isSome_iff_ne_none, ne_eq, Range.C18_length_closed_iff_partial]
    exact hc
  | base v a =>
    have hg := hi.2 hc
    refine ⟨?_, fun _ => hg⟩
    simp only [generate] at hg
    split at hg <;> first | rfl | cases hg
  | basic v a =>
    have hg := hi.2 hc
    refine ⟨?_, fun _ => hg⟩
    simp only [generate] at hg
    split at hg <;> first | rfl | cases hg
  | bit a =>
    have hg := hi.2 hc
    refine ⟨?_, fun _ => hg⟩
    simpa [generate, sizeImpl, deserialize, sizes] using hg
  | byte a =>
    have hg := hi.2 hc
    refine ⟨?_, fun _ => hg⟩
    simpa [generate, sizeImpl, deserialize, sizes] using hg
  | number double a =>
    have hg := hi.2 hc
    refine ⟨?_, fun _ => hg⟩
    simpa [generate, numberImpl, deserialize] using hg
  | int signed w a =>
    have hg := hi.2 hc
    refine ⟨?_, fun _ => hg⟩
    simpa [generate, intImpl, deserialize] using hg
  | _ =>
    have hg := hi.2 hc
    exact ⟨by simpa only [deserialize, Option.isSome_map] using hg, fun _ => hg⟩

omit [LinearOrder φ] [DecidableEq κ] in
/-- The flags of a plan are those of its parameters. -/
theorem flags_written (M : Macro τ φ κ) (v : Validator) (ps : List (Meta τ)) (p : Plan φ κ) (h : Options M v ps p) :
    Spec.Attr.Set ps "serde" (Spec.Attr.SaysFlags M.syn M.serde "Serialize" "Deserialize") ⟨true, true⟩ (serdeFlags p) ∧
    (v ≠ .length → Spec.Attr.Set ps "rocket" (Spec.Attr.SaysFlags M.syn M.rocket "FromFormField" "FromParam") ⟨true, true⟩ (rocketFlags p)) ∧
    (v = .length ↔ ∃ a, p = .length a) := by
  cases p <;> simp only [Options, Integrations, serdeFlags, rocketFlags] at h ⊢
  case length => exact ⟨h.2.2.2.2.1, fun hv => absurd h.1 hv, by simp [h.1]⟩
  case int => obtain ⟨rfl, h⟩ := h; refine ⟨by simp only [h], fun _ => by simp only [h], ?_⟩; split <;> simp
  all_goals
    refine ⟨by simp only [h], fun _ => by simp only [h], ?_⟩
    constructor
    · rintro rfl; simp at h
    · rintro ⟨a, e⟩; cases e

/-- C76: which impls an item gets. `Deserialize` if the feature `serde` is on and the attribute does not turn it off, `FromFormField` and
`FromParam` likewise with `rocket`; `length` has no Rocket impls. The flags are those written in the attribute. -/
theorem C76_present (M : Macro τ φ κ) (ast : Input τ) (p : Plan φ κ) (h : derive M ast = .ok p) (L : Libs φ κ N U V ε) (S : SerdeLibs φ V ε)
    (hptr : L.ptr = M.ptr) (hc : Compiles p) :
    ∃ a v m ps serde rocket, Spec.Derive.Only Spec.Derive.Ours ast.attrs a ∧ Spec.Derive.Requests M.syn M.enabled a v m ∧
      Spec.Attr.Gives M.syn m ps ∧ Spec.Attr.Set ps "serde" (Spec.Attr.SaysFlags M.syn M.serde "Serialize" "Deserialize") ⟨true, true⟩ serde ∧
      (v ≠ .length → Spec.Attr.Set ps "rocket" (Spec.Attr.SaysFlags M.syn M.rocket "FromFormField" "FromParam") ⟨true, true⟩ rocket) ∧
      ((integrate M L S p).deserialize.isSome ↔ M.serde = true ∧ serde.second = true) ∧
      ((integrate M L S p).fromFormField.isSome ↔ v ≠ .length ∧ M.rocket = true ∧ rocket.first = true) ∧
      ((integrate M L S p).fromParam.isSome ↔ v ≠ .length ∧ M.rocket = true ∧ rocket.second = true) := by
  obtain ⟨v, a, m, ps, h1, h2, h3, ho, -⟩ := Generated.C71_written M ast p h
  obtain ⟨f1, f2, f3⟩ := flags_written M v ps p ho
  obtain ⟨g1, g2⟩ := deserialize_some M ast p h L S hptr hc
  refine ⟨a, v, m, ps, serdeFlags p, rocketFlags p, h1, h2, h3, f1, f2, ?_, ?_, ?_⟩
  · simp only [integrate]
    split
    · rename_i e
      simpa [g1] using e
    · rename_i e
      simpa using e
  · by_cases hv : v = .length
    · obtain ⟨b, rfl⟩ := f3.1 hv
      simp [integrate, rocketFlags, hv]
    · have := g2 fun b e => hv (f3.2 ⟨b, e⟩)
      simp only [integrate]
      split
      · rename_i e
        simpa [this, hv] using e
      · rename_i e
        simpa [hv] using e
  · by_cases hv : v = .length
    · obtain ⟨b, rfl⟩ := f3.1 hv
      simp [integrate, rocketFlags, hv]
    · have := g2 fun b e => hv (f3.2 ⟨b, e⟩)
      simp only [integrate]
      split
      · rename_i e
        simpa [this, hv] using e
      · rename_i e
        simpa [hv] using e

omit [LinearOrder φ] in
theorem integrate_de [Ord φ] {M : Macro τ φ κ} {L : Libs φ κ N U V ε} {S : SerdeLibs φ V ε} {p : Plan φ κ} {body : De φ κ N U V}
    (hb : (integrate M L S p).deserialize = some body) : deserialize L S p = some body := by
  simp only [integrate] at hb
  split at hb
  · exact hb
  · cases hb

/-- C76, values: whatever data a deserializer hands over, a derived `Deserialize` gives only values that the attribute allows for that
data. -/
theorem C76_sound_partial (M : Macro τ φ κ) (ast : Input τ) (p : Plan φ κ) (h : derive M ast = .ok p) (L : Libs φ κ N U V ε) (S : SerdeLibs φ V ε)
    (hu : Spec.Url.HostsPresent L.url) (hm : ¬ LargestMax L.ptr p) (body : De φ κ N U V) (hb : (integrate M L S p).deserialize = some body)
    (d : Deserializer (Fl φ) (Fl φ)) (hd : WellTyped d) (hint : Hint) (ha : asks d.human p = some hint) (x : Value φ κ N U V)
    (hx : Outcome body d (.ok x)) : (∃ v, Written M ast v p) ∧ ∃ e, d.feed hint = some e ∧ Takes L S p (dataOf e) x := by
  obtain ⟨v, hw⟩ := Generated.C71_written M ast p h
  refine ⟨⟨v, hw⟩, ?_⟩
  obtain ⟨a, m, ps, -, -, -, ho, -⟩ := hw
  obtain ⟨P, h1, h2⟩ := right L S hu p (sizesOk M v ps p ho) hm body (integrate_de hb) d hd hint ha
  obtain ⟨e, he, hp⟩ := reply_ok.1 ((h1 _).1 hx)
  exact ⟨e, he, h2.sound _ (inRange hd he) _ hp⟩

omit [DecidableEq κ] in
theorem takes_same (L : Libs φ κ N U V ε) (S : SerdeLibs φ V ε) (p : Plan φ κ) (d : Dat φ) (x y : Value φ κ N U V) (h : Takes L S p d y)
    (hs : Same y x) : Takes L S p d x := by
  cases d with
  | text s => exact Generated.means_same L p s x y h hs
  | _ =>
    unfold Same at hs
    split at hs
    · cases p <;> simp only [Takes] at h
    · exact hs ▸ h

/-- C76: exactly those values, and exactly for that data; a map of numbers may have its entries in any order. -/
theorem C76_exact_partial (M : Macro τ φ κ) (ast : Input τ) (p : Plan φ κ) (h : derive M ast = .ok p) (L : Libs φ κ N U V ε) (S : SerdeLibs φ V ε)
    (hu : Spec.Url.HostsPresent L.url) (hm : ¬ LargestMax L.ptr p) (body : De φ κ N U V)
    (hb : (integrate M L S p).deserialize = some body) (d : Deserializer (Fl φ) (Fl φ)) (hd : WellTyped d) (hint : Hint)
    (ha : asks d.human p = some hint) (x : Value φ κ N U V) :
    (∃ y, Outcome body d (.ok y) ∧ Same y x) ↔ ∃ e, d.feed hint = some e ∧ Takes L S p (dataOf e) x := by
  constructor
  · rintro ⟨y, hy, hs⟩
    obtain ⟨e, he, ht⟩ := (C76_sound_partial M ast p h L S hu hm body hb d hd hint ha y hy).2
    exact ⟨e, he, takes_same L S p _ x y ht hs⟩
  obtain ⟨v, a, m, ps, -, -, -, ho, -⟩ := Generated.C71_written M ast p h
  obtain ⟨P, h1, h2⟩ := right L S hu p (sizesOk M v ps p ho) hm body (integrate_de hb) d hd hint ha
  rintro ⟨e, he, ht⟩
  obtain ⟨y, hy, hs⟩ := h2.complete _ (inRange hd he) _ ht
  exact ⟨y, (h1 _).2 (reply_ok.2 ⟨e, he, hy⟩), hs⟩

/-- C76: `bit`, `length` and `json` accept exactly what the type they leave the reading to reads, if the attribute allows it. -/
theorem C76_inner (M : Macro τ φ κ) (ast : Input τ) (p : Plan φ κ) (h : derive M ast = .ok p) (L : Libs φ κ N U V ε) (S : SerdeLibs φ V ε)
    (body : De φ κ N U V) (hb : (integrate M L S p).deserialize = some body) (d : Deserializer (Fl φ) (Fl φ)) (ha : asks d.human p = none)
    (he : ¬ Endless p) (x : Value φ κ N U V) : Outcome body d (.ok x) ↔ Reads S p d x := by
  obtain ⟨v, a, m, ps, -, -, -, ho, -⟩ := Generated.C71_written M ast p h
  have hp := sizesOk M v ps p ho
  have hb := integrate_de hb
  cases p with
  | bit a =>
    simp only [deserialize, Option.map_eq_some_iff] at hb
    obtain ⟨chk, hc, rfl⟩ := hb
    rw [Verif.Serde.bitDe, Verif.Serde.innerDe, lift_ok]
    have key : ∀ n, Outcome (Verif.Serde.bitDe S.bit chk) d (.ok n) ↔ S.bit d = some n ∧ Spec.Range.Contains a.range (n : Int) := fun n => by
      rw [Serde.C49_bit]
      refine and_congr_right fun _ => ?_
      have := Range.C19_text (fun _ => some n) _ chk hc [] n
      simp only [Size.parseStr, true_and] at this
      rw [this, sizes, Generated.contains_toNat a.range hp]
    constructor
    · rintro ⟨n, h, rfl⟩
      exact (key n).1 h
    · intro h
      cases x <;> simp only [Reads] at h
      exact ⟨_, (key _).2 h, rfl⟩
  | length a =>
    simp only [deserialize, Option.map_eq_some_iff] at hb
    obtain ⟨chk, hc, rfl⟩ := hb
    rw [Verif.Serde.lengthDe, Verif.Serde.innerDe, lift_ok]
    have hacc : Length.accepts a.min a.max = true := by
      have := ho.2.2.2.2.2
      unfold Length.accepts
      split
      · rename_i m n e1 e2
        simpa using this m n e1 e2
      · rfl
    have key : ∀ c, Outcome (Verif.Serde.lengthDe S.collection S.len chk) d (.ok c) ↔
        S.collection d = some c ∧ (∀ m, a.min = some m → m ≤ S.len c) ∧ ∀ m, a.max = some m → S.len c ≤ m := fun c => by
      rw [Serde.C49_inner, (Range.C21_length S.len a.min a.max chk hc hacc c).1 c]
      simp
    constructor
    · rintro ⟨n, h, rfl⟩
      exact (key n).1 h
    · intro h
      cases x <;> simp only [Reads] at h
      exact ⟨_, (key _).2 h, rfl⟩
  | basic w a =>
    simp only [asks, ite_eq_right_iff, reduceCtorEq, imp_false] at ha
    simp only [deserialize] at hb
    split at hb <;> cases hb
    · exact absurd rfl ha
    · rw [Verif.Serde.jsonDe, lift_ok]
      have key : ∀ c, Outcome (Verif.Serde.jsonDe S.json id) d (.ok c) ↔ S.json d = some (.ok c) := fun c => by
        rw [Serde.C49_json]
        simp
      constructor
      · rintro ⟨n, h, rfl⟩
        exact ⟨rfl, (key n).1 h⟩
      · intro h
        cases x <;> simp only [Reads] at h
        exact ⟨_, (key _).2 h.2, rfl⟩
    all_goals exact absurd (by simp [Endless]) he
  | _ => cases ha

/-- C76 inherits C51: deserialization of `url`, `semver` and `semver_req` never returns. -/
theorem C76_violated_endless (M : Macro τ φ κ) (L : Libs φ κ N U V ε) (S : SerdeLibs φ V ε) (p : Plan φ κ) (he : Endless p) (body : De φ κ N U V)
    (hb : (integrate M L S p).deserialize = some body) (d : Deserializer (Fl φ) (Fl φ)) : ¬ Finishes body d := by
  have hb := integrate_de hb
  cases p with
  | basic v a => rcases he with rfl | rfl | rfl <;> (cases hb; exact Serde.C51_violated _ d)
  | _ => exact he.elim

/-- C76: every other deserialization returns. -/
theorem C76_finishes (M : Macro τ φ κ) (L : Libs φ κ N U V ε) (S : SerdeLibs φ V ε) (p : Plan φ κ) (he : ¬ Endless p) (body : De φ κ N U V)
    (hb : (integrate M L S p).deserialize = some body) (d : Deserializer (Fl φ) (Fl φ)) : Finishes body d := by
  have hb := integrate_de hb
  cases p with
  | base v a => simp only [deserialize] at hb; split at hb <;> cases hb <;> exact lift_finishes _ _ d
  | basic v a =>
    simp only [deserialize] at hb
    split at hb <;> cases hb <;> first | exact lift_finishes _ _ d | exact absurd (by simp [Endless]) he
  | number double a =>
    simp only [deserialize, Option.map_eq_some_iff] at hb
    obtain ⟨chk, -, rfl⟩ := hb
    cases double <;> exact lift_finishes _ _ d
  | int signed w a =>
    simp only [deserialize, Option.map_eq_some_iff] at hb
    obtain ⟨chk, -, rfl⟩ := hb
    cases signed <;> exact lift_finishes _ _ d
  | _ =>
    simp only [deserialize, Option.map_eq_some_iff] at hb
    obtain ⟨chk, -, rfl⟩ := hb
    first | exact lift_finishes _ _ d | exact ⟨_, (Serde.outcome_plain _ d _).2 rfl⟩

/-- C76: the data that make a derived `Deserialize` panic are the texts of `Panics`, the findings C12, C40 and C73. -/
theorem C76_panics_partial (M : Macro τ φ κ) (ast : Input τ) (p : Plan φ κ) (h : derive M ast = .ok p) (L : Libs φ κ N U V ε) (S : SerdeLibs φ V ε)
    (hu : Spec.Url.HostsPresent L.url) (body : De φ κ N U V) (hb : (integrate M L S p).deserialize = some body)
    (d : Deserializer (Fl φ) (Fl φ)) (hd : WellTyped d) :
    Outcome body d .panic ↔
      ∃ hint e s, asks d.human p = some hint ∧ d.feed hint = some e ∧ dataOf e = .text s ∧ Panics L.checked L.ptr p s := by
  obtain ⟨v, a, m, ps, -, -, -, ho, -⟩ := Generated.C71_written M ast p h
  have hp := sizesOk M v ps p ho
  have none_panics (hn : ∀ s, ¬ Panics L.checked L.ptr p s) (hm : ¬ LargestMax L.ptr p) : Outcome body d .panic ↔
      ∃ hint e s, asks d.human p = some hint ∧ d.feed hint = some e ∧ dataOf e = .text s ∧ Panics L.checked L.ptr p s := by
    refine iff_of_false ?_ (by rintro ⟨_, _, s, -, -, -, h⟩; exact hn s h)
    intro hx
    cases ha : asks d.human p with
    | some hint =>
      obtain ⟨P, h1, h2⟩ := right L S hu p hp hm body (integrate_de hb) d hd hint ha
      obtain ⟨e, he, hq⟩ := reply_panic.1 ((h1 _).1 hx).symm
      obtain ⟨s, I, h3, h4, h5⟩ := h2.panics _ (inRange hd he) hq
      exact hn s ((Generated.parse_panics L hu p hp I h4 s).1.1 h5)
    | none =>
      have hb' := integrate_de hb
      by_cases he : Endless p
      · exact C76_violated_endless M L S p he body hb d ⟨_, hx⟩
      cases p with
      | bit a =>
        simp only [deserialize, Option.map_eq_some_iff] at hb'
        obtain ⟨chk, hc, rfl⟩ := hb'
        rw [Verif.Serde.bitDe, Verif.Serde.innerDe, lift_panic, Serde.outcome_plain] at hx
        cases hi : S.bit d with
        | none => simp [hi] at hx
        | some n =>
          have := Generated.size_no_panic (fun _ => some n) _ chk hc []
          simp only [Size.parseStr, Size.parseV] at this
          simp only [hi] at hx
          cases hn : chk n <;> simp_all [custom]
      | length a =>
        simp only [deserialize, Option.map_eq_some_iff] at hb'
        obtain ⟨chk, hc, rfl⟩ := hb'
        rw [Verif.Serde.lengthDe, Verif.Serde.innerDe, lift_panic, Serde.outcome_plain] at hx
        cases hi : S.collection d with
        | none => simp [hi] at hx
        | some c =>
          have hacc : Length.accepts a.min a.max = true := by
            have := ho.2.2.2.2.2
            unfold Length.accepts
            split
            · rename_i m n e1 e2
              simpa using this m n e1 e2
            · rfl
          have := (Range.C21_length S.len a.min a.max chk hc hacc c).2.2.2.1
          simp only [Length.parseCollection] at this
          simp only [hi] at hx
          cases hn : chk (S.len c) <;> simp_all [custom]
      | basic w a =>
        simp only [asks, ite_eq_right_iff, reduceCtorEq, imp_false] at ha
        simp only [deserialize] at hb'
        split at hb' <;> cases hb'
        · exact absurd rfl ha
        · rw [Verif.Serde.jsonDe, lift_panic, Serde.outcome_plain] at hx
          cases hi : S.json d with
          | none => simp [hi] at hx
          | some r => cases r <;> simp [hi] at hx
        all_goals exact absurd (by simp [Endless]) he
      | _ => cases ha
  have hb' := integrate_de hb
  cases p with
  | email a =>
    simp only [deserialize, Option.map_eq_some_iff] at hb'
    obtain ⟨I, hI, rfl⟩ := hb'
    exact texts_panic L hu _ hp I hI _ d _ (str_behaves S.widen _ d)
  | hex w a =>
    simp only [deserialize, Option.map_eq_some_iff] at hb'
    obtain ⟨I, hI, rfl⟩ := hb'
    exact texts_panic L hu _ hp I hI _ d _ (str_behaves S.widen _ d)
  | utf8 w a =>
    simp only [deserialize, Option.map_eq_some_iff] at hb'
    obtain ⟨I, hI, rfl⟩ := hb'
    exact texts_panic L hu _ hp I hI _ d _ (string_behaves S.widen _ _ (fun s => (Generated.C71_entry_points L _ I hI s).1) d)
  | _ => exact none_panics (fun _ => id) id

/-- C76: a derived `FromFormField` and `FromParam` have the outcome of `parse_str`. -/
theorem C76_rocket (M : Macro τ φ κ) (L : Libs φ κ N U V ε) (S : SerdeLibs φ V ε) (p : Plan φ κ) (s : List Char) :
    (∀ f, (integrate M L S p).fromFormField = some f → ∃ I, generate L p = some I ∧ (∀ x, f s = .ok x ↔ I.parseStr s = .ok x) ∧
      (f s = .panic ↔ I.parseStr s = .panic)) ∧
    (∀ f, (integrate M L S p).fromParam = some f → ∃ I, generate L p = some I ∧ f s = I.parseStr s) := by
  constructor
  · intro f hf
    simp only [integrate] at hf
    split at hf
    · simp only [Option.map_eq_some_iff] at hf
      obtain ⟨I, hI, rfl⟩ := hf
      exact ⟨I, hI, fun x => custom_ok _ x, custom_panic _⟩
    · cases hf
  · intro f hf
    simp only [integrate] at hf
    split at hf
    · simp only [Option.map_eq_some_iff] at hf
      obtain ⟨I, hI, rfl⟩ := hf
      exact ⟨I, hI, rfl⟩
    · cases hf

/-- C76: so both accept exactly the strings that the attribute allows. -/
theorem C76_rocket_exact_partial (M : Macro τ φ κ) (ast : Input τ) (p : Plan φ κ) (h : derive M ast = .ok p) (L : Libs φ κ N U V ε)
    (S : SerdeLibs φ V ε) (hu : Spec.Url.HostsPresent L.url) (hm : ¬ LargestMax L.ptr p)
    (s : List Char) (x : Value φ κ N U V) :
    (∀ f, (integrate M L S p).fromFormField = some f → ((∃ y, f s = .ok y ∧ Same y x) ↔ Means L p s x)) ∧
    (∀ f, (integrate M L S p).fromParam = some f → ((∃ y, f s = .ok y ∧ Same y x) ↔ Means L p s x)) := by
  obtain ⟨h1, h2⟩ := C76_rocket M L S p s
  constructor
  · intro f hf
    obtain ⟨I, hI, e, -⟩ := h1 f hf
    simp only [e, Generated.C71_exact_partial M ast p h L hu I hI hm]
  · intro f hf
    obtain ⟨I, hI, e⟩ := h2 f hf
    simp only [e, Generated.C71_exact_partial M ast p h L hu I hI hm]

/-! Concrete cases. -/

/-- Floats that need no rounding, a collection and a `serde_json::Value` that are always the same. -/
def serdeLibs : SerdeLibs Int Unit Unit := ⟨id, id, fun _ => some 5, fun _ => some (.ok ()), fun _ => some (), fun _ => 3, 1000⟩

/-- A deserializer that has `e`, whatever it is asked for. -/
def always (e : Verif.Serde.Event (Fl Int) (Fl Int)) : Deserializer (Fl Int) (Fl Int) := ⟨true, fun _ => some e⟩

/-- `#[validator(unsigned_integer(range(Inside(min = 3)), serde(Deserialize), rocket(FromParam)))] struct S(u8);`. -/
example : ∃ p, derive Derive.full ⟨[Derive.attr (.list (some "unsigned_integer") (.metas [.list (some "range") (.one (.list (some "Inside")
      (.range ⟨some (some (.int (ascii "3"))), none, true⟩))), .list (some "serde") (.word "Deserialize"),
      .list (some "rocket") (.word "FromParam")]))], .struct (.unnamed ["u8"])⟩ = .ok p ∧
    Compiles p ∧ ¬ LargestMax Generated.libs.ptr p ∧ ¬ Endless p ∧ asks true p = some .any ∧
    (integrate Derive.full Generated.libs serdeLibs p).fromFormField.isSome = false ∧
    (∃ f, (integrate Derive.full Generated.libs serdeLibs p).fromParam = some f ∧ f "7".toList = .ok (.int 7)) ∧
    ∃ body, (integrate Derive.full Generated.libs serdeLibs p).deserialize = some body ∧ Outcome body (always (.int .u64 7)) (.ok (.int 7)) ∧
      Outcome body (always (.str "7".toList)) (.ok (.int 7)) ∧ Outcome body (always (.int .u64 2)) (.err ()) ∧
      Outcome body (always (.int .i64 7)) (.err ()) := by
  refine ⟨_, rfl, ?_, nofun, nofun, rfl, rfl, ⟨_, rfl, ?_⟩, _, rfl, ⟨1, ?_⟩, ⟨1, ?_⟩, ⟨1, ?_⟩, ⟨1, ?_⟩⟩
  · rintro ⟨b, l, h, e1, e2, e3, -⟩
    cases e2
  all_goals decide +kernel

/-- `#[validator(length(min = 2, max = 4))] struct S(Vec<u8>);`: three elements are read, no Rocket impls. -/
example : ∃ p, derive Derive.full ⟨[Derive.attr (.list (some "length") (.metas [.nameValue (some "min") (.lit (.int (ascii "2"))),
      .nameValue (some "max") (.lit (.int (ascii "4")))]))], .struct (.unnamed ["Vec<u8>"])⟩ = .ok p ∧ Compiles p ∧
    asks true p = none ∧ ¬ Endless p ∧ (integrate Derive.full Generated.libs serdeLibs p).fromParam.isSome = false ∧
    ∃ body, (integrate Derive.full Generated.libs serdeLibs p).deserialize = some body ∧ Outcome body (always (.bool true)) (.ok (.object ())) ∧
      Reads serdeLibs p (always (.bool true)) (.object () : Value Int Nat Unit Unit Unit) := by
  refine ⟨_, rfl, ?_, rfl, nofun, rfl, _, rfl, ⟨1, ?_⟩, rfl, ?_, ?_⟩
  · rintro ⟨n, h1, h2⟩
    cases h1
    cases h2
  · decide +kernel
  · intro m h
    cases h
    decide
  · intro m h
    cases h
    decide

/-- `#[validator(url)] struct S(url::Url);` is endless. -/
example : ∃ p, derive Derive.full ⟨[Derive.attr (.path (some "url"))], .struct (.unnamed ["url::Url"])⟩ = .ok p ∧ Endless p ∧
    (integrate Derive.full Generated.libs serdeLibs p).deserialize.isSome = true := ⟨_, rfl, .inr (.inr rfl), rfl⟩

end Verif.Props.Integrations
