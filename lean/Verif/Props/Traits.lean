import Verif.Proof.Traits

/-!
# C80: one input, whatever type it arrives in
-/

namespace Verif.Props.Traits

open Verif Verif.Attr Verif.Derive Verif.Generated Verif.Traits Verif.Integrations
open Verif.Spec.Generated Verif.Spec.Traits
open Verif.IntV (Ptr Width bits fits_mono bits_le)
open Verif.Spec.IntV (Fits)
open Verif.Number (Fl)
open Verif.BaseN (strBytes)
open Verif.Props.BaseN (Kind)
open Verif.Props.Generated (SizesOk sizesOk same_refl)

variable {τ φ κ N U V R ε : Type} [LinearOrder φ] [DecidableEq κ]

omit [LinearOrder φ] in
/-- C80: which inputs an item takes. Exactly for those in the table `Offers` there is a function `parse_*`, and a conversion into
`validators::Result`; except for `String` and `Vec<u8>` there is a function `validate_*`. -/
theorem C80_offered [Ord φ] (L : Libs φ κ N U V ε) (Z : NumLibs φ V R ε) (p : Plan φ κ) (T : Traits φ R (Error ε) (Value φ κ N U V))
    (hT : traits L Z p = some T) (x : Arg φ R) :
    ((parse Z L.ptr T x).isSome ↔ Offers p x) ∧ ((resultFrom Z L.ptr T x).isSome ↔ Offers p x) ∧
    ((validate Z L.ptr T x).isSome ↔ Offers p x ∧ ¬ Owned x) := by
  have key : ((parse Z L.ptr T x).isSome ↔ Offers p x) := by
    cases p with
    | base v a =>
      simp only [traits, Option.map_eq_some_iff] at hT
      obtain ⟨I, hI, rfl⟩ := hT
      rcases x with _ | _ | _ | _ | _ | _ | ⟨_ | _, _, _⟩ | _ | _ | _ <;> cases v <;> simp_all [parse, Offers, generate]
    | basic v a =>
      simp only [traits, Option.map_eq_some_iff] at hT
      obtain ⟨I, hI, rfl⟩ := hT
      rcases x with _ | _ | _ | _ | _ | _ | ⟨_ | _, _, _⟩ | _ | _ | _ <;> cases v <;> simp_all [parse, Offers, generate]
    | bit a =>
      simp only [traits, Option.bind_eq_some_iff, Option.map_eq_some_iff] at hT
      obtain ⟨I, hI, chk, hc, rfl⟩ := hT
      rcases x with _ | _ | _ | _ | _ | _ | ⟨_ | _, _, _⟩ | _ | _ | _ <;> simp [parse, Offers]
    | byte a =>
      simp only [traits, Option.bind_eq_some_iff, Option.map_eq_some_iff] at hT
      obtain ⟨I, hI, chk, hc, rfl⟩ := hT
      rcases x with _ | _ | _ | _ | _ | _ | ⟨_ | _, _, _⟩ | _ | _ | _ <;> simp [parse, Offers]
    | length a =>
      cases hT
      rcases x with _ | _ | _ | _ | _ | _ | ⟨_ | _, _, _⟩ | _ | _ | _ <;> simp [parse, Offers]
    | number d a =>
      simp only [traits, Option.bind_eq_some_iff, Option.map_eq_some_iff] at hT
      obtain ⟨I, hI, chk, hc, rfl⟩ := hT
      rcases x with _ | _ | _ | _ | _ | _ | ⟨_ | _, _, _⟩ | _ | _ | _ <;> simp [parse, Offers]
    | int signed w a =>
      simp only [traits, Option.bind_eq_some_iff, Option.map_eq_some_iff] at hT
      obtain ⟨I, hI, chk, hc, rfl⟩ := hT
      rcases x with _ | _ | _ | _ | _ | _ | ⟨_ | _, _, _⟩ | _ | _ | _ <;> cases signed <;> simp [parse, Offers]
    | _ =>
      simp only [traits, Option.map_eq_some_iff] at hT
      obtain ⟨I, hI, rfl⟩ := hT
      rcases x with _ | _ | _ | _ | _ | _ | ⟨_ | _, _, _⟩ | _ | _ | _ <;> simp [parse, Offers]
  refine ⟨key, ?_, ?_⟩
  · rw [← key]
    rcases x with _ | _ | _ | _ | _ | _ | ⟨_ | _, _ | _ | _ | _ | _ | _, _⟩ | _ | _ | _ <;> simp [parse, resultFrom]
  · rw [← key]
    rcases x with _ | _ | _ | _ | _ | _ | ⟨_ | _, _, _⟩ | _ | _ | _ <;> simp [parse, validate, Owned]

/-- C80: an item has its traits unless its `ValidateString` does not compile (C71, the finding about C17); a `length` has none of these
traits. -/
theorem C80_present (M : Macro τ φ κ) (ast : Input τ) (p : Plan φ κ) (h : derive M ast = .ok p) (L : Libs φ κ N U V ε)
    (hptr : L.ptr = M.ptr) (Z : NumLibs φ V R ε) : (traits L Z p).isSome ↔ HasImpl p ∨ ∃ a, p = .length a := by
  rw [← Generated.C71_has_impl M ast p h L hptr]
  have key : ∀ {A B C : Type} (o : Option A) (f : A → B) (g : B → A → C), ((o.map f).bind fun I => o.map (g I)).isSome ↔ (o.map f).isSome := by
    intro A B C o f g
    cases o <;> simp
  cases p with
  | bit a =>
    have e : (traits L Z (.bit a)).isSome ↔ (generate L (.bit a)).isSome := key (Size.check (sizes a.range)) _ _
    simpa using e
  | byte a =>
    have e : (traits L Z (.byte a)).isSome ↔ (generate L (.byte a)).isSome := key (Size.check (sizes a.range)) _ _
    simpa using e
  | number d a =>
    have e : (traits L Z (.number d a)).isSome ↔ (generate L (.number d a)).isSome := key (Number.check (numbers a.range)) _ _
    simpa using e
  | int signed w a =>
    have e : (traits L Z (.int signed w a)).isSome ↔ (generate L (.int signed w a)).isSome := key (IntV.check L.ptr signed w a.range) _ _
    simpa using e
  | length a => simp [traits]
  | _ => simp [traits]

omit [LinearOrder φ] in
theorem char_string [Ord φ] (L : Libs φ κ N U V ε) (Z : NumLibs φ V R ε) (p : Plan φ κ) (T : Traits φ R (Error ε) (Value φ κ N U V))
    (hT : traits L Z p = some T) (h : T.char.isSome) : T.string.isSome := by
  have h1 := (C80_offered L Z p T hT (.char 'a')).1
  have h2 := (C80_offered L Z p T hT (.str [])).1
  simp only [parse, Option.isSome_map, Offers] at h1 h2
  obtain ⟨a, rfl⟩ := h1.1 h
  exact h2.2 nofun

/-- C80: the same input gives the same outcome, value or error, whatever type it arrives in: a `&str`, a `String`, its bytes or (one
character) a `char`; an integer of any of the twelve types that can hold it; an `f32` or the same number as an `f64`. -/
theorem C80_same (L : Libs φ κ N U V ε) (Z : NumLibs φ V R ε) (hZ : Lawful Z) (p : Plan φ κ) (T : Traits φ R (Error ε) (Value φ κ N U V))
    (hT : traits L Z p = some T) (x y : Arg φ R) (hx : WellTyped L.ptr x) (hy : WellTyped L.ptr y) (ox : Offers p x) (oy : Offers p y)
    (h : Alike (content Z x) (content Z y)) : parse Z L.ptr T x = parse Z L.ptr T y := by
  obtain ⟨co, -⟩ := coherent L Z hZ p T hT
  have hc := char_string L Z p T hT
  obtain ⟨r, hr⟩ := Option.isSome_iff_exists.1 ((C80_offered L Z p T hT x).1.2 ox)
  obtain ⟨q, hq⟩ := Option.isSome_iff_exists.1 ((C80_offered L Z p T hT y).1.2 oy)
  have ar := parse_answer co hc x hx r hr
  have aq := parse_answer co hc y hy q hq
  rw [hr, hq, ← ar, ← aq]
  generalize content Z x = c at *
  generalize content Z y = d at *
  cases h with
  | refl => rfl
  | bytes s =>
    simp only [answer, Option.map_eq_some_iff] at ar aq ⊢
    obtain ⟨I, hI, -⟩ := ar
    obtain ⟨J, hJ, -⟩ := aq
    simp [hI, hJ, (co.bytes J hJ).2 I hI s]

/-- C80: a function `validate_*` has the outcome of `parse_*` without the value; except for texts and bytes of the decoding validators
(C07). -/
theorem C80_validate_partial (L : Libs φ κ N U V ε) (Z : NumLibs φ V R ε) (hZ : Lawful Z) (p : Plan φ κ) (T : Traits φ R (Error ε) (Value φ κ N U V))
    (hT : traits L Z p = some T) (x : Arg φ R) (hx : WellTyped L.ptr x) (hl : ¬ LooseValidate p x) (r : Out (Error ε) Unit)
    (hr : validate Z L.ptr T x = some r) : ∃ q, parse Z L.ptr T x = some q ∧ r = q.void := by
  obtain ⟨co, -⟩ := coherent L Z hZ p T hT
  rcases x with s | s | b | b | c | b | ⟨_ | _, w, i⟩ | f | f | v <;>
    simp only [validate, Option.map_eq_some_iff, reduceCtorEq] at hr <;>
    obtain ⟨I, hI, rfl⟩ := hr <;> refine ⟨_, by simp only [parse, hI]; rfl, ?_⟩
  · exact (co.string I hI s).2 fun h => hl ⟨h, .inl ⟨s, rfl⟩⟩
  · exact ((co.bytes I hI).1 b).2 fun h => hl ⟨h, .inr ⟨b, rfl⟩⟩
  · exact (co.char I hI).1 c
  · exact co.boolean I hI b
  · rw [(co.unsigned I hI).validate w i hx, ← (co.unsigned I hI).parse w i hx]
  · rw [(co.signed I hI).validate w i hx, ← (co.signed I hI).parse w i hx]
  · obtain ⟨h1, h2, -⟩ := co.number I hI f
    rw [h2, (co.number I hI _).2.2, ← h1]
  · exact (co.number I hI f).2.2
  · exact co.json I hI v

omit [LinearOrder φ] [DecidableEq κ] in
/-- C80: the conversions into `validators::Result` hold exactly the outcome of the function for that type. They do not fail, and panic
only where it does. -/
theorem C80_result (Z : NumLibs φ V R ε) (ptr : Ptr) {E A : Type} (T : Traits φ R E A) (x : Arg φ R) :
    (∀ v, resultFrom Z ptr T x = some (.ok (.ok v)) ↔ parse Z ptr T x = some (.ok v)) ∧
    (∀ e, resultFrom Z ptr T x = some (.ok (.error e)) ↔ parse Z ptr T x = some (.err e)) ∧
    (resultFrom Z ptr T x = some .panic ↔ parse Z ptr T x = some .panic) ∧ (∀ e, resultFrom Z ptr T x ≠ some (.err e)) ∧
    ∀ s, x = .str s → resultFromStr T s = resultFrom Z ptr T x := by
  have key : resultFrom Z ptr T x = (parse Z ptr T x).map wrapped := by
    rcases x with _ | _ | _ | _ | _ | _ | ⟨_ | _, _ | _ | _ | _ | _ | _, _⟩ | _ | _ | _ <;>
      simp only [resultFrom, parse, Option.map_map] <;> rfl
  rw [key]
  refine ⟨fun v => ?_, fun e => ?_, ?_, fun e => ?_, ?_⟩
  · cases parse Z ptr T x with
    | none => simp
    | some r => cases r <;> simp [wrapped]
  · cases parse Z ptr T x with
    | none => simp
    | some r => cases r <;> simp [wrapped]
  · cases parse Z ptr T x with
    | none => simp
    | some r => cases r <;> simp [wrapped]
  · cases parse Z ptr T x with
    | none => simp
    | some r => cases r <;> simp [wrapped]
  · rintro s rfl
    simp [resultFromStr, parse]
    rfl

/-! ## What is accepted -/

omit [LinearOrder φ] [DecidableEq κ] in
theorem same_eq {y x : Value φ κ N U V} (hy : ∀ m, y ≠ .phone m) : Same y x ↔ y = x := by
  unfold Same
  split
  · rename_i m n
    exact absurd rfl (hy _)
  · rfl

omit [LinearOrder φ] [DecidableEq κ] in
/-- For values other than phone numbers, "the same" is equality. -/
theorem ex_same {Q : Value φ κ N U V → Prop} (h : ∀ m, ¬ Q (.phone m)) (x : Value φ κ N U V) : (∃ y, Q y ∧ Same y x) ↔ Q x := by
  constructor
  · rintro ⟨y, hq, hs⟩
    rwa [← (same_eq (x := x) (y := y) (by rintro m rfl; exact h m hq)).1 hs]
  · exact fun hq => ⟨x, hq, same_refl x⟩

omit [LinearOrder φ] [DecidableEq κ] in
theorem some_named {E A : Type} (f : E → Error ε) (g : A → Value φ κ N U V) (r : Out E A) (y : Value φ κ N U V) :
    some (named f g r) = some (.ok y) ↔ ∃ a, r = .ok a ∧ y = g a := by
  rw [Option.some_inj, named_ok]

omit [LinearOrder φ] [DecidableEq κ] in
theorem json_ok (Z : NumLibs φ V R ε) (v : Json.Value (Fl φ) R) (y : Value φ κ N U V) :
    named (jsonError Z) .object (Json.parseValue Z.fromValue v) = .ok y ↔ ∃ d, Z.fromValue v = .ok d ∧ y = .object d := by
  rw [named_ok]
  unfold Json.parseValue
  cases Z.fromValue v <;> simp [eq_comm]

omit [DecidableEq κ] in
theorem accepts_text (L : Libs φ κ N U V ε) (Z : NumLibs φ V R ε) (K : Kind) (v : Validator) (hv : v ∈ [.base32, .base64, .base64_url])
    (hk : notationOf v = K.spec) (a : BaseAttribute) (b : List UInt8) (y : Value φ κ N U V) :
    (textBytes K.variant a : BytesImpl (Error ε) (Value φ κ N U V)).parseU8Slice b = .ok y ↔ Accepts L Z (.base v a) (.bytes b) y := by
  simp only [textBytes, named_ok, Integrations.slice_ok]
  have hd : v ∉ ([.base32_decoded, .base64_decoded, .base64_url_decoded] : List Validator) := by
    intro h
    simp at hv h
    rcases hv with rfl | rfl | rfl <;> simp at h
  constructor
  · rintro ⟨w, ⟨rfl, h⟩, rfl⟩
    exact ⟨hv, Integrations.strBytes_asciiText w (Integrations.ascii_pad K a.padding w h), by rwa [hk]⟩
  · intro h
    cases y with
    | text t =>
      obtain ⟨-, rfl, h⟩ := h
      rw [hk] at h
      exact ⟨_, ⟨rfl, h⟩, by rw [Integrations.asciiText_strBytes t (Integrations.ascii_pad K a.padding _ h)]⟩
    | bytes d => exact absurd h.1 hd
    | _ => exact h.elim

omit [DecidableEq κ] in
theorem accepts_decoded (L : Libs φ κ N U V ε) (Z : NumLibs φ V R ε) (K : Kind) (v : Validator)
    (hv : v ∈ [.base32_decoded, .base64_decoded, .base64_url_decoded]) (hk : notationOf v = K.spec) (a : BaseAttribute) (b : List UInt8)
    (y : Value φ κ N U V) :
    (decodedBytes K.variant K.encoding a : BytesImpl (Error ε) (Value φ κ N U V)).parseU8Slice b = .ok y ↔ Accepts L Z (.base v a) (.bytes b) y := by
  simp only [decodedBytes, named_ok, BaseN.C06_language]
  have hd : v ∉ ([.base32, .base64, .base64_url] : List Validator) := by
    intro h
    simp at hv h
    rcases hv with rfl | rfl | rfl <;> simp at h
  constructor
  · rintro ⟨w, h, rfl⟩
    exact ⟨hv, by rwa [hk]⟩
  · intro h
    cases y with
    | bytes d => exact ⟨d, by rw [← hk]; exact h.2, rfl⟩
    | text d => exact absurd h.1 hd
    | _ => exact h.elim

theorem accepts_bytes (L : Libs φ κ N U V ε) (Z : NumLibs φ V R ε) (p : Plan φ κ) (T : Traits φ R (Error ε) (Value φ κ N U V))
    (hT : traits L Z p = some T) (b : List UInt8) (o : ∃ v a, p = .base v a) (x : Value φ κ N U V) :
    answer T (.bytes b) = some (.ok x) ↔ Accepts L Z p (.bytes b) x := by
  obtain ⟨v, a, rfl⟩ := o
  simp only [traits, Option.map_eq_some_iff] at hT
  obtain ⟨I, hI, rfl⟩ := hT
  simp only [generate] at hI
  split at hI <;> cases hI <;> simp only [answer, Option.map_some, Option.some_inj]
  · exact accepts_text L Z .base32 .base32 (by decide) rfl a b x
  · exact accepts_decoded L Z .base32 .base32_decoded (by decide) rfl a b x
  · exact accepts_text L Z .base64 .base64 (by decide) rfl a b x
  · exact accepts_decoded L Z .base64 .base64_decoded (by decide) rfl a b x
  · exact accepts_text L Z .base64Url .base64_url (by decide) rfl a b x
  · exact accepts_decoded L Z .base64Url .base64_url_decoded (by decide) rfl a b x

theorem accepts_bool (L : Libs φ κ N U V ε) (Z : NumLibs φ V R ε) (p : Plan φ κ) (T : Traits φ R (Error ε) (Value φ κ N U V))
    (hT : traits L Z p = some T) (b : Bool) (o : ∃ v a, p = .basic v a ∧ (v = .boolean ∨ v = .json)) (x : Value φ κ N U V) :
    answer T (.bool b) = some (.ok x) ↔ Accepts L Z p (.bool b) x := by
  obtain ⟨v, a, rfl, rfl | rfl⟩ := o <;> cases hT <;> simp only [answer, Option.map_some, Option.some_inj]
  · simp only [booleanOne, Boolean.parseBool, named_ok]
    cases x <;> simp [Accepts, eq_comm]
  · simp only [jsonBool, Wrapper.C48_json_other Z.finite Z.fromValue b none |>.1, json_ok]
    cases x <;> simp [Accepts, eq_comm]

theorem accepts_json (L : Libs φ κ N U V ε) (Z : NumLibs φ V R ε) (p : Plan φ κ) (T : Traits φ R (Error ε) (Value φ κ N U V))
    (hT : traits L Z p = some T) (v : Json.Value (Fl φ) R) (o : ∃ a, p = .basic .json a) (x : Value φ κ N U V) :
    answer T (.json v) = some (.ok x) ↔ Accepts L Z p (.json v) x := by
  obtain ⟨a, rfl⟩ := o
  cases hT
  simp only [answer, Option.map_some, Option.some_inj, jsonValue, json_ok]
  cases x <;> simp [Accepts, eq_comm]

theorem accepts_float (L : Libs φ κ N U V ε) (Z : NumLibs φ V R ε) (hZ : Lawful Z) (p : Plan φ κ) (T : Traits φ R (Error ε) (Value φ κ N U V))
    (hT : traits L Z p = some T) (f : Fl φ) (o : (∃ a, p = .basic .json a) ∨ ∃ d a, p = .number d a)
    (hr : ∀ a, p = .number false a → ∃ g, Z.widen g = f) (x : Value φ κ N U V) :
    answer T (.float f) = some (.ok x) ↔ Accepts L Z p (.float f) x := by
  rcases o with ⟨a, rfl⟩ | ⟨d, a, rfl⟩
  · cases hT
    simp only [answer, Option.map_some, Option.some_inj, jsonFloat]
    obtain ⟨-, h1, h2⟩ := Wrapper.C48_json_other Z.finite Z.fromValue true f
    cases hf : Z.finite f
    · rw [h2 hf, json_ok]
      cases x <;> simp [Accepts, eq_comm, hf]
    · rw [h1 hf, json_ok]
      cases x <;> simp [Accepts, eq_comm, hf]
  · simp only [traits, Option.bind_eq_some_iff, Option.map_eq_some_iff] at hT
    obtain ⟨I, hI, chk, hc, rfl⟩ := hT
    simp only [answer, Option.map_some, Option.some_inj, numberFloat]
    cases d
    · obtain ⟨g, rfl⟩ := hr a rfl
      simp only [Bool.false_eq_true, if_false, named_ok, hZ.narrow]
      have hinj : ∀ h, Z.widen h = Z.widen g ↔ h = g := fun h =>
        ⟨fun e => by rw [← hZ.narrow h, e, hZ.narrow], fun e => by rw [e]⟩
      constructor
      · rintro ⟨h, hp, rfl⟩
        obtain ⟨rfl, hp⟩ := (Integrations.float_ok a chk hc g h).1 hp
        exact ⟨rfl, hp⟩
      · intro h
        cases x <;> simp only [Accepts] at h
        obtain ⟨h1, h2⟩ := h
        have := (hinj _).1 h1
        subst this
        exact ⟨_, (Integrations.float_ok a chk hc _ _).2 ⟨rfl, h2⟩, rfl⟩
    · simp only [if_true, named_ok]
      constructor
      · rintro ⟨h, hp, rfl⟩
        obtain ⟨rfl, hp⟩ := (Integrations.float_ok a chk hc f h).1 hp
        exact ⟨rfl, hp⟩
      · intro h
        cases x <;> simp only [Accepts, if_true] at h
        obtain ⟨rfl, h2⟩ := h
        exact ⟨_, (Integrations.float_ok a chk hc _ _).2 ⟨rfl, h2⟩, rfl⟩

omit [LinearOrder φ] [DecidableEq κ] in
theorem accepts_size (maxSize : Nat) (b : Range.Bounds Int) (hb : (∀ v, b.min = some v → 0 ≤ v) ∧ ∀ v, b.max = some v → 0 ≤ v)
    (chk : Nat → Out Range.RangeError Unit) (hc : Size.check (sizes b) = some chk) (i : Int) (hi : 0 ≤ i) (x : Value φ κ N U V) :
    (sizeInt maxSize chk : IntImpl (Error ε) (Value φ κ N U V)).parse.m128 i = .ok x ↔
      ∃ n : Nat, x = .size n ∧ i = n ∧ n ≤ maxSize ∧ Spec.Range.Contains b i := by
  simp only [sizeInt, named_ok]
  obtain ⟨n, rfl⟩ := Int.eq_ofNat_of_zero_le hi
  have h := (Range.C19_integer_entry maxSize _ chk hc n).2.2
  constructor
  · rintro ⟨m, hm, rfl⟩
    obtain ⟨rfl, h1, h2⟩ := (h m).1 hm
    exact ⟨_, rfl, rfl, h1, (Generated.contains_toNat b hb _).1 h2⟩
  · rintro ⟨m, rfl, h0, h1, h2⟩
    have : n = m := Int.ofNat_inj.1 h0
    subst this
    exact ⟨_, (h _).2 ⟨rfl, h1, (Generated.contains_toNat b hb _).2 h2⟩, rfl⟩

theorem accepts_int (L : Libs φ κ N U V ε) (Z : NumLibs φ V R ε) (p : Plan φ κ) (hp : SizesOk p) (T : Traits φ R (Error ε) (Value φ κ N U V))
    (hT : traits L Z p = some T) (signed : Bool) (w : Width) (i : Int) (hi : Fits signed (bits L.ptr w) i)
    (o : Offers (R := R) p (.int signed w i)) (x : Value φ κ N U V) :
    answer T (.int i) = some (.ok x) ↔ Accepts L Z p (.int i) x := by
  rcases o with ⟨v, a, rfl, rfl | rfl⟩ | ⟨t, a, rfl⟩ | ⟨rfl, ⟨a, rfl⟩ | ⟨a, rfl⟩⟩
  · cases hT
    simp only [answer, Option.some_or, Option.map_some, Option.some_inj, booleanInt, named_ok]
    obtain ⟨h1, h2, -⟩ := Boolean.C22_int i
    constructor
    · rintro ⟨_ | _, h, rfl⟩
      · exact ⟨rfl, h2.1 h⟩
      · exact ⟨rfl, h1.1 h⟩
    · intro h
      cases x <;> simp only [Accepts] at h
      · rename_i c
        refine ⟨c, ?_, rfl⟩
        cases c
        · exact h2.2 h.2
        · exact h1.2 h.2
      · cases h.1
  · cases hT
    simp only [answer, Option.some_or, Option.map_some, Option.some_inj, jsonInt]
    obtain ⟨h1, h2⟩ := Wrapper.C48_json_integers Z.fromValue L.ptr signed .w128 i (fits_mono signed _ _ (bits_le L.ptr w) i hi)
    simp only [Json.parseW] at h1 h2
    by_cases hr : -2 ^ 63 ≤ i ∧ i < 2 ^ 64
    · rw [h1 hr, json_ok]
      cases x <;> simp only [Accepts, hr.1, hr.2, true_and, reduceCtorEq, and_false, exists_false, false_and]
      simp [Wrapper.jsonInt]
    · rw [(h2 hr).2, named_ok]
      simp only [reduceCtorEq, false_and, exists_false, false_iff]
      intro h
      cases x <;> simp only [Accepts] at h
      · cases h.1
      · exact hr ⟨h.2.1, h.2.2.1⟩
  · simp only [traits, Option.bind_eq_some_iff, Option.map_eq_some_iff] at hT
    obtain ⟨I, hI, chk, hc, rfl⟩ := hT
    have key : answer (if signed = true then ({ string := some I, signed := some (intInt chk L.ptr true t) } : Traits φ R _ _)
        else { string := some I, unsigned := some (intInt chk L.ptr false t) }) (.int i) =
        some (named (fun e => .int (.range e)) .int ((intMethods (IntV.ownParse chk) L.ptr signed t).m128 i)) := by
      cases signed <;> rfl
    rw [key, Option.some_inj, named_ok]
    simp only [int_accepts L.ptr signed t w a.range chk hc i _ hi]
    constructor
    · rintro ⟨j, ⟨rfl, h1, h2⟩, rfl⟩
      exact ⟨rfl, h1, h2⟩
    · intro h
      cases x <;> simp only [Accepts] at h
      exact ⟨_, h, rfl⟩
  · simp only [traits, Option.bind_eq_some_iff, Option.map_eq_some_iff] at hT
    obtain ⟨I, hI, chk, hc, rfl⟩ := hT
    have h0 : 0 ≤ i := by simp [Fits] at hi; exact hi.1
    simp only [answer, Option.none_or, Option.map_some, Option.some_inj]
    rw [accepts_size Z.maxBit a.range hp chk hc i h0 x]
    cases x <;> simp [Accepts]
  · simp only [traits, Option.bind_eq_some_iff, Option.map_eq_some_iff] at hT
    obtain ⟨I, hI, chk, hc, rfl⟩ := hT
    have h0 : 0 ≤ i := by simp [Fits] at hi; exact hi.1
    simp only [answer, Option.none_or, Option.map_some, Option.some_inj]
    rw [accepts_size Z.maxByte a.range hp chk hc i h0 x]
    cases x <;> simp [Accepts]

omit [DecidableEq κ] in
theorem not_phone (L : Libs φ κ N U V ε) (Z : NumLibs φ V R ε) (p : Plan φ κ) (c : Content φ R) (hc : ∀ s, c ≠ .text s) (m : Phone.Value κ N) :
    ¬ Accepts L Z p c (.phone m) := by
  cases c with
  | text s => exact absurd rfl (hc s)
  | _ => cases p <;> simp [Accepts]

/-- C80: an input that an item takes is accepted exactly when the attribute allows it, and what is kept is the input itself: the same
integer, boolean, number or text. Missing: an `f64` that is not an `f32`, for a validator of `f32` (`Rounded`, C80_rounds); and for texts
the findings of C71. -/
theorem C80_accepts_partial (M : Macro τ φ κ) (ast : Input τ) (p : Plan φ κ) (h : derive M ast = .ok p) (L : Libs φ κ N U V ε)
    (hu : Spec.Url.HostsPresent L.url) (hm : ¬ LargestMax L.ptr p) (Z : NumLibs φ V R ε) (hZ : Lawful Z)
    (T : Traits φ R (Error ε) (Value φ κ N U V)) (hT : traits L Z p = some T) (x : Arg φ R) (hx : WellTyped L.ptr x) (ox : Offers p x)
    (hr : ¬ Rounded Z p x) (v : Value φ κ N U V) :
    (∃ w, parse Z L.ptr T x = some (.ok w) ∧ Same w v) ↔ Accepts L Z p (content Z x) v := by
  obtain ⟨co, hs⟩ := coherent L Z hZ p T hT
  have ha := parse_answer co (char_string L Z p T hT) x hx
  obtain ⟨r, hq⟩ := Option.isSome_iff_exists.1 ((C80_offered L Z p T hT x).1.2 ox)
  have hsz : SizesOk p := by
    obtain ⟨v, a, m, ps, -, -, -, ho, -⟩ := Generated.C71_written M ast p h
    exact sizesOk M v ps p ho
  rw [hq, ← ha r hq]
  have text : ∀ s, (T.string.isSome) → ((∃ w, answer T (.text s) = some (.ok w) ∧ Same w v) ↔ Accepts L Z p (.text s) v) := by
    intro s hi
    obtain ⟨I, hI⟩ := Option.isSome_iff_exists.1 hi
    simp only [answer, hI, Option.map_some, Option.some_inj]
    exact Generated.C71_exact_partial M ast p h L hu I (hs ▸ hI) hm s v
  have other : ∀ c, (∀ s, c ≠ .text s) → (∀ w, answer T c = some (.ok w) ↔ Accepts L Z p c w) →
      ((∃ w, answer T c = some (.ok w) ∧ Same w v) ↔ Accepts L Z p c v) := by
    intro c hc hw
    rw [ex_same (fun m hq => not_phone L Z p c hc m ((hw _).1 hq)), hw]
  cases x with
  | str s => exact text s (by simpa [parse] using (C80_offered L Z p T hT (.str s)).1.2 ox)
  | string s => exact text s (by simpa [parse] using (C80_offered L Z p T hT (.string s)).1.2 ox)
  | char c => exact text [c] (char_string L Z p T hT (by simpa [parse] using (C80_offered L Z p T hT (.char c)).1.2 ox))
  | slice b => exact other _ nofun (accepts_bytes L Z p T hT b ox)
  | vec b => exact other _ nofun (accepts_bytes L Z p T hT b ox)
  | bool b => exact other _ nofun (accepts_bool L Z p T hT b ox)
  | int signed w i => exact other _ nofun (accepts_int L Z p hsz T hT signed w i hx ox)
  | f32 f => exact other _ nofun (accepts_float L Z hZ p T hT _ ox (fun _ _ => ⟨f, rfl⟩))
  | f64 f =>
    refine other _ nofun (accepts_float L Z hZ p T hT _ ox fun a e => ?_)
    by_contra hn
    exact hr ⟨a, f, e, rfl, fun g hg => hn ⟨g, hg⟩⟩
  | value u => exact other _ nofun (accepts_json L Z p T hT u ox)

/-! ## What is refused, and why -/

omit [LinearOrder φ] [DecidableEq κ] in
theorem named_err {E E' A A' : Type} (f : E → E') (g : A → A') (r : Out E A) (y : E') :
    named f g r = .err y ↔ ∃ a, r = .err a ∧ y = f a := by
  cases r <;> simp [named, mapErr, Out.map, eq_comm]

omit [LinearOrder φ] [DecidableEq κ] in
theorem named_panic {E E' A A' : Type} (f : E → E') (g : A → A') (r : Out E A) : named f g r = .panic ↔ r = .panic := by
  cases r <;> simp [named, mapErr, Out.map]

omit [LinearOrder φ] [DecidableEq κ] in
theorem json_err (Z : NumLibs φ V R ε) (v : Json.Value (Fl φ) R) (e : Error ε) :
    (named (jsonError Z) (.object : V → Value φ κ N U V) (Json.parseValue Z.fromValue v) = .err e ↔ ∃ d, Z.fromValue v = .error d ∧ e = .lib d) ∧
    named (jsonError Z) (.object : V → Value φ κ N U V) (Json.parseValue Z.fromValue v) ≠ .panic := by
  rw [named_err, Ne, named_panic]
  unfold Json.parseValue
  cases Z.fromValue v <;> simp [eq_comm, jsonError]

omit [LinearOrder φ] [DecidableEq κ] in
/-- The check of an integer validator fails as `RangeFault` says. -/
theorem int_fault (ptr : Ptr) (signed : Bool) (w : Width) (r : Range.RangeOption Int) (chk : Int → Out Range.RangeError Unit)
    (h : IntV.check ptr signed w r = some chk) (x : Int) (e : Range.RangeError) : chk x = .err e ↔ RangeFault r x e := by
  cases r with
  | inside b =>
    obtain ⟨-, h1, h2, h3, -⟩ := Range.C14_inside ptr signed w b chk h x
    cases e <;> simp [RangeFault, *]
  | outside b =>
    obtain ⟨-, h1, h2, h3, -⟩ := Range.C14_outside ptr signed w b chk h x
    cases e <;> simp [RangeFault, *]
  | unlimited =>
    rw [Range.C14_unlimited ptr signed w chk h x]
    cases e <;> simp [RangeFault]

omit [LinearOrder φ] [DecidableEq κ] in
theorem below_toNat (b : Range.Bounds Int) (hb : (∀ v, b.min = some v → 0 ≤ v) ∧ ∀ v, b.max = some v → 0 ≤ v) (n : Nat) :
    (Spec.Range.BelowMin (sizes b) n ↔ Spec.Range.BelowMin b (n : Int)) ∧ (Spec.Range.AboveMax (sizes b) n ↔ Spec.Range.AboveMax b (n : Int)) := by
  obtain ⟨mi, ma, inc⟩ := b
  constructor
  · cases mi with
    | none => simp [Spec.Range.BelowMin, sizes]
    | some m =>
      have := hb.1 m rfl
      simp only [Spec.Range.BelowMin, sizes, Option.map_some, Option.some_inj, exists_eq_left']
      omega
  · cases ma with
    | none => simp [Spec.Range.AboveMax, sizes]
    | some m =>
      have := hb.2 m rfl
      simp only [Spec.Range.AboveMax, sizes, Option.map_some, Option.some_inj, exists_eq_left']
      have h1 : m.toNat < n ↔ m < n := by omega
      have h2 : n = m.toNat ↔ (n : Int) = m := by omega
      rw [h1, h2]

omit [LinearOrder φ] [DecidableEq κ] in
theorem size_fault (b : Range.Bounds Int) (hb : (∀ v, b.min = some v → 0 ≤ v) ∧ ∀ v, b.max = some v → 0 ≤ v)
    (chk : Nat → Out Range.RangeError Unit) (h : Size.check (sizes b) = some chk) (n : Nat) (e : Range.RangeError) :
    (chk n = .err e ↔ RangeFault (.inside b) (n : Int) e) ∧ chk n ≠ .panic := by
  obtain ⟨h1, h2, h3⟩ := Range.size_outcome (sizes b) chk h n
  obtain ⟨b1, b2⟩ := below_toNat b hb n
  rcases Range.contains_or (sizes b) n with hc | hl | ⟨hl, ha⟩
  · have hnb : ¬ Spec.Range.BelowMin (sizes b) n := fun hl => Range.not_contains_of_below (sizes b) n hl hc
    have hna : ¬ Spec.Range.AboveMax (sizes b) n := fun ha => Range.not_contains_of_above (sizes b) n ha hc
    rw [b1] at hnb
    rw [b2] at hna
    rw [h3 hc]
    cases e <;> simp [RangeFault, hnb, hna]
  · rw [h1 hl]
    rw [b1] at hl
    cases e <;> simp [RangeFault, hl]
  · rw [h2 hl ha]
    rw [b1] at hl
    rw [b2] at ha
    cases e <;> simp [RangeFault, hl, ha]

omit [DecidableEq κ] in
theorem float_fault (a : NumberAttribute φ) (chk : Fl φ → Out Range.RangeError Unit) (hc : Number.check (numbers a.range) = some chk)
    (f : Fl φ) (e : Number.NumberError) :
    (Number.parseF chk a.nan f = .err e ↔ FloatFault a.range a.nan f e) ∧ Number.parseF chk a.nan f ≠ .panic := by
  have hc' : Number.check (Range.floats a.range) = some chk := by
    rw [← hc]
    cases a.range <;> rfl
  refine ⟨?_, Integrations.float_no_panic a chk hc f⟩
  cases f with
  | none =>
    have h1 := Range.C20_nan a.range a.nan chk hc'
    by_cases hn : a.nan = .disallow
    · rw [h1.2.2 hn]
      cases e <;> simp [FloatFault, hn]
    · rw [h1.1.2 hn]
      cases e <;> simp [FloatFault, hn]
  | some x =>
    obtain ⟨h1, h2, h3, h4, h5, -⟩ := Range.C20_number_errors a.range a.nan chk hc' x
    cases e with
    | parseFloat =>
      simp only [FloatFault, iff_false]
      unfold Number.parseF Number.checkNan
      intro h
      split at h <;> try simp at h
      all_goals split at h <;> simp at h
    | range e => cases e <;> simp [FloatFault, RangeFault, *]
    | nanMust => simpa [FloatFault] using h4
    | nanDisallow => simpa [FloatFault] using h5

theorem rejects_int (L : Libs φ κ N U V ε) (Z : NumLibs φ V R ε) (p : Plan φ κ) (hp : SizesOk p) (T : Traits φ R (Error ε) (Value φ κ N U V))
    (hT : traits L Z p = some T) (signed : Bool) (w : Width) (i : Int) (hi : Fits signed (bits L.ptr w) i)
    (o : Offers (R := R) p (.int signed w i)) (e : Error ε) :
    (answer T (.int i) = some (.err e) ↔ Rejects L.ptr Z p (.int i) e) ∧ answer T (.int i) ≠ some .panic := by
  have sized : ∀ (maxSize : Nat) (b : Range.Bounds Int) (_ : (∀ v, b.min = some v → 0 ≤ v) ∧ ∀ v, b.max = some v → 0 ≤ v)
      (chk : Nat → Out Range.RangeError Unit) (_ : Size.check (sizes b) = some chk) (_ : 0 ≤ i),
      ((sizeInt maxSize chk : IntImpl (Error ε) (Value φ κ N U V)).parse.m128 i = .err e ↔
        ∃ d, e = .size (.range d) ∧ if i ≤ maxSize then RangeFault (.inside b) i d else d = .tooLarge) ∧
      (sizeInt maxSize chk : IntImpl (Error ε) (Value φ κ N U V)).parse.m128 i ≠ .panic := by
    intro maxSize b hb chk hc h0
    obtain ⟨n, rfl⟩ := Int.eq_ofNat_of_zero_le h0
    have hf := fun d => size_fault b hb chk hc n d
    simp only [sizeInt, named_err, Ne, named_panic, Int.toNat_natCast, Size.parseU128, Int.ofNat_le]
    split
    · simp only [← (hf _).1, Size.parseV]
      have hp := (hf .tooSmall).2
      cases hx : chk n with
      | ok u => simp
      | err d => simp [eq_comm]
      | panic => exact absurd hx hp
    · simp
  rcases o with ⟨v, a, rfl, rfl | rfl⟩ | ⟨t, a, rfl⟩ | ⟨rfl, ⟨a, rfl⟩ | ⟨a, rfl⟩⟩
  · cases hT
    simp only [answer, Option.some_or, Option.map_some, Option.some_inj, booleanInt, named_err, Ne, named_panic]
    obtain ⟨h1, h2, h3⟩ := Boolean.C22_int i
    constructor
    · cases e <;> simp [Rejects, h3]
    · unfold Boolean.parseInt
      split
      · simp
      · split <;> simp
  · cases hT
    simp only [answer, Option.some_or, Option.map_some, Option.some_inj, jsonInt, Ne]
    obtain ⟨h1, h2⟩ := Wrapper.C48_json_integers Z.fromValue L.ptr signed .w128 i (fits_mono signed _ _ (bits_le L.ptr w) i hi)
    simp only [Json.parseW] at h1 h2
    by_cases hr : -2 ^ 63 ≤ i ∧ i < 2 ^ 64
    · rw [h1 hr]
      refine ⟨?_, (json_err Z _ e).2⟩
      rw [(json_err Z _ e).1]
      cases e with
      | lib d =>
        simp only [Rejects, if_pos hr, Wrapper.jsonInt]
        simp
      | _ => simp [Rejects]
    · rw [(h2 hr).2]
      simp only [named_err, named_panic, reduceCtorEq, not_false_eq_true, and_true, Out.err.injEq, exists_eq_left', jsonError]
      cases e with
      | lib d =>
        simp only [Rejects, if_neg hr]
        simp
      | _ => simp [Rejects]
  · simp only [traits, Option.bind_eq_some_iff, Option.map_eq_some_iff] at hT
    obtain ⟨I, hI, chk, hc, rfl⟩ := hT
    have key : answer (if signed = true then ({ string := some I, signed := some (intInt chk L.ptr true t) } : Traits φ R _ _)
        else { string := some I, unsigned := some (intInt chk L.ptr false t) }) (.int i) =
        some (named (fun e => .int (.range e)) .int ((intMethods (IntV.ownParse chk) L.ptr signed t).m128 i)) := by
      cases signed <;> rfl
    have h128 : Fits signed 128 i := fits_mono signed _ _ (bits_le L.ptr w) i hi
    obtain ⟨c1, c2, c3, c4, c5⟩ := Range.C17_no_truncation L.ptr signed t .w128 a.range chk hc i h128
    have e0 : (intMethods (IntV.ownParse chk) L.ptr signed t).m128 i = IntV.parseW chk L.ptr signed t .w128 i := rfl
    rw [key, Option.some_inj, named_err, Ne, Option.some_inj, named_panic, e0]
    refine ⟨?_, c5⟩
    by_cases hf : Fits signed (bits L.ptr t) i
    · simp only [c1 hf, int_fault L.ptr signed t a.range chk hc i]
      cases e with
      | int d => cases d <;> simp [Rejects, hf]
      | _ => simp [Rejects]
    · have hd : IntV.maxOf signed (bits L.ptr t) < i ∧ ¬ i < 0 ∨ i < IntV.minOf signed (bits L.ptr t) ∧ i < 0 := by
        have := IntV.fits_iff signed (bits L.ptr t) i
        cases signed
        · have h0 : 0 ≤ i := by simp [Fits] at hi; exact hi.1
          have : IntV.minOf false (bits L.ptr t) = 0 := by simp [IntV.minOf]
          rw [IntV.fits_iff] at hf
          omega
        · have h1 : IntV.minOf true (bits L.ptr t) ≤ 0 := by
            have : (0 : Int) < 2 ^ (bits L.ptr t - 1) := Int.pow_pos (by decide)
            simp only [IntV.minOf, if_true]
            omega
          have h2 : 0 ≤ IntV.maxOf true (bits L.ptr t) := by
            simp only [IntV.maxOf]
            have : (0 : Int) < 2 ^ (bits L.ptr t - 1) := Int.pow_pos (by decide)
            simp
            omega
          rw [IntV.fits_iff] at hf
          omega
      rcases hd with ⟨hd, hn⟩ | ⟨hd, hn⟩
      · rw [c3 hd]
        cases e with
        | int d => cases d <;> simp [Rejects, hf, hn, eq_comm]
        | _ => simp [Rejects]
      · rw [c4 hd]
        cases e with
        | int d => cases d <;> simp [Rejects, hf, hn, eq_comm]
        | _ => simp [Rejects]
  · simp only [traits, Option.bind_eq_some_iff, Option.map_eq_some_iff] at hT
    obtain ⟨I, hI, chk, hc, rfl⟩ := hT
    have h0 : 0 ≤ i := by simp [Fits] at hi; exact hi.1
    simp only [answer, Option.none_or, Option.map_some, Option.some_inj, Ne]
    refine ⟨?_, (sized Z.maxBit a.range hp chk hc h0).2⟩
    rw [(sized Z.maxBit a.range hp chk hc h0).1]
    cases e with
    | size d => cases d <;> simp [Rejects]
    | _ => simp [Rejects]
  · simp only [traits, Option.bind_eq_some_iff, Option.map_eq_some_iff] at hT
    obtain ⟨I, hI, chk, hc, rfl⟩ := hT
    have h0 : 0 ≤ i := by simp [Fits] at hi; exact hi.1
    simp only [answer, Option.none_or, Option.map_some, Option.some_inj, Ne]
    refine ⟨?_, (sized Z.maxByte a.range hp chk hc h0).2⟩
    rw [(sized Z.maxByte a.range hp chk hc h0).1]
    cases e with
    | size d => cases d <;> simp [Rejects]
    | _ => simp [Rejects]

theorem rejects_float (L : Libs φ κ N U V ε) (Z : NumLibs φ V R ε) (hZ : Lawful Z) (p : Plan φ κ) (T : Traits φ R (Error ε) (Value φ κ N U V))
    (hT : traits L Z p = some T) (f : Fl φ) (o : (∃ a, p = .basic .json a) ∨ ∃ d a, p = .number d a)
    (hr : ∀ a, p = .number false a → ∃ g, Z.widen g = f) (e : Error ε) :
    (answer T (.float f) = some (.err e) ↔ Rejects L.ptr Z p (.float f) e) ∧ answer T (.float f) ≠ some .panic := by
  rcases o with ⟨a, rfl⟩ | ⟨d, a, rfl⟩
  · cases hT
    simp only [answer, Option.map_some, Option.some_inj, jsonFloat, Ne]
    obtain ⟨-, h1, h2⟩ := Wrapper.C48_json_other Z.finite Z.fromValue true f
    cases hf : Z.finite f
    · rw [h2 hf, (json_err Z _ e).1]
      refine ⟨?_, (json_err Z _ e).2⟩
      cases e <;> simp [Rejects, hf]
    · rw [h1 hf, (json_err Z _ e).1]
      refine ⟨?_, (json_err Z _ e).2⟩
      cases e <;> simp [Rejects, hf]
  · simp only [traits, Option.bind_eq_some_iff, Option.map_eq_some_iff] at hT
    obtain ⟨I, hI, chk, hc, rfl⟩ := hT
    simp only [answer, Option.map_some, Option.some_inj, numberFloat, Ne]
    cases d
    · obtain ⟨g, rfl⟩ := hr a rfl
      have hinj : ∀ h, Z.widen h = Z.widen g ↔ h = g := fun h =>
        ⟨fun e => by rw [← hZ.narrow h, e, hZ.narrow], fun e => by rw [e]⟩
      simp only [Bool.false_eq_true, if_false, named_err, named_panic, hZ.narrow, (float_fault a chk hc g _).1]
      refine ⟨?_, (float_fault a chk hc g .nanMust).2⟩
      cases e <;> simp [Rejects, hinj]
    · simp only [if_true, named_err, named_panic, (float_fault a chk hc f _).1]
      refine ⟨?_, (float_fault a chk hc f .nanMust).2⟩
      cases e <;> simp [Rejects]

/-- C80: an input other than a text or bytes (for these see C04, C06 and C71 to C74) that an item takes is refused with exactly the error
that says what is wrong with it, and never causes a panic. Missing: `Rounded`, as in C80_accepts_partial. -/
theorem C80_errors_partial (M : Macro τ φ κ) (ast : Input τ) (p : Plan φ κ) (h : derive M ast = .ok p) (L : Libs φ κ N U V ε)
    (Z : NumLibs φ V R ε) (hZ : Lawful Z) (T : Traits φ R (Error ε) (Value φ κ N U V)) (hT : traits L Z p = some T) (x : Arg φ R)
    (hx : WellTyped L.ptr x) (ox : Offers p x) (hr : ¬ Rounded Z p x) (ht : ∀ s, content Z x ≠ .text s) (hb : ∀ b, content Z x ≠ .bytes b) :
    (∀ e, parse Z L.ptr T x = some (.err e) ↔ Rejects L.ptr Z p (content Z x) e) ∧ parse Z L.ptr T x ≠ some .panic := by
  obtain ⟨co, hs⟩ := coherent L Z hZ p T hT
  have ha := parse_answer co (char_string L Z p T hT) x hx
  obtain ⟨r, hq⟩ := Option.isSome_iff_exists.1 ((C80_offered L Z p T hT x).1.2 ox)
  have hsz : SizesOk p := by
    obtain ⟨v, a, m, ps, -, -, -, ho, -⟩ := Generated.C71_written M ast p h
    exact sizesOk M v ps p ho
  rw [hq, ← ha r hq]
  suffices H : ∀ e, (answer T (content Z x) = some (.err e) ↔ Rejects L.ptr Z p (content Z x) e) ∧ answer T (content Z x) ≠ some .panic from
    ⟨fun e => (H e).1, (H .boolean).2⟩
  intro e
  cases x with
  | str s => exact absurd rfl (ht s)
  | string s => exact absurd rfl (ht s)
  | char c => exact absurd rfl (ht [c])
  | slice b => exact absurd rfl (hb b)
  | vec b => exact absurd rfl (hb b)
  | bool b =>
    obtain ⟨v, a, rfl, rfl | rfl⟩ := ox <;> cases hT <;> simp only [content, answer, Option.map_some, Option.some_inj, Ne]
    · simp only [booleanOne, Boolean.parseBool, named_err, named_panic]
      cases e <;> simp [Rejects]
    · simp only [jsonBool, Wrapper.C48_json_other Z.finite Z.fromValue b none |>.1]
      refine ⟨?_, (json_err Z _ e).2⟩
      rw [(json_err Z _ e).1]
      cases e <;> simp [Rejects]
  | int signed w i => exact rejects_int L Z p hsz T hT signed w i hx ox e
  | f32 f => exact rejects_float L Z hZ p T hT _ ox (fun _ _ => ⟨f, rfl⟩) e
  | f64 f =>
    refine rejects_float L Z hZ p T hT _ ox (fun a ep => ?_) e
    by_contra hn
    exact hr ⟨a, f, ep, rfl, fun g hg => hn ⟨g, hg⟩⟩
  | value u =>
    obtain ⟨a, rfl⟩ := ox
    cases hT
    simp only [content, answer, Option.map_some, Option.some_inj, jsonValue, Ne]
    refine ⟨?_, (json_err Z _ e).2⟩
    rw [(json_err Z _ e).1]
    cases e <;> simp [Rejects]

/-- C80: for a text that is a numeral of `i`, an integer validator says the same as for `i` itself, in any type. -/
theorem C80_numeral (M : Macro τ φ κ) (ast : Input τ) (L : Libs φ κ N U V ε) (Z : NumLibs φ V R ε) (hZ : Lawful Z) (hu : Spec.Url.HostsPresent L.url)
    (signed : Bool) (t : Width) (a : RangeAttribute Int) (h : derive M ast = .ok (.int signed t a)) (T : Traits φ R (Error ε) (Value φ κ N U V))
    (hT : traits L Z (.int signed t a) = some T) (w : Width) (i : Int) (hi : Fits signed (bits L.ptr w) i) (s : List Char)
    (hs : Spec.IntV.Numeral signed (strBytes s) i) (v : Value φ κ N U V) :
    parse Z L.ptr T (.str s) = some (.ok v) ↔ parse Z L.ptr T (.int signed w i) = some (.ok v) := by
  have hd : ∀ (x : Arg φ R) (hx : WellTyped L.ptr x) (ox : Offers (.int signed t a : Plan φ κ) x) (hr : ¬ Rounded Z (.int signed t a : Plan φ κ) x)
      (c : Content φ R) (_ : content Z x = c) (v), parse Z L.ptr T x = some (.ok v) ↔ Accepts L Z (.int signed t a) c v := by
    intro x hx ox hr c hc v
    subst hc
    have key := C80_accepts_partial M ast _ h L hu nofun Z hZ T hT x hx ox hr
    have np : ∀ m, ¬ parse Z L.ptr T x = some (.ok (.phone m)) := fun m hm => by
      have := (key (.phone m)).1 ⟨_, hm, same_refl _⟩
      revert this
      cases content Z x <;> simp [Accepts, Means]
    rw [← key v, ex_same (Q := fun y => parse Z L.ptr T x = some (.ok y)) np]
  rw [hd (.str s) trivial nofun (by rintro ⟨_, _, e, -⟩; cases e) (.text s) rfl,
    hd (.int signed w i) hi (.inr (.inl ⟨t, a, rfl⟩)) (by rintro ⟨_, _, e, -⟩; cases e) (.int i) rfl]
  cases v <;> simp only [Accepts, Means]
  constructor
  · rintro ⟨h1, h2⟩
    have f1 := (IntV.fromStr_ok signed 128 _ _).2 ⟨h1, fits_mono signed _ _ (bits_le L.ptr t) _ h2.1⟩
    have f2 := (IntV.fromStr_ok signed 128 _ _).2 ⟨hs, fits_mono signed _ _ (bits_le L.ptr w) _ hi⟩
    rw [f1] at f2
    cases f2
    exact ⟨rfl, h2⟩
  · rintro ⟨rfl, h2⟩
    exact ⟨hs, h2⟩

/-! ## Boolean numerals -/

theorem digit_words (t : List UInt8) (h : ∀ b ∈ t, b ∈ Spec.IntV.decDigits ∨ b = asc '-')
    (hw : t.map Spec.Boolean.lower ∈ Spec.Boolean.trueWords ∨ t.map Spec.Boolean.lower ∈ Spec.Boolean.falseWords) :
    t = ascii "1" ∨ t = ascii "0" := by
  have low : ∀ b : UInt8, (b ∈ Spec.IntV.decDigits ∨ b = asc '-') → Spec.Boolean.lower b = b := by
    apply BaseN.forall_uint8
    decide +kernel
  have e : t.map Spec.Boolean.lower = t := by
    conv_rhs => rw [← List.map_id t]
    exact List.map_congr_left fun b hb => low b (h b hb)
  rw [e] at hw
  have words : ∀ w ∈ Spec.Boolean.trueWords ++ Spec.Boolean.falseWords, (∀ b ∈ w, b ∈ Spec.IntV.decDigits ∨ b = asc '-') →
      w = ascii "1" ∨ w = ascii "0" := by
    decide +kernel
  exact words t (List.mem_append.2 hw) h

theorem show_digits (i : Int) : ∀ b ∈ IntV.showInt i, b ∈ Spec.IntV.decDigits ∨ b = asc '-' := by
  intro b hb
  unfold IntV.showInt at hb
  split at hb
  · rcases List.mem_cons.1 hb with rfl | hb
    · exact .inr rfl
    · exact .inl (IntV.showNat_digits _ b hb)
  · exact .inl (IntV.showNat_digits _ b hb)

theorem show_one (i : Int) (d : Nat) (t : List UInt8) (h : IntV.showInt i = t) (hd : Spec.IntV.decValue t = d) (hm : t.head? ≠ some (asc '-')) :
    i = d := by
  unfold IntV.showInt at h
  split at h
  · subst h
    exact absurd rfl hm
  · have := IntV.showNat_value i.natAbs
    rw [h, hd] at this
    omega

/-- C80: for a `boolean`, an integer written in decimal (as `to_string` does) says the same as the integer itself, in any type. -/
theorem C80_boolean (L : Libs φ κ N U V ε) (Z : NumLibs φ V R ε) (hZ : Lawful Z) (a : BasicAttribute) (T : Traits φ R (Error ε) (Value φ κ N U V))
    (hT : traits L Z (.basic .boolean a) = some T) (signed : Bool) (w : Width) (i : Int) (hi : Fits signed (bits L.ptr w) i) (s : List Char)
    (hs : strBytes s = IntV.showInt i) : parse Z L.ptr T (.str s) = parse Z L.ptr T (.int signed w i) := by
  obtain ⟨co, -⟩ := coherent L Z hZ _ T hT
  obtain ⟨r, hr⟩ := Option.isSome_iff_exists.1 ((C80_offered L Z _ T hT (.int signed w i)).1.2 (.inl ⟨_, _, rfl, .inl rfl⟩))
  have ar := parse_answer co (char_string L Z _ T hT) (.int signed w i) hi r hr
  rw [hr, ← ar]
  cases hT
  have key : Boolean.parseStr (strBytes s) = Boolean.parseInt i := by
    rw [hs]
    obtain ⟨w1, w2, w3, -⟩ := Boolean.C22_words (IntV.showInt i)
    obtain ⟨i1, i2, i3⟩ := Boolean.C22_int i
    by_cases h0 : i = 0
    · subst h0
      rw [i2.2 rfl]
      decide +kernel
    by_cases h1 : i = 1
    · subst h1
      rw [i1.2 rfl]
      decide +kernel
    rw [i3.2 ⟨h0, h1⟩, w3]
    have no : ¬ ((IntV.showInt i).map Spec.Boolean.lower ∈ Spec.Boolean.trueWords ∨ (IntV.showInt i).map Spec.Boolean.lower ∈ Spec.Boolean.falseWords) := by
      intro hw
      rcases digit_words _ (show_digits i) hw with e | e
      · exact h1 (show_one i 1 _ e (by decide +kernel) (by decide +kernel))
      · exact h0 (show_one i 0 _ e (by decide +kernel) (by decide +kernel))
    exact not_or.1 no
  simp only [parse, content, answer, Option.map_some, Option.some_or, booleanInt]
  rw [← key]
  rfl

/-! ## The finding -/

/-- C80: an `f64` given to a validator of `f32` is rounded first, and it is the rounded number that is compared with the bounds and
kept. -/
theorem C80_rounds (L : Libs φ κ N U V ε) (Z : NumLibs φ V R ε) (a : NumberAttribute φ) (T : Traits φ R (Error ε) (Value φ κ N U V))
    (hT : traits L Z (.number false a) = some T) (f : Fl φ) (v : Value φ κ N U V) :
    parse Z L.ptr T (.f64 f) = some (.ok v) ↔ v = .number (Z.narrow f) ∧ FloatOk a.range a.nan (Z.narrow f) := by
  simp only [traits, Option.bind_eq_some_iff, Option.map_eq_some_iff] at hT
  obtain ⟨I, hI, chk, hc, rfl⟩ := hT
  simp only [parse, Option.map_some, Option.some_inj, numberFloat, Bool.false_eq_true, if_false, named_ok, Integrations.float_ok a chk hc]
  constructor
  · rintro ⟨g, ⟨rfl, h⟩, rfl⟩
    exact ⟨rfl, h⟩
  · rintro ⟨rfl, h⟩
    exact ⟨_, ⟨rfl, h⟩, rfl⟩

/-- C80 fails: an `f64` that is not an `f32` is accepted whenever the number it is rounded to is, and what is kept is then another
number than the one given. -/
theorem C80_violated (L : Libs φ κ N U V ε) (Z : NumLibs φ V R ε) (a : NumberAttribute φ) (T : Traits φ R (Error ε) (Value φ κ N U V))
    (hT : traits L Z (.number false a) = some T) (f : Fl φ) (hf : ∀ g, Z.widen g ≠ f) (h : FloatOk a.range a.nan (Z.narrow f)) :
    (∃ v, parse Z L.ptr T (.f64 f) = some (.ok v)) ∧ ∀ v, ¬ Accepts L Z (.number false a) (content Z (.f64 f)) v := by
  refine ⟨⟨_, (C80_rounds L Z a T hT f _).2 ⟨rfl, h⟩⟩, fun v hv => ?_⟩
  cases v <;> simp only [content, Accepts] at hv
  exact hf _ hv.1

/-! ### The hypotheses are met -/

/-- Libraries of numbers: an `f32` is an even `f64`, and the odd ones are rounded down. -/
def numLibs : NumLibs Int Unit Unit Unit where
  maxBit := 2 ^ 64 - 1
  maxByte := 2 ^ 64 - 1
  fromValue := fun
    | .null => .error ()
    | _ => .ok ()
  outOfRange := ()
  finite := Option.isSome
  widen := Option.map (2 * ·)
  narrow := Option.map (· / 2)

theorem lawful : Lawful numLibs := by
  refine ⟨by decide, by decide, fun f => ?_⟩
  cases f with
  | none => rfl
  | some n =>
    simp only [numLibs, Option.map_some, Option.some_inj]
    omega

/-- `#[validator(number(range(Inside(max = 5))))] struct S(f32);`, and the `f64` 11 (the largest `f32` allowed is 10). -/
example : ∃ p, derive Derive.full ⟨[Derive.attr (.list (some "number") (.metas [.list (some "range") (.one (.list (some "Inside")
      (.range ⟨none, some (some (.int (ascii "5"))), false⟩)))]))], .struct (.unnamed ["f32"])⟩ = .ok p ∧
    ∃ T, traits Generated.libs numLibs p = some T ∧ parse numLibs .p64 T (.f64 (some 11)) = some (.ok (.number (some 5))) ∧
      (∀ g, numLibs.widen g ≠ some 11) ∧ Rounded numLibs p (.f64 (some 11)) ∧
      parse numLibs .p64 T (.f64 (some 12)) = some (.err (.number (.range .tooLarge))) := by
  have hw : ∀ g, numLibs.widen g ≠ some 11 := by
    rintro (_ | n) h
    · cases h
    · simp only [numLibs, Option.map_some, Option.some_inj] at h
      omega
  exact ⟨_, rfl, _, rfl, by decide +kernel, hw, ⟨_, _, rfl, rfl, hw⟩, by decide +kernel⟩

/-- `#[validator(boolean)] struct S(bool);`: six ways to say true, and an integer and its text that are refused. -/
example : ∃ p, derive Derive.full ⟨[Derive.attr (.path (some "boolean"))], .struct (.unnamed ["bool"])⟩ = .ok p ∧
    ∃ T, traits Generated.libs numLibs p = some T ∧
      (∀ x ∈ [Arg.str ['1'], .string ['1'], .char '1', .bool true, .int true .w8 1, .int false .size 1],
        Offers p x ∧ WellTyped .p64 x ∧ parse numLibs .p64 T x = some (.ok (.bool true))) ∧
      parse numLibs .p64 T (.str ['-', '1']) = some (.err .boolean) ∧ parse numLibs .p64 T (.int true .w16 (-1)) = some (.err .boolean) ∧
      strBytes ['-', '1'] = IntV.showInt (-1) ∧ validate numLibs .p64 T (.int true .w16 (-1)) = some (.err .boolean) ∧
      resultFrom numLibs .p64 T (.char 'y') = some (.ok (.ok (.bool true))) := by
  refine ⟨_, rfl, _, rfl, ?_, by decide +kernel, by decide +kernel, by decide +kernel, by decide +kernel, by decide +kernel⟩
  intro x hx
  simp only [List.mem_cons, List.not_mem_nil, or_false] at hx
  rcases hx with rfl | rfl | rfl | rfl | rfl | rfl <;> simp [Offers, WellTyped, Fits, bits] <;> decide +kernel

/-- `#[validator(unsigned_integer(range(Inside(max = 200))))] struct S(u8);`. -/
example : ∃ p, derive Derive.full ⟨[Derive.attr (.list (some "unsigned_integer") (.metas [.list (some "range") (.one (.list (some "Inside")
      (.range ⟨none, some (some (.int (ascii "200"))), false⟩)))]))], .struct (.unnamed ["u8"])⟩ = .ok p ∧
    ∃ T, traits Generated.libs numLibs p = some T ∧
      parse numLibs .p64 T (.int false .w8 200) = some (.ok (.int 200)) ∧ parse numLibs .p64 T (.int false .w128 200) = some (.ok (.int 200)) ∧
      parse numLibs .p64 T (.int false .w128 (2 ^ 64 + 200)) = some (.err (.int (.range .tooLarge))) ∧
      parse numLibs .p64 T (.str "+0200".toList) = some (.ok (.int 200)) ∧ Spec.IntV.Numeral false (strBytes "+0200".toList) 200 := by
  refine ⟨_, rfl, _, rfl, by decide +kernel, by decide +kernel, by decide +kernel, by decide +kernel, ascii "0200", by decide, by decide, .inl ⟨.inr ?_, by decide⟩⟩
  decide +kernel

/-- `#[validator(base64_decoded)] struct S(Vec<u8>);`: a text and its bytes. -/
example : ∃ p, derive Derive.full ⟨[Derive.attr (.path (some "base64_decoded"))], .struct (.unnamed ["Vec<u8>"])⟩ = .ok p ∧
    ∃ T, traits Generated.libs numLibs p = some T ∧ parse numLibs .p64 T (.str "YWI=".toList) = some (.ok (.bytes (ascii "ab"))) ∧
      parse numLibs .p64 T (.vec (ascii "YWI=")) = some (.ok (.bytes (ascii "ab"))) ∧
      Alike (content numLibs (.str "YWI=".toList)) (content numLibs (.vec (ascii "YWI="))) ∧ LooseValidate p (.str (φ := Int) (R := Unit) []) :=
  ⟨_, rfl, _, rfl, by decide +kernel, by decide +kernel, .bytes _, by simp [LooseValidate, Decoded]⟩

/-- `#[validator(json)] struct S(Data);`: an integer beyond 64 bits and a number that is none are refused. -/
example : ∃ p, derive Derive.full ⟨[Derive.attr (.path (some "json"))], .struct (.unnamed ["Data"])⟩ = .ok p ∧
    ∃ T, traits Generated.libs numLibs p = some T ∧ parse numLibs .p64 T (.int true .w128 (-2 ^ 63)) = some (.ok (.object ())) ∧
      parse numLibs .p64 T (.int true .w128 (-2 ^ 63 - 1)) = some (.err (.lib ())) ∧ parse numLibs .p64 T (.f32 none) = some (.err (.lib ())) :=
  ⟨_, rfl, _, rfl, by decide +kernel, by decide +kernel, by decide +kernel⟩

end Verif.Props.Traits
