import Verif.Spec.Integrations
import Verif.Props.Generated
import Verif.Props.Serde

/-!
# Lemmas about the generated integrations (C76)
-/

namespace Verif.Props.Integrations

open Verif Verif.Attr Verif.Derive Verif.Generated Verif.Integrations Verif.Spec.Generated Verif.Spec.Integrations
open Verif.Serde (Body Deserializer Hint run custom plain)
open Verif.Spec.Serde (Outcome Finishes reply texts textsOrBytes textsOrInts textsOrFloats textsBoolsOrInts dataOf WellTyped)
open Verif.Number (Fl)
open Verif.BaseN (strBytes)
open Verif.Props.Serde (reply_ok)
open Verif.Props.BaseN (Kind)
open Verif.Props.Generated (SizesOk sizesOk meaning)

variable {τ φ κ N U V ε : Type} [LinearOrder φ] [DecidableEq κ]

section
variable {F G α β : Type}

theorem lift_ok (g : α → β) (f : Deserializer F G → Out Unit α) (d : Deserializer F G) (x : β) :
    Outcome (lift g (plain f)) d (.ok x) ↔ ∃ v, Outcome (plain f) d (.ok v) ∧ x = g v := by
  have : lift g (plain f) = plain fun d => (f d).map g := rfl
  rw [this, Serde.outcome_plain]
  simp only [Serde.outcome_plain]
  cases f d <;> simp [Out.map]

theorem lift_panic (g : α → β) (f : Deserializer F G → Out Unit α) (d : Deserializer F G) :
    Outcome (lift g (plain f)) d .panic ↔ Outcome (plain f) d .panic := by
  have : lift g (plain f) = plain fun d => (f d).map g := rfl
  rw [this, Serde.outcome_plain, Serde.outcome_plain]
  cases f d <;> simp [Out.map]

theorem lift_finishes (g : α → β) (f : Deserializer F G → Out Unit α) (d : Deserializer F G) : Finishes (lift g (plain f)) d :=
  ⟨_, (Serde.outcome_plain (fun d => (f d).map g) d _).2 rfl⟩

theorem reply_panic {ε α : Type} {parse : Verif.Spec.Serde.Data F G → Option (Out ε α)} {hint : Hint} {d : Deserializer F G} :
    reply parse hint d = .panic ↔ ∃ e, d.feed hint = some e ∧ parse (dataOf e) = some .panic := by
  unfold reply
  cases d.feed hint with
  | none => simp
  | some e =>
    cases hp : parse (dataOf e) with
    | none => simp [hp]
    | some o => cases o <;> simp [hp]

theorem asciiText_strBytes (s : List Char) (h : ∀ b ∈ strBytes s, b.toNat < 128) : asciiText (strBytes s) = s := by
  induction s with
  | nil => rfl
  | cons c s ih =>
    have hs : strBytes (c :: s) = String.utf8EncodeChar c ++ strBytes s := rfl
    rw [hs] at h ⊢
    have hc : c.toNat < 128 := by
      by_contra hn
      obtain ⟨b, t, hb, hb', -⟩ := Utf8.encode_wide (Nat.le_of_not_lt hn)
      exact absurd (h b (List.mem_append_left _ (by simp [hb]))) (by omega)
    rw [Utf8.encode_ascii hc]
    have := ih fun b hb => h b (List.mem_append_right _ hb)
    unfold asciiText at this ⊢
    rw [List.cons_append, List.nil_append, List.map_cons, this]
    congr 1
    have : (asc c).toNat = c.toNat := by
      simp [asc, UInt8.toNat_ofNat']
      omega
    rw [this]
    exact Char.ofNat_toNat c

theorem strBytes_asciiText (b : List UInt8) (h : ∀ x ∈ b, x.toNat < 128) : strBytes (asciiText b) = b := by
  have key : ∀ n : Fin 128, String.utf8EncodeChar (Char.ofNat n.val) = [UInt8.ofNat n.val] := by decide +kernel
  induction b with
  | nil => rfl
  | cons x b ih =>
    have hx := key ⟨x.toNat, h x (by simp)⟩
    have hs : strBytes (asciiText (x :: b)) = String.utf8EncodeChar (Char.ofNat x.toNat) ++ strBytes (asciiText b) := rfl
    rw [hs, ih fun y hy => h y (List.mem_cons_of_mem _ hy)]
    simp only at hx
    rw [hx]
    simp

/-- What is deserialized is what `P` makes of the data. -/
def Behaves {ε : Type} (body : Body F G α) (P : Verif.Spec.Serde.Data F G → Option (Out ε α)) (h : Hint) (d : Deserializer F G) : Prop :=
  ∀ o, Outcome body d o ↔ o = reply P h d

theorem lift_behaves {ε : Type} (g : α → β) (f : Deserializer F G → Out Unit α) (P : Verif.Spec.Serde.Data F G → Option (Out ε α)) (h : Hint)
    (d : Deserializer F G) (hb : Behaves (plain f) P h d) : Behaves (lift g (plain f)) (fun x => (P x).map (Out.map g)) h d := by
  have hf : f d = reply P h d := (hb _).1 ((Serde.outcome_plain ..).2 rfl)
  have : lift g (plain f) = plain fun d => (f d).map g := rfl
  intro o
  rw [this, Serde.outcome_plain, hf]
  refine Eq.congr rfl ?_
  unfold reply
  cases d.feed h with
  | none => rfl
  | some e =>
    simp only [Option.bind_some]
    cases P (dataOf e) with
    | none => rfl
    | some r => cases r <;> rfl

end

abbrev Dat (φ : Type) := Verif.Spec.Serde.Data (Fl φ) (Fl φ)

/-- An integer is a value of its type. -/
def InRange : Dat φ → Prop
  | .int ty x => Spec.IntV.Fits (Spec.Serde.IsSigned ty) (Spec.Serde.bitsOf ty) x
  | _ => True

omit [LinearOrder φ] in
theorem inRange {d : Deserializer (Fl φ) (Fl φ)} (hd : WellTyped d) {h : Hint} {e : Verif.Serde.Event (Fl φ) (Fl φ)} (he : d.feed h = some e) :
    InRange (dataOf e) := by
  cases e with
  | int ty x => exact hd h ty x he
  | _ => trivial

/-- `P` is what is meant. -/
structure Right (L : Libs φ κ N U V ε) (S : SerdeLibs φ V ε) (p : Plan φ κ) (P : Dat φ → Option (Out Unit (Value φ κ N U V))) : Prop where
  sound : ∀ x, InRange x → ∀ v, P x = some (.ok v) → Takes L S p x v
  complete : ∀ x, InRange x → ∀ v, Takes L S p x v → ∃ w, P x = some (.ok w) ∧ Same w v
  panics : ∀ x, InRange x → P x = some .panic → ∃ s I, x = .text s ∧ generate L p = some I ∧ I.parseStr s = .panic

theorem Right.of {L : Libs φ κ N U V ε} {S : SerdeLibs φ V ε} {p : Plan φ κ} {P : Dat φ → Option (Out Unit (Value φ κ N U V))}
    (h1 : ∀ x, InRange x → ∀ v, P x = some (.ok v) → Takes L S p x v)
    (h2 : ∀ x, InRange x → ∀ v, Takes L S p x v → P x = some (.ok v))
    (h3 : ∀ x, InRange x → P x = some .panic → ∃ s I, x = .text s ∧ generate L p = some I ∧ I.parseStr s = .panic) : Right L S p P :=
  ⟨h1, fun x hx v h => ⟨v, h2 x hx v h, Generated.same_refl v⟩, h3⟩

theorem custom_ok {E A : Type} (r : Out E A) (v : A) : custom r = .ok v ↔ r = .ok v := by cases r <;> simp [custom]
theorem custom_panic {E A : Type} (r : Out E A) : custom r = .panic ↔ r = .panic := by cases r <;> simp [custom]

theorem reply_custom {F G E A : Type} (P : Verif.Spec.Serde.Data F G → Option (Out E A)) (h : Hint) (d : Deserializer F G) :
    reply P h d = reply (fun x => (P x).map custom) h d := by
  unfold reply
  cases d.feed h with
  | none => rfl
  | some e =>
    simp only [Option.bind_some]
    cases P (dataOf e) with
    | none => rfl
    | some r => cases r <;> rfl

theorem behaves_custom {F G E A : Type} {body : Body F G A} {P : Verif.Spec.Serde.Data F G → Option (Out E A)} {h : Hint} {d : Deserializer F G}
    (hb : Behaves body P h d) : Behaves body (fun x => (P x).map custom) h d := by
  intro o
  rw [hb o, reply_custom]

/-- The validators that know texts only. -/
theorem right_texts (L : Libs φ κ N U V ε) (S : SerdeLibs φ V ε) (hu : Spec.Url.HostsPresent L.url) (p : Plan φ κ) (hp : SizesOk p)
    (I : Impl (Error ε) (Value φ κ N U V)) (hI : generate L p = some I) (hm : ¬ LargestMax L.ptr p)
    (hq : ∀ x v, (∀ s, x ≠ .text s) → ¬ Takes L S p x v) : Right L S p fun x => (texts I.parseStr x).map custom := by
  refine ⟨?_, ?_, ?_⟩
  · intro x _ v h
    cases x <;> simp only [texts, Option.map_none, Option.map_some, Option.some.injEq, custom_ok, reduceCtorEq] at h
    exact (meaning L hu p hp I hI hm _ v).1 h
  · intro x _ v h
    by_cases hx : ∃ s, x = .text s
    · obtain ⟨s, rfl⟩ := hx
      simp only [texts, Option.map_some, Option.some.injEq, custom_ok]
      exact (meaning L hu p hp I hI hm _ v).2 h
    · exact absurd h (hq x v fun s e => hx ⟨s, e⟩)
  · intro x _ h
    cases x <;> simp only [texts, Option.map_none, Option.map_some, Option.some.injEq, custom_panic, reduceCtorEq] at h
    exact ⟨_, I, rfl, hI, h⟩

theorem str_behaves {F G E A : Type} (widen : G → F) (p : List Char → Out E A) (d : Deserializer F G) :
    Behaves (Verif.Serde.strDe widen p) (fun x => (texts p x).map custom) .str d :=
  behaves_custom fun o => by rw [← Serde.str_eq widen]; exact Serde.outcome_plain _ d o

theorem string_behaves {F G E A : Type} (widen : G → F) (p q : List Char → Out E A) (e : ∀ s, q s = p s) (d : Deserializer F G) :
    Behaves (Verif.Serde.stringDe widen p q) (fun x => (texts p x).map custom) .string d := by
  have : q = p := funext e
  subst this
  exact behaves_custom fun o => by rw [← Serde.string_eq widen]; exact Serde.outcome_plain _ d o

theorem domain_behaves {F G E A : Type} (widen : G → F) (p q : List Char → Out E A) (e : ∀ s, q s = p s) (d : Deserializer F G) :
    Behaves (Verif.Serde.domainDe widen p q) (fun x => (texts p x).map custom) .any d := by
  have : q = p := funext e
  subst this
  exact behaves_custom fun o => by rw [← Serde.string_eq widen]; exact Serde.outcome_plain _ d o

theorem ascii_pad (K : Kind) (pad : TriAllow) (b : List UInt8) (h : Spec.BaseN.Accepts K.spec pad b) : ∀ x ∈ b, x.toNat < 128 := by
  obtain ⟨w, hw⟩ := (BaseN.C01_parse_u8_slice_language K pad b).2 h
  have h1 := (BaseN.C02_accepted_bytes_ascii K pad b w (.inl hw)).1
  have : w = b := by
    unfold BaseN.parseU8Slice at hw
    cases hc : BaseN.check K.variant pad b <;> simp [hc] at hw
    exact hw.symm
  rwa [← this]

theorem slice_ok (K : Kind) (pad : TriAllow) (b w : List UInt8) :
    BaseN.parseU8Slice K.variant pad b = .ok w ↔ w = b ∧ Spec.BaseN.Accepts K.spec pad b := by
  rw [← BaseN.C01_parse_u8_slice_language]
  constructor
  · intro h
    have : w = b := by
      unfold BaseN.parseU8Slice at h
      cases hc : BaseN.check K.variant pad b <;> simp [hc] at h
      exact h.symm
    exact ⟨this, w, h⟩
  · rintro ⟨rfl, v, h⟩
    have : v = w := by
      unfold BaseN.parseU8Slice at h
      cases hc : BaseN.check K.variant pad w <;> simp [hc] at h
      exact h.symm
    rw [h, this]

omit [DecidableEq κ] in
theorem right_text (L : Libs φ κ N U V ε) (S : SerdeLibs φ V ε) [DecidableEq κ] (K : Kind) (v : Validator) (a : BaseAttribute)
    (hv : v ∈ [Validator.base32, .base64, .base64_url]) (hk : notationOf v = K.spec) (d : Deserializer (Fl φ) (Fl φ)) :
    ∃ P, Behaves (lift (fun b => Value.text (asciiText b)) (Verif.Serde.baseDe S.widen K.variant a.padding)) P .any d ∧
      Right (κ := κ) (N := N) (U := U) L S (.base v a) P := by
  have hvd : v ∉ [Validator.base32_decoded, .base64_decoded, .base64_url_decoded] := by
    revert hv
    cases v <;> decide
  refine ⟨_, behaves_custom (lift_behaves (fun b => Value.text (asciiText b)) _ _ _ d
    (fun o => Serde.C49_base S.widen K a.padding d o)), Right.of ?_ ?_ ?_⟩
  · intro x _ v h
    cases x with
    | text s =>
      simp only [textsOrBytes, Option.map_some, Option.some.injEq, custom_ok, (BaseN.C03_entry_points_agree K a.padding s _ rfl).2.2.1] at h
      cases hs : BaseN.parseU8Slice K.variant a.padding (strBytes s) <;> simp only [hs, Out.map, reduceCtorEq, Out.ok.injEq] at h
      obtain ⟨e, h5⟩ := (slice_ok ..).1 hs
      subst h e
      rw [asciiText_strBytes s (ascii_pad K _ _ h5)]
      exact ⟨hv, rfl, hk ▸ h5⟩
    | bytes b =>
      simp only [textsOrBytes, Option.map_some, Option.some.injEq, custom_ok] at h
      cases hs : BaseN.parseU8Slice K.variant a.padding b <;> simp only [hs, Out.map, reduceCtorEq, Out.ok.injEq] at h
      obtain ⟨rfl, hs⟩ := (slice_ok ..).1 hs
      subst h
      exact ⟨hv, strBytes_asciiText _ (ascii_pad K _ _ hs), hk ▸ hs⟩
    | _ => simp [textsOrBytes] at h
  · intro x _ y h
    cases x with
    | text s =>
      simp only [textsOrBytes, Option.map_some, Option.some.injEq, custom_ok, (BaseN.C03_entry_points_agree K a.padding s _ rfl).2.2.1]
      cases y <;> simp only [Takes, Means, hvd, false_and] at h
      obtain ⟨-, rfl, h⟩ := h
      rw [hk] at h
      rw [(slice_ok ..).2 ⟨rfl, h⟩]
      simp only [Out.map]
      rw [asciiText_strBytes _ (ascii_pad K _ _ h)]
    | bytes b =>
      simp only [textsOrBytes, Option.map_some, Option.some.injEq, custom_ok]
      cases y <;> simp only [Takes, hvd, false_and] at h
      obtain ⟨-, rfl, h⟩ := h
      rw [hk] at h
      rw [(slice_ok ..).2 ⟨rfl, h⟩]
      simp only [Out.map]
      rw [asciiText_strBytes _ (ascii_pad K _ _ h)]
    | _ => cases y <;> simp [Takes] at h
  · intro x _ h
    cases x with
    | text s =>
      simp only [textsOrBytes, Option.map_some, Option.some.injEq, custom_panic, (BaseN.C03_entry_points_agree K a.padding s _ rfl).2.2.1] at h
      have := BaseN.C01_no_panic K a.padding (strBytes s)
      cases hs : BaseN.parseU8Slice K.variant a.padding (strBytes s) <;> simp_all [Out.map]
    | bytes b =>
      simp only [textsOrBytes, Option.map_some, Option.some.injEq, custom_panic] at h
      have := BaseN.C01_no_panic K a.padding b
      cases hs : BaseN.parseU8Slice K.variant a.padding b <;> simp_all [Out.map]
    | _ => simp [textsOrBytes] at h

omit [DecidableEq κ] in
theorem right_decoded (L : Libs φ κ N U V ε) (S : SerdeLibs φ V ε) [DecidableEq κ] (K : Kind) (v : Validator) (a : BaseAttribute)
    (hv : v ∈ [Validator.base32_decoded, .base64_decoded, .base64_url_decoded]) (hk : notationOf v = K.spec) (d : Deserializer (Fl φ) (Fl φ)) :
    ∃ P, Behaves (lift Value.bytes (Verif.Serde.decodedDe S.widen K.encoding a.padding)) P .any d ∧
      Right (κ := κ) (N := N) (U := U) L S (.base v a) P := by
  have hvd : v ∉ [Validator.base32, .base64, .base64_url] := by
    revert hv
    cases v <;> decide
  refine ⟨_, behaves_custom (lift_behaves Value.bytes _ _ _ d (fun o => Serde.C49_base_decoded S.widen K a.padding d o)), Right.of ?_ ?_ ?_⟩
  · intro x _ v h
    cases x with
    | text s =>
      simp only [textsOrBytes, Option.map_some, Option.some.injEq, custom_ok] at h
      cases hs : BaseN.decodedParse K.encoding a.padding (strBytes s) <;> simp only [hs, Out.map, reduceCtorEq, Out.ok.injEq] at h
      subst h
      exact ⟨hv, hk ▸ (BaseN.C06_language ..).1 hs⟩
    | bytes b =>
      simp only [textsOrBytes, Option.map_some, Option.some.injEq, custom_ok] at h
      cases hs : BaseN.decodedParse K.encoding a.padding b <;> simp only [hs, Out.map, reduceCtorEq, Out.ok.injEq] at h
      subst h
      exact ⟨hv, hk ▸ (BaseN.C06_language ..).1 hs⟩
    | _ => simp [textsOrBytes] at h
  · intro x _ y h
    cases x with
    | text s =>
      simp only [textsOrBytes, Option.map_some, Option.some.injEq, custom_ok]
      cases y <;> simp only [Takes, Means, hvd, false_and] at h
      rw [hk] at h
      rw [(BaseN.C06_language ..).2 h.2]
      rfl
    | bytes b =>
      simp only [textsOrBytes, Option.map_some, Option.some.injEq, custom_ok]
      cases y <;> simp only [Takes, hvd, false_and] at h
      rw [hk] at h
      rw [(BaseN.C06_language ..).2 h.2]
      rfl
    | _ => cases y <;> simp [Takes] at h
  · have np : ∀ b, BaseN.decodedParse K.encoding a.padding b ≠ .panic := fun b => (BaseN.C06_errors K a.padding b).1
    intro x _ h
    cases x with
    | text s =>
      simp only [textsOrBytes, Option.map_some, Option.some.injEq, custom_panic] at h
      have := np (strBytes s)
      cases hs : BaseN.decodedParse K.encoding a.padding (strBytes s) <;> simp_all [Out.map]
    | bytes b =>
      simp only [textsOrBytes, Option.map_some, Option.some.injEq, custom_panic] at h
      have := np b
      cases hs : BaseN.decodedParse K.encoding a.padding b <;> simp_all [Out.map]
    | _ => simp [textsOrBytes] at h

theorem right_boolean (L : Libs φ κ N U V ε) (S : SerdeLibs φ V ε) (a : BasicAttribute) (d : Deserializer (Fl φ) (Fl φ)) :
    ∃ P, Behaves (lift Value.bool (Verif.Serde.boolDe S.widen)) P .any d ∧ Right (κ := κ) (N := N) (U := U) L S (.basic .boolean a) P := by
  have key : ∀ s b, Boolean.parseStr (strBytes s) = .ok b ↔
      (strBytes s).map Spec.Boolean.lower ∈ (if b then Spec.Boolean.trueWords else Spec.Boolean.falseWords) := by
    intro s b
    obtain ⟨h1, h2, -⟩ := Boolean.C22_words (strBytes s)
    cases b
    · simpa using h2
    · simpa using h1
  have key' : ∀ i b, Boolean.parseInt i = .ok b ↔ i = (if b then 1 else 0) := by
    intro i b
    obtain ⟨h1, h2, -⟩ := Boolean.C22_int i
    cases b
    · simpa using h2
    · simpa using h1
  refine ⟨_, behaves_custom (lift_behaves Value.bool _ _ _ d (fun o => Serde.C49_boolean S.widen d o)), Right.of ?_ ?_ ?_⟩
  · intro x _ v h
    cases x with
    | text s =>
      simp only [textsBoolsOrInts, Option.map_some, Option.some.injEq, custom_ok] at h
      cases hs : Boolean.parseStr (strBytes s) <;> simp only [hs, Out.map, reduceCtorEq, Out.ok.injEq] at h
      subst h
      exact ⟨rfl, (key ..).1 hs⟩
    | bool b =>
      simp only [textsBoolsOrInts, Option.map_some, Option.some.injEq, custom_ok, Out.map, Out.ok.injEq] at h
      subst h
      exact ⟨rfl, rfl⟩
    | int ty i =>
      simp only [textsBoolsOrInts, Option.map_some, Option.some.injEq, custom_ok] at h
      cases hs : Boolean.parseInt i <;> simp only [hs, Out.map, reduceCtorEq, Out.ok.injEq] at h
      subst h
      exact ⟨rfl, (key' ..).1 hs⟩
    | _ => simp [textsBoolsOrInts] at h
  · intro x _ y h
    cases x with
    | text s =>
      simp only [textsBoolsOrInts, Option.map_some, Option.some.injEq, custom_ok]
      cases y <;> simp only [Takes, Means, ne_eq, not_true, false_and, true_and] at h
      rw [(key ..).2 h]
      rfl
    | bool b =>
      cases y <;> simp only [Takes, true_and] at h
      subst h
      rfl
    | int ty i =>
      simp only [textsBoolsOrInts, Option.map_some, Option.some.injEq, custom_ok]
      cases y <;> simp only [Takes, true_and] at h
      rw [(key' ..).2 h]
      rfl
    | _ => cases y <;> simp [Takes] at h
  · intro x _ h
    cases x with
    | text s =>
      simp only [textsBoolsOrInts, Option.map_some, Option.some.injEq, custom_panic] at h
      have := (Boolean.C22_words (strBytes s)).2.2.2
      cases hs : Boolean.parseStr (strBytes s) <;> simp_all [Out.map]
    | bool b => simp [textsBoolsOrInts, custom, Out.map] at h
    | int ty i =>
      simp only [textsBoolsOrInts, Option.map_some, Option.some.injEq, custom_panic] at h
      unfold Boolean.parseInt at h
      split at h
      · cases h
      · split at h <;> cases h
    | _ => simp [textsBoolsOrInts] at h

theorem right_byte (L : Libs φ κ N U V ε) (S : SerdeLibs φ V ε) (a : ByteAttribute Int) (hp : SizesOk (φ := φ) (κ := κ) (.byte a))
    (chk : Nat → Out Range.RangeError Unit) (hc : Size.check (sizes a.range) = some chk) (d : Deserializer (Fl φ) (Fl φ)) :
    ∃ P, Behaves (lift Value.size (Verif.Serde.sizeDe S.widen (L.byte a.ignoreCase) S.maxSize chk)) P (if d.human then .str else .u128) d ∧
      Right (κ := κ) (N := N) (U := U) L S (.byte a) P := by
  have key : ∀ s n, Size.parseStr (L.byte a.ignoreCase) chk (strBytes s) = .ok n ↔
      L.byte a.ignoreCase (strBytes s) = some n ∧ Spec.Range.Contains a.range (n : Int) := fun s n => by
    rw [Range.C19_text _ _ chk hc, sizes, Generated.contains_toNat a.range hp]
  have key' : ∀ u n, Size.parseU128 S.maxSize chk u = .ok n ↔ n = u ∧ u ≤ S.maxSize ∧ Spec.Range.Contains a.range (u : Int) := fun u n => by
    rw [(Range.C19_integer_entry S.maxSize _ chk hc u).2.2, sizes, Generated.contains_toNat a.range hp]
  refine ⟨_, behaves_custom (lift_behaves Value.size _ _ _ d (fun o => Serde.C49_byte S.widen (L.byte a.ignoreCase) S.maxSize chk d o)), Right.of ?_ ?_ ?_⟩
  · intro x hx v h
    cases x with
    | text s =>
      simp only [Option.map_some, Option.some.injEq, custom_ok] at h
      cases hs : Size.parseStr (L.byte a.ignoreCase) chk (strBytes s) <;> simp only [hs, Out.map, reduceCtorEq, Out.ok.injEq] at h
      subst h
      exact (key ..).1 hs
    | int ty i =>
      cases ty <;> simp only [Option.map_none, Option.map_some, reduceCtorEq, Option.some.injEq, custom_ok] at h
      cases hs : Size.parseU128 S.maxSize chk i.toNat <;> simp only [hs, Out.map, reduceCtorEq, Out.ok.injEq] at h
      subst h
      obtain ⟨rfl, h1, h2⟩ := (key' ..).1 hs
      have hi : ((i.toNat : Nat) : Int) = i := Int.toNat_of_nonneg hx.1
      rw [hi] at h2
      exact ⟨rfl, hi.symm, h1, h2⟩
    | _ => simp at h
  · intro x hx y h
    cases x with
    | text s =>
      simp only [Option.map_some, Option.some.injEq, custom_ok]
      cases y <;> simp only [Takes, Means] at h
      rw [(key ..).2 h]
      rfl
    | int ty i =>
      cases y <;> simp only [Takes] at h
      obtain ⟨rfl, rfl, h1, h2⟩ := h
      simp only [Option.map_some, Option.some.injEq, custom_ok, Int.toNat_natCast]
      rw [(key' ..).2 ⟨rfl, h1, h2⟩]
      rfl
    | _ => cases y <;> simp [Takes] at h
  · have np : ∀ n, Size.parseV chk n ≠ .panic := fun n => by
      obtain ⟨h1, h2, h3⟩ := Range.size_outcome _ chk hc n
      simp only [Size.parseV]
      rcases Range.contains_or (sizes a.range) n with hc | hb | ⟨hb, ha⟩
      · simp [h3 hc]
      · simp [h1 hb]
      · simp [h2 hb ha]
    intro x _ h
    cases x with
    | text s =>
      simp only [Option.map_some, Option.some.injEq, custom_panic] at h
      have := Generated.size_no_panic (L.byte a.ignoreCase) _ chk hc (strBytes s)
      cases hs : Size.parseStr (L.byte a.ignoreCase) chk (strBytes s) <;> simp_all [Out.map]
    | int ty i =>
      cases ty <;> simp only [Option.map_none, Option.map_some, reduceCtorEq, Option.some.injEq, custom_panic] at h
      have := np i.toNat
      unfold Size.parseU128 at h
      split at h
      · cases hs : Size.parseV chk i.toNat <;> simp_all [Out.map]
      · cases h
    | _ => simp at h

theorem float_ok (a : NumberAttribute φ) (chk : Fl φ → Out Range.RangeError Unit) (hc : Number.check (numbers a.range) = some chk) (f g : Fl φ) :
    Number.parseF chk a.nan f = .ok g ↔ g = f ∧ FloatOk a.range a.nan f := by
  have hc' : Number.check (Range.floats a.range) = some chk := by
    rw [← hc]
    cases a.range <;> rfl
  cases f with
  | none =>
    constructor
    · intro h
      have := (Range.C20_nan_policy a.range a.nan chk hc' none g h).1
      subst this
      exact ⟨rfl, (Range.C20_nan a.range a.nan chk hc').1.1 h⟩
    · rintro ⟨rfl, h⟩
      exact (Range.C20_nan a.range a.nan chk hc').1.2 h
  | some y => exact Range.C20_number a.range a.nan chk hc' y g

theorem float_no_panic (a : NumberAttribute φ) (chk : Fl φ → Out Range.RangeError Unit) (hc : Number.check (numbers a.range) = some chk) (f : Fl φ) :
    Number.parseF chk a.nan f ≠ .panic := by
  intro h
  refine Generated.number_no_panic (fun _ => some f) a.range a.nan chk hc [] ?_
  simpa [Number.parseStr] using h

theorem right_number (L : Libs φ κ N U V ε) (S : SerdeLibs φ V ε) (double : Bool) (a : NumberAttribute φ)
    (chk : Fl φ → Out Range.RangeError Unit) (hc : Number.check (numbers a.range) = some chk) (d : Deserializer (Fl φ) (Fl φ)) :
    ∃ P, Behaves (if double then lift Value.number (Verif.Serde.number64De S.widen L.f64 chk a.nan)
        else lift Value.number (Verif.Serde.number32De S.widen S.narrow L.f32 chk a.nan)) P .any d ∧
      Right (κ := κ) (N := N) (U := U) L S (.number double a) P := by
  have key := float_ok a chk hc
  have np := float_no_panic a chk hc
  refine ⟨fun x => ((textsOrFloats (fun s => Number.parseStr (if double then L.f64 else L.f32) chk a.nan (strBytes s))
    (fun f => Number.parseF chk a.nan (if double then f else S.narrow f)) (fun f => Number.parseF chk a.nan (if double then S.widen f else f)) x).map
      (Out.map Value.number)).map custom, ?_, Right.of ?_ ?_ ?_⟩
  · cases double
    · exact behaves_custom (lift_behaves Value.number _ _ _ d (fun o => (Serde.C49_number S.widen S.narrow L.f64 L.f32 chk chk a.nan d).2 o))
    · exact behaves_custom (lift_behaves Value.number _ _ _ d (fun o => (Serde.C49_number S.widen S.narrow L.f64 L.f32 chk chk a.nan d).1 o))
  · intro x _ v h
    cases x with
    | text s =>
      simp only [textsOrFloats, Option.map_some, Option.some.injEq, custom_ok] at h
      cases hs : Number.parseStr (if double then L.f64 else L.f32) chk a.nan (strBytes s) <;> simp only [hs, Out.map, reduceCtorEq, Out.ok.injEq] at h
      subst h
      obtain ⟨f, h1, h2⟩ := (Range.C20_text ..).1 hs
      obtain ⟨rfl, h2⟩ := (key ..).1 h2
      exact ⟨h1, h2⟩
    | f64 f =>
      simp only [textsOrFloats, Option.map_some, Option.some.injEq, custom_ok] at h
      cases hs : Number.parseF chk a.nan (if double then f else S.narrow f) <;> simp only [hs, Out.map, reduceCtorEq, Out.ok.injEq] at h
      subst h
      obtain ⟨e, h2⟩ := (key ..).1 hs
      exact ⟨e, e ▸ h2⟩
    | f32 f =>
      simp only [textsOrFloats, Option.map_some, Option.some.injEq, custom_ok] at h
      cases hs : Number.parseF chk a.nan (if double then S.widen f else f) <;> simp only [hs, Out.map, reduceCtorEq, Out.ok.injEq] at h
      subst h
      obtain ⟨e, h2⟩ := (key ..).1 hs
      exact ⟨e, e ▸ h2⟩
    | _ => simp [textsOrFloats] at h
  · intro x _ y h
    cases x with
    | text s =>
      simp only [textsOrFloats, Option.map_some, Option.some.injEq, custom_ok]
      cases y <;> simp only [Takes, Means] at h
      rw [(Range.C20_text ..).2 ⟨_, h.1, (key ..).2 ⟨rfl, h.2⟩⟩]
      rfl
    | f64 f =>
      simp only [textsOrFloats, Option.map_some, Option.some.injEq, custom_ok]
      cases y <;> simp only [Takes] at h
      rw [(key ..).2 ⟨h.1, h.1 ▸ h.2⟩]
      rfl
    | f32 f =>
      simp only [textsOrFloats, Option.map_some, Option.some.injEq, custom_ok]
      cases y <;> simp only [Takes] at h
      rw [(key ..).2 ⟨h.1, h.1 ▸ h.2⟩]
      rfl
    | _ => cases y <;> simp [Takes] at h
  · intro x _ h
    cases x with
    | text s =>
      simp only [textsOrFloats, Option.map_some, Option.some.injEq, custom_panic] at h
      have := Generated.number_no_panic (if double then L.f64 else L.f32) a.range a.nan chk hc (strBytes s)
      cases hs : Number.parseStr (if double then L.f64 else L.f32) chk a.nan (strBytes s) <;> simp_all [Out.map]
    | f64 f =>
      simp only [textsOrFloats, Option.map_some, Option.some.injEq, custom_panic] at h
      have := np (if double then f else S.narrow f)
      cases hs : Number.parseF chk a.nan (if double then f else S.narrow f) <;> simp_all [Out.map]
    | f32 f =>
      simp only [textsOrFloats, Option.map_some, Option.some.injEq, custom_panic] at h
      have := np (if double then S.widen f else f)
      cases hs : Number.parseF chk a.nan (if double then S.widen f else f) <;> simp_all [Out.map]
    | _ => simp [textsOrFloats] at h

theorem right_int (L : Libs φ κ N U V ε) (S : SerdeLibs φ V ε) (signed : Bool) (w : IntV.Width) (a : RangeAttribute Int)
    (chk : Int → Out Range.RangeError Unit) (hc : IntV.check L.ptr signed w a.range = some chk) (d : Deserializer (Fl φ) (Fl φ)) (hd : WellTyped d) :
    ∃ P, Behaves (if signed then lift Value.int (Verif.Serde.intDe S.widen chk L.ptr w)
        else lift Value.int (Verif.Serde.uintDe S.widen chk L.ptr w)) P .any d ∧
      Right (κ := κ) (N := N) (U := U) L S (.int signed w a) P := by
  have fits : ∀ ty i, Spec.IntV.Fits (Spec.Serde.IsSigned ty) (Spec.Serde.bitsOf ty) i → Spec.IntV.Fits (Spec.Serde.IsSigned ty) (IntV.bits L.ptr .w128) i := by
    intro ty i h
    have h128 : IntV.bits L.ptr .w128 = 128 := rfl
    rw [h128]
    revert h
    cases ty <;> simp only [Spec.IntV.Fits, Spec.Serde.IsSigned, Spec.Serde.bitsOf, if_true, Bool.false_eq_true, if_false] <;> omega
  refine ⟨fun x => ((textsOrInts signed (fun s => IntV.parseStr chk signed (IntV.bits L.ptr w) (strBytes s))
    (fun x => Verif.Serde.asIntError (IntV.parseW chk L.ptr signed w .w128 x)) x).map (Out.map Value.int)).map custom, ?_, Right.of ?_ ?_ ?_⟩
  · cases signed
    · exact behaves_custom (lift_behaves Value.int _ _ _ d (fun o => by
        have h := Serde.C49_unsigned S.widen chk L.ptr w d hd o
        simp only [← Serde.asIntError_eq] at h
        exact h))
    · exact behaves_custom (lift_behaves Value.int _ _ _ d (fun o => by
        have h := Serde.C49_signed S.widen chk L.ptr w d hd o
        simp only [← Serde.asIntError_eq] at h
        exact h))
  · intro x hx v h
    cases x with
    | text s =>
      simp only [textsOrInts, Option.map_some, Option.some.injEq, custom_ok] at h
      cases hs : IntV.parseStr chk signed (IntV.bits L.ptr w) (strBytes s) <;> simp only [hs, Out.map, reduceCtorEq, Out.ok.injEq] at h
      subst h
      exact (Range.C16_language L.ptr signed w a.range chk hc _ _).1 hs
    | int ty i =>
      simp only [textsOrInts] at h
      split at h
      · rename_i hs'
        simp only [Option.map_some, Option.some.injEq, custom_ok] at h
        cases hs : IntV.parseW chk L.ptr signed w .w128 i <;> simp only [hs, Verif.Serde.asIntError, Out.map, reduceCtorEq, Out.ok.injEq] at h
        subst h
        have hf : Spec.IntV.Fits signed (IntV.bits L.ptr .w128) i := hs' ▸ fits ty i hx
        obtain ⟨h1, h2, h3⟩ := ((Range.C17_no_truncation L.ptr signed w .w128 a.range chk hc i hf).2.1 _).1 hs
        exact ⟨hs', h1, h2, h3⟩
      · simp at h
    | _ => simp [textsOrInts] at h
  · intro x hx y h
    cases x with
    | text s =>
      simp only [textsOrInts, Option.map_some, Option.some.injEq, custom_ok]
      cases y <;> simp only [Takes, Means] at h
      rw [(Range.C16_language L.ptr signed w a.range chk hc _ _).2 h]
      rfl
    | int ty i =>
      cases y <;> simp only [Takes] at h
      obtain ⟨h1, h2, h3⟩ := h
      simp only [textsOrInts, h1, if_true, Option.map_some, Option.some.injEq, custom_ok]
      have hf : Spec.IntV.Fits signed (IntV.bits L.ptr .w128) i := h1 ▸ fits ty i hx
      rw [((Range.C17_no_truncation L.ptr signed w .w128 a.range chk hc i hf).2.1 _).2 ⟨h2, h3⟩]
      rfl
    | _ => cases y <;> simp [Takes] at h
  · intro x hx h
    cases x with
    | text s =>
      simp only [textsOrInts, Option.map_some, Option.some.injEq, custom_panic] at h
      have := (Range.C16_errors L.ptr signed w a.range chk hc (strBytes s)).2.2
      cases hs : IntV.parseStr chk signed (IntV.bits L.ptr w) (strBytes s) <;> simp_all [Out.map]
    | int ty i =>
      simp only [textsOrInts] at h
      split at h
      · rename_i hs'
        simp only [Option.map_some, Option.some.injEq, custom_panic] at h
        have hf : Spec.IntV.Fits signed (IntV.bits L.ptr .w128) i := hs' ▸ fits ty i hx
        have := (Range.C17_no_truncation L.ptr signed w .w128 a.range chk hc i hf).2.2.2.2
        cases hs : IntV.parseW chk L.ptr signed w .w128 i <;> simp_all [Out.map, Verif.Serde.asIntError]
      · simp at h
    | _ => simp [textsOrInts] at h

/-- What a generated `deserialize` does with the data it asks for. -/
theorem right (L : Libs φ κ N U V ε) (S : SerdeLibs φ V ε) (hu : Spec.Url.HostsPresent L.url) (p : Plan φ κ) (hp : SizesOk p)
    (hm : ¬ LargestMax L.ptr p) (body : De φ κ N U V) (hb : deserialize L S p = some body) (d : Deserializer (Fl φ) (Fl φ)) (hd : WellTyped d)
    (h : Hint) (ha : asks d.human p = some h) : ∃ P, Behaves body P h d ∧ Right L S p P := by
  have texts_case : ∀ I, generate L p = some I → Verif.Serde.strDe S.widen I.parseStr = body → asks d.human p = some .str →
      (∀ x v, (∀ s, x ≠ .text s) → ¬ Takes L S p x v) → ∃ P, Behaves body P h d ∧ Right L S p P := by
    intro I hI e h1 h2
    rw [ha] at h1
    cases h1
    subst e
    exact ⟨_, str_behaves S.widen I.parseStr d, right_texts L S hu p hp I hI hm h2⟩
  cases p with
  | base v a =>
    cases ha
    simp only [deserialize] at hb
    split at hb <;> cases hb
    · exact right_text L S .base32 .base32 a (by simp) rfl d
    · exact right_decoded L S .base32 .base32_decoded a (by simp) rfl d
    · exact right_text L S .base64 .base64 a (by simp) rfl d
    · exact right_decoded L S .base64 .base64_decoded a (by simp) rfl d
    · exact right_text L S .base64Url .base64_url a (by simp) rfl d
    · exact right_decoded L S .base64Url .base64_url_decoded a (by simp) rfl d
  | basic v a =>
    by_cases hv : v = .boolean
    · subst hv
      cases ha
      cases hb
      exact right_boolean L S a d
    · simp [asks, hv] at ha
  | bit a => cases ha
  | length a => cases ha
  | byte a =>
    cases ha
    simp only [deserialize, Option.map_eq_some_iff] at hb
    obtain ⟨chk, hc, rfl⟩ := hb
    exact right_byte L S a hp chk hc d
  | number double a =>
    cases ha
    simp only [deserialize, Option.map_eq_some_iff] at hb
    obtain ⟨chk, hc, rfl⟩ := hb
    exact right_number L S double a chk hc d
  | int signed w a =>
    cases ha
    simp only [deserialize, Option.map_eq_some_iff] at hb
    obtain ⟨chk, hc, rfl⟩ := hb
    exact right_int L S signed w a chk hc d hd
  | domain a =>
    cases ha
    simp only [deserialize, Option.map_eq_some_iff] at hb
    obtain ⟨I, hI, rfl⟩ := hb
    refine ⟨_, domain_behaves S.widen _ _ (fun s => (Generated.C71_entry_points L _ I hI s).1) d, right_texts L S hu _ hp I hI hm ?_⟩
    intro x v hx h
    cases x <;> cases v <;> first | exact hx _ rfl | exact h
  | utf8 v a =>
    cases ha
    simp only [deserialize, Option.map_eq_some_iff] at hb
    obtain ⟨I, hI, rfl⟩ := hb
    refine ⟨_, string_behaves S.widen _ _ (fun s => (Generated.C71_entry_points L _ I hI s).1) d, right_texts L S hu _ hp I hI hm ?_⟩
    intro x v hx h
    cases x <;> cases v <;> first | exact hx _ rfl | exact h
  | regex a =>
    cases ha
    simp only [deserialize, Option.map_eq_some_iff] at hb
    obtain ⟨I, hI, rfl⟩ := hb
    refine ⟨_, string_behaves S.widen _ _ (fun s => (Generated.C71_entry_points L _ I hI s).1) d, right_texts L S hu _ hp I hI hm ?_⟩
    intro x v hx h
    cases x <;> cases v <;> first | exact hx _ rfl | exact h
  | _ =>
    simp only [deserialize, Option.map_eq_some_iff] at hb
    obtain ⟨I, hI, e⟩ := hb
    refine texts_case I hI e rfl ?_
    intro x v hx h
    cases x <;> cases v <;> first | exact hx _ rfl | exact h

theorem texts_panic (L : Libs φ κ N U V ε) (hu : Spec.Url.HostsPresent L.url) (p : Plan φ κ) (hp : Generated.SizesOk p)
    (I : Impl (Error ε) (Value φ κ N U V)) (hI : generate L p = some I) (body : De φ κ N U V) (d : Deserializer (Fl φ) (Fl φ)) (hint : Hint)
    (h : Behaves body (fun x => (texts I.parseStr x).map custom) hint d) :
    Outcome body d .panic ↔ ∃ hint' e s, some hint = some hint' ∧ d.feed hint' = some e ∧ dataOf e = .text s ∧ Panics L.checked L.ptr p s := by
  rw [h, eq_comm, reply_panic]
  constructor
  · rintro ⟨e, he, hq⟩
    cases hx : dataOf e <;> simp only [hx, texts, Option.map_none, Option.map_some, Option.some.injEq, custom_panic, reduceCtorEq] at hq
    exact ⟨hint, e, _, rfl, he, hx, (Generated.parse_panics L hu p hp I hI _).1.1 hq⟩
  · rintro ⟨_, e, s, ⟨⟩, he, hx, hq⟩
    refine ⟨e, he, ?_⟩
    simp only [hx, texts, Option.map_some, Option.some.injEq, custom_panic]
    exact (Generated.parse_panics L hu p hp I hI _).1.2 hq

end Verif.Props.Integrations
