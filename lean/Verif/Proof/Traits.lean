import Verif.Spec.Traits
import Verif.Props.Generated
import Verif.Proof.Integrations

/-!
# Lemmas about the validating traits
-/

namespace Verif.Props.Traits

open Verif Verif.Attr Verif.Derive Verif.Generated Verif.Traits Verif.Integrations
open Verif.Spec.Generated Verif.Spec.Traits
open Verif.IntV (Ptr Width castTo bits maxOf minOf castTo_fits fits_mono bits_le bits_pos)
open Verif.Spec.IntV (Fits)
open Verif.Number (Fl)
open Verif.BaseN (strBytes)
open Verif.Props.BaseN (Kind)

/-! ## The chains of defaults -/

section
variable {E B : Type}

/-- Whatever methods an `impl` writes, if they all do `f`, then so do the others. -/
theorem call_eq (signed : Bool) (M : Methods E B) (ptr : Ptr) (f : Int → Out E B)
    (h128 : ∀ x, Fits signed 128 x → M.m128 x = f x) (h64 : ∀ g, M.m64 = some g → ∀ x, Fits signed 64 x → g x = f x)
    (h32 : ∀ g, M.m32 = some g → ∀ x, Fits signed 32 x → g x = f x) (h16 : ∀ g, M.m16 = some g → ∀ x, Fits signed 16 x → g x = f x)
    (h8 : ∀ g, M.m8 = some g → ∀ x, Fits signed 8 x → g x = f x)
    (hs : ∀ g, M.size = some g → ∀ x, Fits signed (bits ptr .size) x → g x = f x) (w : Width) (x : Int) (hx : Fits signed (bits ptr w) x) :
    M.call signed ptr w x = f x := by
  have up : ∀ a b, a ≤ b → ∀ x, Fits signed a x → Fits signed b x := fun a b h x hx => fits_mono signed a b h x hx
  have c : ∀ b, 0 < b → ∀ x, Fits signed b x → castTo signed b x = x := fun b hb x hx => castTo_fits signed b hb x hx
  have k64 : ∀ x, Fits signed 64 x → M.call64 signed x = f x := fun x hx => by
    unfold Methods.call64
    split
    · rename_i g e; exact h64 g e x hx
    · have := up 64 128 (by decide) x hx
      rw [c 128 (by decide) x this, h128 x this]
  have k32 : ∀ x, Fits signed 32 x → M.call32 signed x = f x := fun x hx => by
    unfold Methods.call32
    split
    · rename_i g e; exact h32 g e x hx
    · have := up 32 64 (by decide) x hx
      rw [c 64 (by decide) x this, k64 x this]
  have k16 : ∀ x, Fits signed 16 x → M.call16 signed x = f x := fun x hx => by
    unfold Methods.call16
    split
    · rename_i g e; exact h16 g e x hx
    · have := up 16 32 (by decide) x hx
      rw [c 32 (by decide) x this, k32 x this]
  cases w with
  | w8 =>
    show M.call8 signed x = f x
    unfold Methods.call8
    split
    · rename_i g e; exact h8 g e x hx
    · have := up 8 16 (by decide) x hx
      rw [c 16 (by decide) x this, k16 x this]
  | w16 => exact k16 x hx
  | w32 => exact k32 x hx
  | w64 => exact k64 x hx
  | w128 => exact h128 x hx
  | size =>
    show M.callSize signed ptr x = f x
    unfold Methods.callSize
    split
    · rename_i g e; exact hs g e x hx
    · cases ptr
      · rw [c 16 (by decide) x hx, k16 x hx]
      · rw [c 32 (by decide) x hx, k32 x hx]
      · rw [c 64 (by decide) x hx, k64 x hx]

end

section
variable {φ κ N U V R ε : Type}

/-- All functions of an `impl` for integers do the same as the widest one, and `validate_*` forgets the value. -/
structure Uniform (signed : Bool) (ptr : Ptr) {E A : Type} (I : IntImpl E A) : Prop where
  parse : ∀ w x, Fits signed (bits ptr w) x → I.parse.call signed ptr w x = I.parse.m128 x
  validate : ∀ w x, Fits signed (bits ptr w) x → I.validate.call signed ptr w x = (I.parse.m128 x).void

theorem mapErr_void {E E' A A' : Type} (f : E → E') (g : A → A') (r : Out E A) : mapErr f r.void = (named f g r).void := by
  cases r <;> rfl

theorem uniform_boolean (signed : Bool) (ptr : Ptr) : Uniform signed ptr (booleanInt : IntImpl (Error ε) (Value φ κ N U V)) where
  parse := call_eq signed _ ptr _ (fun _ _ => rfl) nofun nofun nofun nofun nofun
  validate := call_eq signed _ ptr _ (fun _ _ => mapErr_void _ _ _) nofun nofun nofun nofun nofun

theorem json64 (fromValue : Json.Value (Fl φ) R → Except ε V) (signed : Bool) (x : Int) (hx : Fits signed 64 x) :
    Json.parse64 fromValue x = Json.parse128 fromValue x := by
  have h : -2 ^ 63 ≤ x ∧ x < 2 ^ 64 := by
    cases signed <;> simp [Fits] at hx <;> omega
  unfold Json.parse64 Json.parse128 Json.toValue64 Json.toValue128
  by_cases h0 : x < 0
  · rw [if_pos h0, if_neg (by omega), if_pos (by omega)]
  · rw [if_neg h0, if_pos (by omega)]

theorem uniform_json (Z : NumLibs φ V R ε) (signed : Bool) (ptr : Ptr) : Uniform signed ptr (jsonInt Z : IntImpl (Error ε) (Value φ κ N U V)) where
  parse := call_eq signed _ ptr _ (fun _ _ => rfl) (by
    rintro g h x hx
    cases h
    simp only [jsonInt, json64 Z.fromValue signed x hx]) nofun nofun nofun nofun
  validate := call_eq signed _ ptr _ (fun _ _ => mapErr_void _ _ _) (by
    rintro g h x hx
    cases h
    simp only [jsonInt, json64 Z.fromValue signed x hx]
    exact mapErr_void _ _ _) nofun nofun nofun nofun

theorem size64 (maxSize : Nat) (hm : 2 ^ 64 ≤ maxSize + 1) (chk : Nat → Out Range.RangeError Unit) (x : Int) (hx : Fits false 64 x) :
    Size.parseU64 chk x.toNat = Size.parseU128 maxSize chk x.toNat := by
  simp [Fits] at hx
  unfold Size.parseU128 Size.parseU64
  rw [if_pos (by omega)]

theorem uniform_size (maxSize : Nat) (hm : 2 ^ 64 ≤ maxSize + 1) (chk : Nat → Out Range.RangeError Unit) (ptr : Ptr) :
    Uniform false ptr (sizeInt maxSize chk : IntImpl (Error ε) (Value φ κ N U V)) where
  parse := call_eq false _ ptr _ (fun _ _ => rfl) (by
    rintro g h x hx
    cases h
    simp only [sizeInt, size64 maxSize hm chk x hx]) nofun nofun nofun nofun
  validate := call_eq false _ ptr _ (fun _ _ => mapErr_void _ _ _) (by
    rintro g h x hx
    cases h
    simp only [sizeInt, size64 maxSize hm chk x hx]
    exact mapErr_void _ _ _) nofun nofun nofun nofun

/-- What `m128` of an integer validator does with the numbers of the target type. -/
theorem int_own {B : Type} (own : Int → Out Range.RangeError B) (ptr : Ptr) (signed : Bool) (target : Width) (x : Int)
    (hx : Fits signed (bits ptr target) x) : (intMethods own ptr signed target).m128 x = own x := by
  have h := (IntV.fits_iff signed (bits ptr target) x).1 hx
  simp only [intMethods]
  by_cases ht : target = .w128
  · rw [if_pos ht]
  · rw [if_neg ht, if_neg (by omega), if_neg (by omega), castTo_fits signed _ (bits_pos ptr target) x hx]

theorem int_call {B : Type} (own : Int → Out Range.RangeError B) (ptr : Ptr) (signed : Bool) (target : Width) {E' B' : Type}
    (f : Range.RangeError → E') (g : B → B') (w : Width) (x : Int) (hx : Fits signed (bits ptr w) x) :
    ((intMethods own ptr signed target).named f g).call signed ptr w x = named f g ((intMethods own ptr signed target).m128 x) := by
  have key : ∀ (c d : Prop) [Decidable c] [Decidable d] (b : Nat) (_ : c → bits ptr target = b) (_ : d → target = .size ∧ bits ptr .size = b) (h),
      (if c then some own else if d then some fun x => own (castTo signed (bits ptr .size) x) else none).map (fun m x => named f g (m x)) = some h →
      ∀ x, Fits signed b x → h x = named f g ((intMethods own ptr signed target).m128 x) := by
    intro c d _ _ b hc hd h e x hx
    split at e
    · rename_i k
      cases e
      rw [int_own own ptr signed target x (by rwa [hc k])]
    · split at e
      · rename_i k
        obtain ⟨k1, k2⟩ := hd k
        cases e
        rw [← k2] at hx
        show named f g (own (castTo signed (bits ptr .size) x)) = _
        rw [castTo_fits signed _ (bits_pos ptr .size) x hx, int_own own ptr signed target x (by rwa [k1])]
      · cases e
  refine call_eq signed _ ptr _ (fun _ _ => rfl) ?_ ?_ ?_ ?_ ?_ w x hx
  · exact key _ _ 64 (fun h => by rw [h]; rfl) (fun h => ⟨h.1, by rw [h.2]; rfl⟩)
  · exact key _ _ 32 (fun h => by rw [h]; rfl) (fun h => ⟨h.1, by rw [h.2]; rfl⟩)
  · exact key _ _ 16 (fun h => by rw [h]; rfl) (fun h => ⟨h.1, by rw [h.2]; rfl⟩)
  · intro h e
    refine key (target = .w8) False 8 (fun h => by rw [h]; rfl) nofun h ?_
    simpa [Methods.named, intMethods] using e
  · intro h e
    refine key (target = .size) False _ (fun h => by rw [h]) nofun h ?_
    simpa [Methods.named, intMethods] using e

theorem own_void (chk : Int → Out Range.RangeError Unit) (ptr : Ptr) (signed : Bool) (target : Width) (x : Int) :
    (intMethods (IntV.ownValidate chk) ptr signed target).m128 x = ((intMethods (IntV.ownParse chk) ptr signed target).m128 x).void := by
  have : ∀ x, IntV.ownValidate chk x = (IntV.ownParse chk x).void := fun x => by
    unfold IntV.ownValidate IntV.ownParse
    cases chk x <;> rfl
  simp only [intMethods]
  split
  · exact this x
  · split
    · rfl
    · split
      · rfl
      · exact this _

theorem uniform_int (chk : Int → Out Range.RangeError Unit) (ptr : Ptr) (signed : Bool) (target : Width) :
    Uniform signed ptr (intInt chk ptr signed target : IntImpl (Error ε) (Value φ κ N U V)) where
  parse w x hx := by
    simp only [intInt]
    rw [int_call _ _ _ _ _ _ w x hx]
    rfl
  validate w x hx := by
    simp only [intInt]
    rw [int_call _ _ _ _ _ _ w x hx, own_void]
    simp only [Methods.named]
    cases (intMethods (IntV.ownParse chk) ptr signed target).m128 x <;> rfl

/-- Which numbers an integer validator accepts: as C17. -/
theorem int_accepts (ptr : Ptr) (signed : Bool) (target w : Width) (r : Range.RangeOption Int) (chk : Int → Out Range.RangeError Unit)
    (h : IntV.check ptr signed target r = some chk) (x v : Int) (hx : Fits signed (bits ptr w) x) :
    (intMethods (IntV.ownParse chk) ptr signed target).m128 x = .ok v ↔ v = x ∧ Fits signed (bits ptr target) x ∧ Spec.Range.Satisfies r x := by
  have h128 : Fits signed 128 x := fits_mono signed _ _ (bits_le ptr w) x hx
  exact (Range.C17_no_truncation ptr signed target .w128 r chk h x h128).2.1 v

/-! ## Bytes -/

theorem named_ok {E E' A A' : Type} (f : E → E') (g : A → A') (r : Out E A) (y : A') :
    named f g r = .ok y ↔ ∃ a, r = .ok a ∧ y = g a := by
  cases r <;> simp [named, mapErr, Out.map, eq_comm]

/-- A base-N text and its bytes. -/
theorem text_bytes (K : Kind) (a : BaseAttribute) (s : List Char) :
    (textBytes K.variant a : BytesImpl (Error ε) (Value φ κ N U V)).parseU8Slice (strBytes s) = (textImpl K.variant a).parseStr s := by
  obtain ⟨-, -, h3, -, -, h6, -⟩ := BaseN.C03_entry_points_agree K a.padding s _ rfl
  simp only [textBytes, textImpl, Impl.make]
  rw [← h3]
  cases hr : BaseN.parseStr K.variant a.padding s with
  | ok t =>
    have hs := h6 t hr
    subst hs
    have hb : ∀ x ∈ strBytes t, x.toNat < 128 :=
      Integrations.ascii_pad K a.padding _ ((Integrations.slice_ok K a.padding (strBytes t) (strBytes t)).1 (by rw [← h3, hr]; rfl)).2
    simp [named, mapErr, Out.map, Integrations.asciiText_strBytes t hb]
  | err e => rfl
  | panic => rfl

/-- The same for the decoding validators. -/
theorem decoded_bytes (B : BaseN.Variant) (C : BaseN.Encoding) (a : BaseAttribute) (s : List Char) :
    (decodedBytes B C a : BytesImpl (Error ε) (Value φ κ N U V)).parseU8Slice (strBytes s) = (bytesImpl B C a).parseStr s := rfl

end

/-! ## Together -/

section
variable {φ κ N U V R ε : Type}

/-- How the `impl`s of an item fit together. -/
structure Coherent {E A : Type} (Z : NumLibs φ V R ε) (ptr : Ptr) (loose : Prop) (T : Traits φ R E A) : Prop where
  string : ∀ I, T.string = some I → ∀ s, I.parseString s = I.parseStr s ∧ (¬ loose → I.validateStr s = (I.parseStr s).void)
  bytes : ∀ J, T.bytes = some J → (∀ b, J.parseVecU8 b = J.parseU8Slice b ∧ (¬ loose → J.validateU8Slice b = (J.parseU8Slice b).void)) ∧
    ∀ I, T.string = some I → ∀ s, J.parseU8Slice (strBytes s) = I.parseStr s
  char : ∀ J, T.char = some J → (∀ c, J.validate c = (J.parse c).void) ∧ ∀ I, T.string = some I → ∀ c, J.parse c = I.parseStr [c]
  boolean : ∀ J, T.boolean = some J → ∀ b, J.validate b = (J.parse b).void
  signed : ∀ I, T.signed = some I → Uniform true ptr I
  unsigned : ∀ I, T.unsigned = some I → Uniform false ptr I
  both : ∀ I J, T.signed = some I → T.unsigned = some J → I = J
  number : ∀ I, T.number = some I → ∀ f, FloatImpl.call32 Z.widen I.parse64 I.parse32 f = I.parse64 (Z.widen f) ∧
    FloatImpl.call32 Z.widen I.validate64 I.validate32 f = I.validate64 (Z.widen f) ∧ I.validate64 f = (I.parse64 f).void
  json : ∀ J, T.json = some J → ∀ v, J.validate v = (J.parse v).void

theorem one_void {X E E' A A' : Type} (f : E → E') (g : A → A') (parse : X → Out E A) (x : X) :
    mapErr f (parse x).void = (named f g (parse x)).void := mapErr_void f g _

/-- Only `ValidateString`. -/
theorem coherent_string {E A : Type} (Z : NumLibs φ V R ε) (ptr : Ptr) (loose : Prop) (I : Impl E A)
    (h : ∀ s, I.parseString s = I.parseStr s ∧ (¬ loose → I.validateStr s = (I.parseStr s).void)) :
    Coherent Z ptr loose ({ string := some I } : Traits φ R E A) where
  string := by rintro _ ⟨⟩; exact h
  bytes := by simp
  char := by simp
  boolean := by simp
  signed := by simp
  unsigned := by simp
  both := by simp
  number := by simp
  json := by simp

variable [LinearOrder φ] [DecidableEq κ]

theorem coherent_text (Z : NumLibs φ V R ε) (ptr : Ptr) (loose : Prop) (K : Kind) (a : BaseAttribute)
    (h : ∀ s, (textImpl K.variant a : Impl (Error ε) (Value φ κ N U V)).parseString s = (textImpl K.variant a).parseStr s ∧
      (¬ loose → (textImpl K.variant a : Impl (Error ε) (Value φ κ N U V)).validateStr s = ((textImpl K.variant a : Impl (Error ε) (Value φ κ N U V)).parseStr s).void)) :
    Coherent Z ptr loose ({ string := some (textImpl K.variant a), bytes := some (textBytes K.variant a) } : Traits φ R (Error ε) (Value φ κ N U V)) where
  string := by rintro _ ⟨⟩; exact h
  bytes := by
    rintro _ ⟨⟩
    refine ⟨fun b => ?_, by rintro _ ⟨⟩; exact text_bytes K a⟩
    have e : BaseN.parseVecU8 K.variant a.padding b = BaseN.parseU8Slice K.variant a.padding b := by
      unfold BaseN.parseVecU8 BaseN.parseU8Slice
      rfl
    have v : BaseN.validateU8Slice K.variant a.padding b = (BaseN.parseU8Slice K.variant a.padding b).void := by
      unfold BaseN.validateU8Slice BaseN.parseU8Slice
      cases BaseN.check K.variant a.padding b <;> simp [Out.void]
    refine ⟨by simp only [textBytes, e], fun _ => ?_⟩
    simp only [textBytes, v]
    exact mapErr_void _ _ _
  char := by simp
  boolean := by simp
  signed := by simp
  unsigned := by simp
  both := by simp
  number := by simp
  json := by simp

theorem coherent_decoded (Z : NumLibs φ V R ε) (ptr : Ptr) (loose : Prop) (hl : loose) (B : BaseN.Variant) (C : BaseN.Encoding) (a : BaseAttribute) :
    Coherent Z ptr loose ({ string := some (bytesImpl B C a), bytes := some (decodedBytes B C a) } : Traits φ R (Error ε) (Value φ κ N U V)) where
  string := by rintro _ ⟨⟩ s; exact ⟨rfl, fun h => absurd hl h⟩
  bytes := by
    rintro _ ⟨⟩
    exact ⟨fun b => ⟨rfl, fun h => absurd hl h⟩, by rintro _ ⟨⟩ s; rfl⟩
  char := by simp
  boolean := by simp
  signed := by simp
  unsigned := by simp
  both := by simp
  number := by simp
  json := by simp

theorem coherent_unsigned {E A : Type} (Z : NumLibs φ V R ε) (ptr : Ptr) (loose : Prop) (I : Impl E A) (J : IntImpl E A)
    (h : ∀ s, I.parseString s = I.parseStr s ∧ (¬ loose → I.validateStr s = (I.parseStr s).void)) (hJ : Uniform false ptr J) :
    Coherent Z ptr loose ({ string := some I, unsigned := some J } : Traits φ R E A) where
  string := by rintro _ ⟨⟩; exact h
  bytes := by simp
  char := by simp
  boolean := by simp
  signed := by simp
  unsigned := by rintro _ ⟨⟩; exact hJ
  both := by simp
  number := by simp
  json := by simp

theorem coherent_signed {E A : Type} (Z : NumLibs φ V R ε) (ptr : Ptr) (loose : Prop) (I : Impl E A) (J : IntImpl E A)
    (h : ∀ s, I.parseString s = I.parseStr s ∧ (¬ loose → I.validateStr s = (I.parseStr s).void)) (hJ : Uniform true ptr J) :
    Coherent Z ptr loose ({ string := some I, signed := some J } : Traits φ R E A) where
  string := by rintro _ ⟨⟩; exact h
  bytes := by simp
  char := by simp
  boolean := by simp
  signed := by rintro _ ⟨⟩; exact hJ
  unsigned := by simp
  both := by simp
  number := by simp
  json := by simp

/-- The `impl`s that the handlers write fit together. -/
theorem coherent (L : Libs φ κ N U V ε) (Z : NumLibs φ V R ε) (hZ : Lawful Z) (p : Plan φ κ) (T : Traits φ R (Error ε) (Value φ κ N U V))
    (hT : traits L Z p = some T) : Coherent Z L.ptr (Decoded p) T ∧ (T.string = generate L p) := by
  have hg : ∀ I, generate L p = some I → ∀ s, I.parseString s = I.parseStr s ∧ (¬ Decoded p → I.validateStr s = (I.parseStr s).void) :=
    fun I hI s => Generated.C71_entry_points L p I hI s
  cases p with
  | base v a =>
    simp only [traits, Option.map_eq_some_iff] at hT
    obtain ⟨I, hI, rfl⟩ := hT
    have hg := hg I hI
    rw [hI]
    simp only [generate] at hI
    split at hI <;> cases hI
    · exact ⟨coherent_text Z _ _ .base32 a hg, rfl⟩
    · exact ⟨coherent_decoded Z _ _ (by simp [Decoded]) _ _ a, rfl⟩
    · exact ⟨coherent_text Z _ _ .base64 a hg, rfl⟩
    · exact ⟨coherent_decoded Z _ _ (by simp [Decoded]) _ _ a, rfl⟩
    · exact ⟨coherent_text Z _ _ .base64Url a hg, rfl⟩
    · exact ⟨coherent_decoded Z _ _ (by simp [Decoded]) _ _ a, rfl⟩
  | basic v a =>
    simp only [traits, Option.map_eq_some_iff] at hT
    obtain ⟨I, hI, rfl⟩ := hT
    have hg := hg I hI
    rw [hI]
    simp only [generate] at hI
    split at hI <;> cases hI
    · refine ⟨⟨?_, by simp, ?_, ?_, ?_, ?_, ?_, by simp, by simp⟩, rfl⟩
      · rintro _ ⟨⟩; exact hg
      · rintro _ ⟨⟩
        refine ⟨fun c => one_void _ _ _ c, ?_⟩
        rintro _ ⟨⟩ c
        simp only [booleanOne, Boolean.C22_char]
        rfl
      · rintro _ ⟨⟩ b; rfl
      · rintro _ ⟨⟩; exact uniform_boolean true L.ptr
      · rintro _ ⟨⟩; exact uniform_boolean false L.ptr
      · rintro _ _ ⟨⟩ ⟨⟩; rfl
    · refine ⟨⟨?_, by simp, by simp, ?_, ?_, ?_, ?_, ?_, ?_⟩, rfl⟩
      · rintro _ ⟨⟩; exact hg
      · rintro _ ⟨⟩ b; exact one_void _ _ _ b
      · rintro _ ⟨⟩; exact uniform_json Z true L.ptr
      · rintro _ ⟨⟩; exact uniform_json Z false L.ptr
      · rintro _ _ ⟨⟩ ⟨⟩; rfl
      · rintro _ ⟨⟩ f; exact ⟨rfl, rfl, one_void _ _ _ f⟩
      · rintro _ ⟨⟩ b; exact one_void _ _ _ b
    all_goals exact ⟨coherent_string Z _ _ _ hg, rfl⟩
  | bit a =>
    simp only [traits, Option.bind_eq_some_iff, Option.map_eq_some_iff] at hT
    obtain ⟨I, hI, chk, hc, rfl⟩ := hT
    exact ⟨coherent_unsigned Z _ _ _ _ (hg I hI) (uniform_size _ hZ.bit chk _), hI.symm⟩
  | byte a =>
    simp only [traits, Option.bind_eq_some_iff, Option.map_eq_some_iff] at hT
    obtain ⟨I, hI, chk, hc, rfl⟩ := hT
    exact ⟨coherent_unsigned Z _ _ _ _ (hg I hI) (uniform_size _ hZ.byte chk _), hI.symm⟩
  | length a =>
    cases hT
    exact ⟨⟨by simp, by simp, by simp, by simp, by simp, by simp, by simp, by simp, by simp⟩, rfl⟩
  | number double a =>
    simp only [traits, Option.bind_eq_some_iff, Option.map_eq_some_iff] at hT
    obtain ⟨I, hI, chk, hc, rfl⟩ := hT
    refine ⟨⟨?_, by simp, by simp, by simp, by simp, by simp, by simp, ?_, by simp⟩, hI.symm⟩
    · rintro _ ⟨⟩; exact hg I hI
    · rintro _ ⟨⟩ f
      cases double
      · refine ⟨?_, ?_, one_void _ _ _ _⟩ <;> simp [numberFloat, FloatImpl.call32, hZ.narrow]
      · exact ⟨rfl, rfl, one_void _ _ _ f⟩
  | int signed w a =>
    simp only [traits, Option.bind_eq_some_iff, Option.map_eq_some_iff] at hT
    obtain ⟨I, hI, chk, hc, rfl⟩ := hT
    cases signed
    · exact ⟨coherent_unsigned Z _ _ _ _ (hg I hI) (uniform_int chk _ _ _), hI.symm⟩
    · exact ⟨coherent_signed Z _ _ _ _ (hg I hI) (uniform_int chk _ _ _), hI.symm⟩
  | _ =>
    simp only [traits, Option.map_eq_some_iff] at hT
    obtain ⟨I, hI, rfl⟩ := hT
    exact ⟨coherent_string Z _ _ _ (hg I hI), hI.symm⟩

/-- The functions of an item, by what the input is. -/
def answer {E A : Type} (T : Traits φ R E A) : Content φ R → Option (Out E A)
  | .text s => T.string.map (·.parseStr s)
  | .bytes b => T.bytes.map (·.parseU8Slice b)
  | .bool b => T.boolean.map (·.parse b)
  | .int i => (T.signed.or T.unsigned).map (·.parse.m128 i)
  | .float f => T.number.map (·.parse64 f)
  | .json v => T.json.map (·.parse v)

omit [LinearOrder φ] in
theorem parse_answer {E A : Type} {Z : NumLibs φ V R ε} {ptr : Ptr} {loose : Prop} {T : Traits φ R E A} (h : Coherent Z ptr loose T)
    (hc : T.char.isSome → T.string.isSome) (x : Arg φ R) (hx : WellTyped ptr x) (r : Out E A) (hr : parse Z ptr T x = some r) :
    answer T (content Z x) = some r := by
  cases x with
  | str s => exact hr
  | string s =>
    simp only [parse, Option.map_eq_some_iff] at hr
    obtain ⟨I, hI, rfl⟩ := hr
    simp [answer, content, hI, h.string I hI s]
  | slice b => exact hr
  | vec b =>
    simp only [parse, Option.map_eq_some_iff] at hr
    obtain ⟨I, hI, rfl⟩ := hr
    simp [answer, content, hI, (h.bytes I hI).1 b]
  | char c =>
    simp only [parse, Option.map_eq_some_iff] at hr
    obtain ⟨J, hJ, rfl⟩ := hr
    obtain ⟨I, hI⟩ := Option.isSome_iff_exists.1 (hc (by simp [hJ]))
    simp [answer, content, hI, (h.char J hJ).2 I hI c]
  | bool b => exact hr
  | int signed w i =>
    cases signed
    · simp only [parse, Option.map_eq_some_iff] at hr
      obtain ⟨J, hJ, rfl⟩ := hr
      rw [(h.unsigned J hJ).parse w i hx]
      cases hs : T.signed with
      | none => simp [answer, content, hs, hJ]
      | some I => simp [answer, content, hs, h.both I J hs hJ]
    · simp only [parse, Option.map_eq_some_iff] at hr
      obtain ⟨J, hJ, rfl⟩ := hr
      rw [(h.signed J hJ).parse w i hx]
      simp [answer, content, hJ]
  | f32 f =>
    simp only [parse, Option.map_eq_some_iff] at hr
    obtain ⟨J, hJ, rfl⟩ := hr
    simp [answer, content, hJ, h.number J hJ f]
  | f64 f => exact hr
  | value v => exact hr

end

end Verif.Props.Traits
