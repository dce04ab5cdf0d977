import Verif.Spec.Builds
import Verif.Props.Integrations
import Verif.Props.Traits
import Verif.Props.LineMax

/-!
# C100: debug or release, this machine or that one
-/

namespace Verif.Props.Builds

open Verif Verif.Attr Verif.Derive Verif.Generated Verif.Traits Verif.Integrations
open Verif.Spec.Generated Verif.Spec.Traits Verif.Spec.Builds
open Verif.IntV (Ptr Width bits)
open Verif.Spec.IntV (Fits)
open Verif.Serde (Deserializer custom visit drive orError orElse strVisitor stringVisitor)
open Verif.Spec.Serde (Outcome)
open Verif.Number (Fl)
open _root_.Verif.BaseN (strBytes)

variable {τ φ κ N U V R ε : Type} [LinearOrder φ] [DecidableEq κ]

/-! ### Overflow checks -/

/-- Either a panic, or the same. -/
def Rel {E A : Type} (x y : Out E A) : Prop := x = .panic ∨ x = y

theorem Rel.refl {E A : Type} (x : Out E A) : Rel x x := .inr rfl

theorem Rel.bind {E A B : Type} {x y : Out E A} {f g : A → Out E B} (h : Rel x y) (k : ∀ a, Rel (f a) (g a)) : Rel (x.bind f) (y.bind g) := by
  rcases h with rfl | rfl
  · exact .inl rfl
  · cases x with
    | ok a => exact k a
    | err e => exact .inr rfl
    | panic => exact .inl rfl

theorem budget_rel (n : Nat) : Rel (Email.budget true n) (Email.budget false n) := by
  unfold Email.budget
  split
  · exact .inr rfl
  · exact .inl rfl

theorem afterLocal_rel (o : Email.Opts) (s : List UInt8) (n : Nat) :
    Rel (Email.afterLocal { o with checked := true } s n) (Email.afterLocal { o with checked := false } s n) := by
  unfold Email.afterLocal
  refine Rel.bind (.refl _) fun b => ?_
  dsimp only
  split
  · split
    · exact .refl _
    · split
      · exact Rel.bind (.refl _) fun r => Rel.bind (budget_rel _) fun n => .refl _
      · exact .refl _
  · exact .refl _

theorem email_rel (o : Email.Opts) (idna : Domain.Idna) (s : List UInt8) :
    Rel (Email.parse { o with checked := true } idna s) (Email.parse { o with checked := false } idna s) := by
  unfold Email.parse
  split
  · exact .refl _
  · exact Rel.bind (.refl _) fun a => Rel.bind (.refl _) fun l => Rel.bind (afterLocal_rel o s l.len) fun x => .refl _

theorem line_rel (top : Nat) (k : Line.Kind) (b : Bool) (min trimmedMin max : Option Nat) (s : List Char) :
    Rel (Line.checkAt .panics top k b min trimmedMin max s) (Line.checkAt .wraps top k b min trimmedMin max s) := by
  unfold Line.checkAt
  split
  · refine Rel.bind ?_ fun n => .refl _
    unfold Line.plusOne
    split
    · exact .refl _
    · exact .inl rfl
  · exact .refl _

theorem make_rel {E E' A A' : Type} (f : E → E') (g : A → A') {ps p ps' p' : List Char → Out E A} {v v' : List Char → Out E Unit} {s : List Char}
    (h1 : Rel (ps s) (ps' s)) (h2 : Rel (p s) (p' s)) (h3 : Rel (v s) (v' s)) :
    Rel ((Impl.make f g ps p v).parseString s) ((Impl.make f g ps' p' v').parseString s) ∧
    Rel ((Impl.make f g ps p v).parseStr s) ((Impl.make f g ps' p' v').parseStr s) ∧
    Rel ((Impl.make f g ps p v).validateStr s) ((Impl.make f g ps' p' v').validateStr s) := by
  simp only [Impl.make]
  refine ⟨?_, ?_, ?_⟩
  · rcases h1 with h | h <;> rw [h]
    · exact .inl rfl
    · exact .refl _
  · rcases h2 with h | h <;> rw [h]
    · exact .inl rfl
    · exact .refl _
  · rcases h3 with h | h <;> rw [h]
    · exact .inl rfl
    · exact .refl _

omit [LinearOrder φ] in
theorem strings_rel [Ord φ] (L : Libs φ κ N U V ε) (q : Ptr) (p : Plan φ κ) (I I' : Impl (Error ε) (Value φ κ N U V))
    (hI : generate (compiled L ⟨true, q⟩) p = some I) (hI' : generate (compiled L ⟨false, q⟩) p = some I') (s : List Char) :
    Rel (I.parseString s) (I'.parseString s) ∧ Rel (I.parseStr s) (I'.parseStr s) ∧ Rel (I.validateStr s) (I'.validateStr s) := by
  cases p with
  | email a =>
    simp only [generate] at hI hI'
    cases hI
    cases hI'
    have h := email_rel ⟨a.comment, a.ip, a.loc, a.atl, a.nonAscii, true⟩ L.idna (strBytes s)
    exact make_rel _ _ (h.bind fun x => .refl _) (h.bind fun x => .refl _) (h.bind fun x => .refl _)
  | utf8 v a =>
    have key : ∀ k, Rel ((lineImpl (compiled L ⟨true, q⟩) k a).parseString s) ((lineImpl (compiled L ⟨false, q⟩) k a).parseString s) ∧
        Rel ((lineImpl (compiled L ⟨true, q⟩) k a).parseStr s) ((lineImpl (compiled L ⟨false, q⟩) k a).parseStr s) ∧
        Rel ((lineImpl (compiled L ⟨true, q⟩) k a).validateStr s) ((lineImpl (compiled L ⟨false, q⟩) k a).validateStr s) := by
      intro k
      unfold lineImpl
      cases a.length with
      | none => exact ⟨.refl _, .refl _, .refl _⟩
      | some x =>
        have h := line_rel (usizeMax q) k x.1 x.2.min x.2.trimmedMin x.2.max s
        exact make_rel _ _ (h.bind fun x => .refl _) (h.bind fun x => .refl _) (h.bind fun x => .refl _)
    simp only [generate] at hI hI'
    cases v <;> cases hI <;> cases hI' <;> exact key _
  | _ =>
    have e := hI.symm.trans hI'
    cases e
    exact ⟨.refl _, .refl _, .refl _⟩

omit [LinearOrder φ] in
/-- The traits of the two builds: the same, or only strings are read. -/
theorem traits_rel [Ord φ] (L : Libs φ κ N U V ε) (Z : NumLibs φ V R ε) (q : Ptr) (p : Plan φ κ) (T T' : Traits φ R (Error ε) (Value φ κ N U V))
    (hT : traits (compiled L ⟨true, q⟩) Z p = some T) (hT' : traits (compiled L ⟨false, q⟩) Z p = some T') :
    T = T' ∨ ∃ I I', generate (compiled L ⟨true, q⟩) p = some I ∧ generate (compiled L ⟨false, q⟩) p = some I' ∧
      T = { string := some I } ∧ T' = { string := some I' } := by
  cases p with
  | email a =>
    simp only [traits, Option.map_eq_some_iff] at hT hT'
    obtain ⟨I, hI, rfl⟩ := hT
    obtain ⟨I', hI', rfl⟩ := hT'
    exact .inr ⟨I, I', hI, hI', rfl, rfl⟩
  | utf8 v a =>
    simp only [traits, Option.map_eq_some_iff] at hT hT'
    obtain ⟨I, hI, rfl⟩ := hT
    obtain ⟨I', hI', rfl⟩ := hT'
    exact .inr ⟨I, I', hI, hI', rfl, rfl⟩
  | _ => exact .inl (Option.some_inj.1 (hT.symm.trans hT'))

/-- C100, overflow checks: whatever is given to an item, the two builds answer the same, except for the strings of C40 and C73,
on which the one with overflow checks panics and the other one does not. Missing for C100: those strings. -/
theorem C100_checks_partial (M : Macro τ φ κ) (ast : Input τ) (p : Plan φ κ) (h : derive M ast = .ok p) (L : Libs φ κ N U V ε)
    (hu : Spec.Url.HostsPresent L.url) (Z : NumLibs φ V R ε) (q : Ptr) (T T' : Traits φ R (Error ε) (Value φ κ N U V))
    (hT : traits (compiled L ⟨true, q⟩) Z p = some T) (hT' : traits (compiled L ⟨false, q⟩) Z p = some T') (x : Arg φ R) :
    (parse Z q T x ≠ parse Z q T' x → parse Z q T x = some .panic ∧ parse Z q T' x ≠ some .panic) ∧
    (parse Z q T x ≠ parse Z q T' x ↔ ∃ s, (x = .str s ∨ x = .string s) ∧ Panics true q p s ∧ ¬ Panics false q p s) ∧
    (validate Z q T x ≠ validate Z q T' x → validate Z q T x = some .panic ∧ validate Z q T' x ≠ some .panic) ∧
    (validate Z q T x ≠ validate Z q T' x ↔ ∃ s, x = .str s ∧ Panics true q p s ∧ ¬ Panics false q p s) := by
  have side : ∀ {I I' : Impl (Error ε) (Value φ κ N U V)}, generate (compiled L ⟨true, q⟩) p = some I →
      generate (compiled L ⟨false, q⟩) p = some I' → ∀ s,
        (I.parseString s ≠ I'.parseString s → I.parseString s = .panic ∧ I'.parseString s ≠ .panic) ∧
        (I.parseString s ≠ I'.parseString s ↔ Panics true q p s ∧ ¬ Panics false q p s) ∧
        (I.parseStr s ≠ I'.parseStr s → I.parseStr s = .panic ∧ I'.parseStr s ≠ .panic) ∧
        (I.parseStr s ≠ I'.parseStr s ↔ Panics true q p s ∧ ¬ Panics false q p s) ∧
        (I.validateStr s ≠ I'.validateStr s → I.validateStr s = .panic ∧ I'.validateStr s ≠ .panic) ∧
        (I.validateStr s ≠ I'.validateStr s ↔ Panics true q p s ∧ ¬ Panics false q p s) := by
    intro I I' hI hI' s
    obtain ⟨a1, a2, a3⟩ := Generated.C71_panics_partial M ast p h (compiled L ⟨true, q⟩) hu I hI s
    obtain ⟨b1, b2, b3⟩ := Generated.C71_panics_partial M ast p h (compiled L ⟨false, q⟩) hu I' hI' s
    obtain ⟨r1, r2, r3⟩ := strings_rel L q p I I' hI hI' s
    have one : ∀ {A : Type} {y z : Out (Error ε) A}, Rel y z → (y = .panic ↔ Panics true q p s) → (z = .panic ↔ Panics false q p s) →
        (y ≠ z → y = .panic ∧ z ≠ .panic) ∧ (y ≠ z ↔ Panics true q p s ∧ ¬ Panics false q p s) := by
      intro A y z hr hy hz
      have k : y ≠ z → y = .panic ∧ z ≠ .panic := fun ne => by
        rcases hr with e | e
        · exact ⟨e, fun e' => ne (e.trans e'.symm)⟩
        · exact absurd e ne
      refine ⟨k, ⟨fun ne => ⟨hy.1 (k ne).1, fun c => (k ne).2 (hz.2 c)⟩, fun ⟨c1, c2⟩ e => c2 (hz.1 (e ▸ hy.2 c1))⟩⟩
    exact ⟨(one r1 a1 b1).1, (one r1 a1 b1).2, (one r2 a2 b2).1, (one r2 a2 b2).2, (one r3 a3 b3).1, (one r3 a3 b3).2⟩
  rcases traits_rel L Z q p T T' hT hT' with rfl | ⟨I, I', hI, hI', rfl, rfl⟩
  · have not_both : ∀ s, ¬ (Panics true q p s ∧ ¬ Panics false q p s) := by
      intro s
      cases p with
      | email a =>
        simp only [traits, Option.map_eq_some_iff] at hT hT'
        obtain ⟨I, hI, rfl⟩ := hT
        obtain ⟨I', hI', e⟩ := hT'
        have : I' = I := Option.some_inj.1 (congrArg Traits.string e)
        subst this
        exact fun c => (side hI hI' s).2.2.2.1.2 c rfl
      | utf8 v a =>
        simp only [traits, Option.map_eq_some_iff] at hT hT'
        obtain ⟨I, hI, rfl⟩ := hT
        obtain ⟨I', hI', e⟩ := hT'
        have : I' = I := Option.some_inj.1 (congrArg Traits.string e)
        subst this
        exact fun c => (side hI hI' s).2.2.2.1.2 c rfl
      | _ => exact fun c => c.2 c.1
    exact ⟨fun c => absurd rfl c, iff_of_false (fun c => c rfl) (by rintro ⟨s, -, c⟩; exact not_both s c), fun c => absurd rfl c,
      iff_of_false (fun c => c rfl) (by rintro ⟨s, -, c⟩; exact not_both s c)⟩
  · have side := side hI hI'
    rcases x with s | s | b | b | c | b | ⟨_ | _, w, i⟩ | f | f | v <;> simp only [parse, validate, Option.map_some, Option.map_none, ne_eq,
      Option.some_inj, not_true_eq_false, false_implies, reduceCtorEq, false_or, or_false, Arg.str.injEq, Arg.string.injEq, exists_eq_left',
      false_and, exists_false, not_false_eq_true, and_true]
    · exact ⟨(side s).2.2.1, (side s).2.2.2.1, (side s).2.2.2.2.1, (side s).2.2.2.2.2⟩
    · exact ⟨(side s).1, (side s).2.1⟩

theorem custom_rel {E A : Type} {x y : Out E A} (h : Rel x y) : Rel (custom x) (custom y) := by
  rcases h with rfl | rfl
  · exact .inl rfl
  · exact .refl _

theorem str_rel {F G E A : Type} (widen : G → F) {p p' : List Char → Out E A} (h : ∀ s, Rel (p s) (p' s)) (d : Deserializer F G) (hint) :
    Rel (drive widen (strVisitor p) hint d) (drive widen (strVisitor p') hint d) := by
  unfold drive
  cases d.feed hint with
  | none => exact .refl _
  | some e =>
    cases e <;> simp only [strVisitor, visit, orError, orElse] <;> first
      | exact .refl _
      | exact custom_rel (h _)
      | (rename_i ty x; cases ty <;> exact .refl _)

theorem string_rel {F G E A : Type} (widen : G → F) {p p' r r' : List Char → Out E A} (h : ∀ s, Rel (p s) (p' s)) (h' : ∀ s, Rel (r s) (r' s))
    (d : Deserializer F G) (hint) : Rel (drive widen (stringVisitor p r) hint d) (drive widen (stringVisitor p' r') hint d) := by
  unfold drive
  cases d.feed hint with
  | none => exact .refl _
  | some e =>
    cases e <;> simp only [stringVisitor, visit, orError, orElse] <;> first
      | exact .refl _
      | exact custom_rel (h _)
      | exact custom_rel (h' _)
      | (rename_i ty x; cases ty <;> exact .refl _)

theorem plain_rel {F G A : Type} {f g : Deserializer F G → Out Unit A} (h : ∀ d, Rel (f d) (g d)) (d : Deserializer F G) (o : Out Unit A) :
    (Outcome (Serde.plain f) d o → o = .panic ∨ Outcome (Serde.plain g) d o) ∧
    (Outcome (Serde.plain g) d o → Outcome (Serde.plain f) d .panic ∨ Outcome (Serde.plain f) d o) := by
  simp only [Serde.outcome_plain]
  rcases h d with e | e
  · exact ⟨fun c => .inl (c.trans e), fun _ => .inl e.symm⟩
  · exact ⟨fun c => .inr (c.trans e), fun c => .inr (c.trans e.symm)⟩

/-- C100, overflow checks, derived `Deserialize`: what a build with overflow checks makes of the data is a panic, or what the
other build makes of it, and conversely. -/
theorem C100_checks_deserialize_partial (L : Libs φ κ N U V ε) (S : SerdeLibs φ V ε) (q : Ptr) (p : Plan φ κ) (body body' : De φ κ N U V)
    (hb : deserialize (compiled L ⟨true, q⟩) S p = some body) (hb' : deserialize (compiled L ⟨false, q⟩) S p = some body')
    (d : Deserializer (Fl φ) (Fl φ)) (o : Out Unit (Value φ κ N U V)) :
    (Outcome body d o → o = .panic ∨ Outcome body' d o) ∧ (Outcome body' d o → Outcome body d .panic ∨ Outcome body d o) := by
  cases p with
  | email a =>
    simp only [deserialize, Option.map_eq_some_iff] at hb hb'
    obtain ⟨I, hI, rfl⟩ := hb
    obtain ⟨I', hI', rfl⟩ := hb'
    exact plain_rel (fun d => str_rel _ (fun s => (strings_rel L q _ I I' hI hI' s).2.1) d _) d o
  | utf8 v a =>
    simp only [deserialize, Option.map_eq_some_iff] at hb hb'
    obtain ⟨I, hI, rfl⟩ := hb
    obtain ⟨I', hI', rfl⟩ := hb'
    exact plain_rel (fun d => string_rel _ (fun s => (strings_rel L q _ I I' hI hI' s).2.1) (fun s => (strings_rel L q _ I I' hI hI' s).1) d _) d o
  | _ =>
    have e := hb.symm.trans hb'
    cases e
    exact ⟨.inr, .inr⟩

/-! ### Pointer width -/

theorem bits_eq (q q' : Ptr) (w : Width) (hw : w ≠ .size) : bits q w = bits q' w := by cases w <;> first | rfl | exact absurd rfl hw

omit [LinearOrder φ] in
theorem generate_ptr [Ord φ] (L : Libs φ κ N U V ε) (c : Bool) (q q' : Ptr) (p : Plan φ κ) (hs : ¬ PtrSized p) (h : ¬ LargestMax q p) (h' : ¬ LargestMax q' p) :
    generate (compiled L ⟨c, q⟩) p = generate (compiled L ⟨c, q'⟩) p := by
  cases p with
  | utf8 v a =>
    have key : ∀ k, lineImpl (compiled L ⟨c, q⟩) k a = lineImpl (compiled L ⟨c, q'⟩) k a := by
      intro k
      unfold lineImpl
      cases ha : a.length with
      | none => rfl
      | some x =>
        obtain ⟨b, l⟩ := x
        have hl : ∀ r, ¬ LargestMax r (.utf8 v a : Plan φ κ) → b = true ∨ ∀ m, l.max = some m → m < usizeMax r := by
          intro r hr
          cases b with
          | true => exact .inl rfl
          | false =>
            refine .inr fun m hm => Nat.lt_of_not_le fun hle => hr ?_
            exact ⟨l, m, ha, hm, hle⟩
        have e1 : ∀ o, Line.parseAt o (usizeMax q) k b l.min l.trimmedMin l.max = Line.parseAt o (usizeMax q') k b l.min l.trimmedMin l.max :=
          fun o => funext fun s => (LineMax.C73_below o _ k b _ _ _ s (hl q h)).1.trans (LineMax.C73_below o _ k b _ _ _ s (hl q' h')).1.symm
        have e2 : ∀ o, Line.validateAt o (usizeMax q) k b l.min l.trimmedMin l.max = Line.validateAt o (usizeMax q') k b l.min l.trimmedMin l.max :=
          fun o => funext fun s => (LineMax.C73_below o _ k b _ _ _ s (hl q h)).2.trans (LineMax.C73_below o _ k b _ _ _ s (hl q' h')).2.symm
        show Impl.make _ _ (Line.parseAt _ (usizeMax q) k b _ _ _) (Line.parseAt _ (usizeMax q) k b _ _ _) (Line.validateAt _ (usizeMax q) k b _ _ _) =
          Impl.make _ _ (Line.parseAt _ (usizeMax q') k b _ _ _) (Line.parseAt _ (usizeMax q') k b _ _ _) (Line.validateAt _ (usizeMax q') k b _ _ _)
        rw [e1, e2]
        rfl
    simp only [generate]
    cases v <;> first | rfl | exact congrArg some (key _)
  | int signed w a => cases w <;> first | rfl | exact absurd trivial hs
  | _ => rfl

omit [LinearOrder φ] in
theorem traits_ptr [Ord φ] (L : Libs φ κ N U V ε) (Z : NumLibs φ V R ε) (c : Bool) (q q' : Ptr) (p : Plan φ κ) (hs : ¬ PtrSized p)
    (h : ¬ LargestMax q p) (h' : ¬ LargestMax q' p) : traits (compiled L ⟨c, q⟩) Z p = traits (compiled L ⟨c, q'⟩) Z p := by
  cases p with
  | int signed w a =>
    have e : ∀ (B : Type) (own : Int → Out Range.RangeError B) sg, intMethods own q sg w = intMethods own q' sg w := by
      intro B own sg
      cases w <;> first | rfl | exact absurd trivial hs
    simp only [traits, generate_ptr L c q q' _ hs h h', intInt]
    have e2 : IntV.check q signed w a.range = IntV.check q' signed w a.range := by
      cases w <;> first | rfl | exact absurd trivial hs
    show (Option.bind _ fun I => (IntV.check q signed w a.range).map _) = Option.bind _ fun I => (IntV.check q' signed w a.range).map _
    rw [e2]
    simp only [compiled, e]
  | utf8 v a =>
    simp only [traits, generate_ptr L c q q' _ hs h h']
  | _ => rfl

omit [LinearOrder φ] [DecidableEq κ] in
theorem deserialize_ptr [Ord φ] [DecidableEq κ] (L : Libs φ κ N U V ε) (S : SerdeLibs φ V ε) (c : Bool) (q q' : Ptr) (p : Plan φ κ) (hs : ¬ PtrSized p)
    (h : ¬ LargestMax q p) (h' : ¬ LargestMax q' p) : deserialize (compiled L ⟨c, q⟩) S p = deserialize (compiled L ⟨c, q'⟩) S p := by
  cases p with
  | int signed w a => cases w <;> first | rfl | exact absurd trivial hs
  | utf8 v a => simp only [deserialize, generate_ptr L c q q' _ hs h h']
  | _ => rfl

/-- C100, machines: whatever is given to an item, as a value that both machines have, the builds for two pointer widths answer
the same. Missing for C100: the maximum of C73. The types `isize` and `usize` are in `C100_sizes`. -/
theorem C100_machines_partial (L : Libs φ κ N U V ε) (Z : NumLibs φ V R ε) (hZ : Lawful Z) (c : Bool) (q q' : Ptr) (p : Plan φ κ)
    (hs : ¬ PtrSized p) (hq : ¬ LargestMax q p) (hq' : ¬ LargestMax q' p) (T T' : Traits φ R (Error ε) (Value φ κ N U V))
    (hT : traits (compiled L ⟨c, q⟩) Z p = some T) (hT' : traits (compiled L ⟨c, q'⟩) Z p = some T') (x : Arg φ R) (hx : WellTyped q x)
    (hx' : WellTyped q' x) : parse Z q T x = parse Z q' T' x ∧ validate Z q T x = validate Z q' T' x := by
  have e : T = T' := Option.some_inj.1 (hT.symm.trans ((traits_ptr L Z c q q' p hs hq hq').trans hT'))
  subst e
  have big : ∀ (r : Ptr) sg i, traits (compiled L ⟨c, r⟩) Z p = some T → WellTyped (φ := φ) (R := R) r (.int sg .size i) →
      parse Z r T (.int sg .size i) = parse Z r T (.int sg .w128 i) ∧ validate Z r T (.int sg .size i) = validate Z r T (.int sg .w128 i) := by
    intro r sg i hr hw
    have hy : WellTyped (φ := φ) (R := R) r (.int sg .w128 i) := IntV.fits_mono _ _ _ (by cases r <;> decide) _ hw
    obtain ⟨o1, -, o2⟩ := Traits.C80_offered (compiled L ⟨c, r⟩) Z p T hr (.int sg .size i)
    obtain ⟨o3, -, o4⟩ := Traits.C80_offered (compiled L ⟨c, r⟩) Z p T hr (.int sg .w128 i)
    by_cases ho : Offers p (.int sg .size i : Arg φ R)
    · have e := Traits.C80_same (compiled L ⟨c, r⟩) Z hZ p T hr _ _ hw hy ho ho (.refl _)
      refine ⟨e, ?_⟩
      obtain ⟨v, hv⟩ := Option.isSome_iff_exists.1 (o2.2 ⟨ho, by simp [Owned]⟩)
      obtain ⟨v', hv'⟩ := Option.isSome_iff_exists.1 (o4.2 ⟨ho, by simp [Owned]⟩)
      obtain ⟨y, hy1, hy2⟩ := Traits.C80_validate_partial (compiled L ⟨c, r⟩) Z hZ p T hr _ hw (by simp [LooseValidate]) v hv
      obtain ⟨z, hz1, hz2⟩ := Traits.C80_validate_partial (compiled L ⟨c, r⟩) Z hZ p T hr _ hy (by simp [LooseValidate]) v' hv'
      have : y = z := Option.some_inj.1 (hy1.symm.trans (e.trans hz1))
      subst this
      show validate Z r T _ = validate Z r T _
      exact hv.trans ((congrArg some (hy2.trans hz2.symm)).trans hv'.symm)
    · have n : ∀ {A : Type} {x y : Option A} {P Q : Prop}, (x.isSome ↔ P) → (y.isSome ↔ Q) → ¬ P → ¬ Q → x = y := by
        intro A x y P Q h1 h2 h3 h4
        cases x with
        | some a => exact absurd (h1.1 rfl) h3
        | none => cases y with
          | some a => exact absurd (h2.1 rfl) h4
          | none => rfl
      exact ⟨n o1 o3 ho ho, n o2 o4 (fun c => ho c.1) (fun c => ho c.1)⟩
  rcases x with s | s | b | b | ch | b | ⟨sg, w, i⟩ | f | f | v
  case int =>
    cases w with
    | size =>
      obtain ⟨a1, a2⟩ := big q sg i hT hx
      obtain ⟨b1, b2⟩ := big q' sg i hT' hx'
      rw [a1, a2, b1, b2]
      cases sg <;> exact ⟨rfl, rfl⟩
    | _ => cases sg <;> exact ⟨rfl, rfl⟩
  all_goals exact ⟨rfl, rfl⟩

/-- C100, machines, derived `Deserialize`. -/
theorem C100_machines_deserialize_partial (L : Libs φ κ N U V ε) (S : SerdeLibs φ V ε) (c : Bool) (q q' : Ptr) (p : Plan φ κ)
    (hs : ¬ PtrSized p) (hq : ¬ LargestMax q p) (hq' : ¬ LargestMax q' p) (body body' : De φ κ N U V)
    (hb : deserialize (compiled L ⟨c, q⟩) S p = some body) (hb' : deserialize (compiled L ⟨c, q'⟩) S p = some body')
    (d : Deserializer (Fl φ) (Fl φ)) (o : Out Unit (Value φ κ N U V)) : Outcome body d o ↔ Outcome body' d o := by
  rw [deserialize_ptr L S c q q' p hs hq hq'] at hb
  cases hb.symm.trans hb'
  exact .rfl

/-- C100, `isize` and `usize`: a machine with narrower pointers accepts exactly the strings that the wider one accepts and whose
number it has, with the same number. -/
theorem C100_sizes (L : Libs φ κ N U V ε) (c c' : Bool) (q q' : Ptr) (hq : bits q .size ≤ bits q' .size) (signed : Bool) (a : RangeAttribute Int)
    (I I' : Impl (Error ε) (Value φ κ N U V)) (hI : generate (compiled L ⟨c, q⟩) (.int signed .size a) = some I)
    (hI' : generate (compiled L ⟨c', q'⟩) (.int signed .size a) = some I') (s : List Char) (i : Int) :
    I.parseStr s = .ok (.int i) ↔ I'.parseStr s = .ok (.int i) ∧ Fits signed (bits q .size) i := by
  rw [Generated.int_ok _ _ _ _ I hI, Generated.int_ok _ _ _ _ I' hI']
  constructor
  · rintro ⟨j, e, h1, h2, h3⟩
    cases e
    exact ⟨⟨i, rfl, h1, IntV.fits_mono _ _ _ hq _ h2, h3⟩, h2⟩
  · rintro ⟨⟨j, e, h1, -, h3⟩, h2⟩
    cases e
    exact ⟨i, rfl, h1, h2, h3⟩

/-! ### The exceptions are real, and the hypotheses are met -/

/-- C100 is false of overflow checks: `#[validator(email)] struct S { local_part, need_quoted, domain_part, .. comments }` and a local
part of 64 letters followed by a comment. A build without overflow checks accepts the string, one with overflow checks panics. -/
theorem C100_violated_checks : ∃ p, derive Derive.full ⟨[Derive.attr (.path (some "email"))],
      .struct (.named [("comment_before_local_part", "Option<String>"), ("local_part", "String"), ("need_quoted", "bool"),
        ("comment_after_local_part", "Option<String>"), ("comment_before_domain_part", "Option<String>"), ("domain_part", "Host"),
        ("comment_after_domain_part", "Option<String>")])⟩ = .ok p ∧
    ∃ I I', generate (compiled Generated.libs ⟨true, .p64⟩) p = some I ∧ generate (compiled Generated.libs ⟨false, .p64⟩) p = some I' ∧
      ∃ s, I.parseStr s = .panic ∧ (I'.parseStr s).IsOk :=
  ⟨_, rfl, _, _, rfl, rfl, List.replicate 64 'a' ++ "(c)@x.yy".toList, by decide +kernel, ⟨_, rfl⟩⟩

/-- C100 is false of machines: `#[validator(line(char_length(max = 4294967295)))] struct S(String);` without overflow checks. With
pointers of 64 bits the line break is refused, with pointers of 32 bits it is accepted. -/
theorem C100_violated_machines : ∃ p, derive Derive.full ⟨[Derive.attr (.list (some "line") (.metas [.list (some "char_length")
      (.metas [.nameValue (some "max") (.lit (.int (ascii "4294967295")))])]))], .struct (.unnamed ["String"])⟩ = .ok p ∧ ¬ PtrSized p ∧
    ∃ I I', generate (compiled Generated.libs ⟨false, .p64⟩) p = some I ∧ generate (compiled Generated.libs ⟨false, .p32⟩) p = some I' ∧
      ∃ s, I.parseStr s = .err (.line .invalid) ∧ I'.parseStr s = .ok (.text s) :=
  ⟨_, rfl, id, _, _, rfl, rfl, ['\n'], by decide +kernel, by decide +kernel⟩

/-- `#[validator(signed_integer)] struct S(i8);` and the `isize` 5. -/
example : ∃ p, derive Derive.full ⟨[Derive.attr (.path (some "signed_integer"))], .struct (.unnamed ["i8"])⟩ = .ok p ∧
    ¬ PtrSized p ∧ ¬ LargestMax .p32 p ∧ ¬ LargestMax .p64 p ∧ Lawful Traits.numLibs ∧
    ∃ T T', traits (compiled Generated.libs ⟨false, .p32⟩) Traits.numLibs p = some T ∧
      traits (compiled Generated.libs ⟨true, .p64⟩) Traits.numLibs p = some T' ∧
      WellTyped (φ := Int) (R := Unit) .p32 (.int true .size 5) ∧ WellTyped (φ := Int) (R := Unit) .p64 (.int true .size 5) ∧
      parse Traits.numLibs .p32 T (.int true .size 5) = some (.ok (.int 5)) ∧
      parse Traits.numLibs .p64 T' (.int true .size 300) = some (.err (.int (.range .tooLarge))) :=
  ⟨_, rfl, id, id, id, _root_.Verif.Props.Traits.lawful, _, _, rfl, rfl, by simp [WellTyped, Fits, bits], by simp [WellTyped, Fits, bits],
    by decide +kernel, by decide +kernel⟩

/-- `#[validator(unsigned_integer)] struct S(usize);`: 65536 on machines of 16 and 32 bits. -/
example : ∃ p, derive Derive.full ⟨[Derive.attr (.path (some "unsigned_integer"))], .struct (.unnamed ["usize"])⟩ = .ok p ∧ PtrSized p ∧
    ∃ I I', generate (compiled Generated.libs ⟨true, .p16⟩) p = some I ∧ generate (compiled Generated.libs ⟨true, .p32⟩) p = some I' ∧
      bits .p16 .size ≤ bits .p32 .size ∧
      I.parseStr "65536".toList = .err (.int (.parseInt .posOverflow)) ∧ I'.parseStr "65536".toList = .ok (.int 65536) ∧
      I.parseStr "65535".toList = .ok (.int 65535) :=
  ⟨_, rfl, trivial, _, _, rfl, rfl, by decide, by decide +kernel, by decide +kernel, by decide +kernel⟩

end Verif.Props.Builds
