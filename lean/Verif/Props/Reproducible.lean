import Verif.Props.Constants
import Verif.Props.Traits
import Verif.Props.Expect
import Verif.Proof.Reproducible
import Verif.Spec.Reproducible

/-!
# C82: two compilations of the same item
-/

namespace Verif.Props.Reproducible

open Verif Verif.Attr Verif.Derive Verif.Generated Verif.Integrations Verif.Spec.Reproducible Verif.Proof.Reproducible
open Verif.Spec.Generated (Same)
open Verif.BaseN (strBytes)
open Verif.Number (Fl)

variable {τ φ κ N U V ε R α : Type}

/-! ## Lemmas -/

theorem Agree.refl {E A : Type} {R : A → A → Prop} (h : ∀ a, R a a) (x : Out E A) : Agree R x x := by
  cases x <;> simp [Agree, h]

theorem Both.refl {A : Type} {R : A → A → Prop} (h : ∀ a, R a a) (x : Option A) : Both R x x := by
  cases x <;> simp [Both, h]

theorem Pointwise.refl {A : Type} {R : A → A → Prop} (h : ∀ a, R a a) : (l : List A) → Pointwise R l l
  | [] => trivial
  | a :: l => ⟨h a, Pointwise.refl h l⟩

theorem agree_custom {E A : Type} {R : A → A → Prop} {x y : Out E A} (h : Agree R x y) : Agree R (Serde.custom x) (Serde.custom y) := by
  cases x <;> cases y <;> simp_all [Agree, Serde.custom]

theorem agree_make {E E' A A' : Type} {R : A → A → Prop} {R' : A' → A' → Prop} (f : E → E') (g : A → A') (hg : ∀ a b, R a b → R' (g a) (g b))
    {x y : Out E A} (h : Agree R x y) : Agree R' (mapErr f (x.map g)) (mapErr f (y.map g)) := by
  cases x <;> cases y <;> simp_all [Agree, mapErr, Out.map]

theorem agree_void {E A : Type} {R : A → A → Prop} {x y : Out E A} (h : Agree R x y) : x.void = y.void := by
  cases x <;> cases y <;> simp_all [Agree, Out.void]

/-- The same number, or maps with the same entries. -/
def SameNumber {C : Type} : Phone.Value C N → Phone.Value C N → Prop
  | .numbers m, .numbers n => m.Perm n
  | x, y => x = y

theorem phone_agree [DecidableEq κ] (lib : Phone.Lib κ N) (cs ds : List κ) (hl : 2 ≤ cs.length) (hp : cs.Perm ds) (s : List UInt8) :
    Agree SameNumber (Phone.parseStr lib cs s) (Phone.parseStr lib ds s) := by
  have hd : 2 ≤ ds.length := hp.length_eq ▸ hl
  obtain ⟨h1, h2⟩ := Phone.C47_order lib cs ds hl hd (fun c => hp.mem_iff) s
  obtain ⟨-, a2, -, -, a5⟩ := Phone.C47_several lib cs hl s
  obtain ⟨-, b2, -, -, -⟩ := Phone.C47_several lib ds hd s
  cases hx : Phone.parseStr lib cs s with
  | ok v =>
    obtain ⟨m, m', rfl, hy, hm⟩ := h1 v hx
    rw [hy]
    obtain ⟨n, hn, -, k1⟩ := a2 _ hx
    obtain ⟨n', hn', -, k2⟩ := b2 _ hy
    cases hn
    cases hn'
    exact (List.perm_ext_iff_of_nodup (Generated.nodup_of_keys k1) (Generated.nodup_of_keys k2)).2 fun e => hm e
  | err e =>
    rw [(h2 e).1 hx]
    rfl
  | panic => exact absurd hx a5

section
variable [LinearOrder φ] [DecidableEq κ]

/-- Two implementations that differ in the order of countries only. -/
theorem phone_impl (L : Libs φ κ N U V ε) (cs ds : List κ) (sf rf : Flags) (hl : 2 ≤ cs.length) (hp : cs.Perm ds) :
    ∃ I J, generate L (.phone ⟨cs, sf, rf⟩) = some I ∧ generate L (.phone ⟨ds, sf, rf⟩) = some J ∧
      (∀ s, Agree Same (I.parseStr s) (J.parseStr s)) ∧ (∀ s, Agree Same (I.parseString s) (J.parseString s)) ∧
      ∀ s, I.validateStr s = J.validateStr s := by
  have key (s : List Char) := phone_agree L.phone cs ds hl hp (strBytes s)
  have hs : ∀ a b : Phone.Value κ N, SameNumber a b → Same (Value.phone a : Value φ κ N U V) (.phone b) := by
    intro a b h
    cases a <;> cases b <;> simp_all [SameNumber, Same]
  refine ⟨_, _, rfl, rfl, fun s => agree_make _ _ hs (key s), fun s => agree_make _ _ hs (key s), fun s => ?_⟩
  simp only [Impl.make, Phone.C47_validate, agree_void (key s)]

end

/-! ## The property -/

section
variable [DecidableEq κ]

/-- C82: the macro accepts the item again, or refuses it again with the same kind of error, and what the code is generated from is the
same but for the order of the countries of `phone`. -/
theorem C82_derive (M : Macro τ φ κ) (o : Order κ) (ast : Input τ) : Agree Alike (derive M ast) (derive { M with order := o } ast) := by
  have h1 := derive_map M M.order ast
  have h2 := derive_map M o ast
  rw [show ({ M with order := M.order } : Macro τ φ κ) = M from rfl] at h1
  rw [h1, h2]
  cases derive { M with order := written } ast with
  | err e => rfl
  | panic => trivial
  | ok p =>
    cases p with
    | phone a =>
      by_cases hl : 2 ≤ a.countries.length
      · refine .inr ⟨M.order.list a.countries, o.list a.countries, a.serde, a.rocket, rfl, rfl, ?_, (M.order.perm _).trans (o.perm _).symm⟩
        rw [(M.order.perm _).length_eq]
        exact hl
      · left
        have : ∀ o : Order κ, o.list a.countries = a.countries := by
          intro o
          have hp := o.perm a.countries
          match a.countries, hl, hp with
          | [], _, hp => exact hp.eq_nil
          | [c], _, hp => exact List.perm_singleton.1 hp
          | _ :: _ :: _, hl, _ => simp at hl
        simp [reorder, this]
    | _ => exact .inl rfl

/-- C82: the text of the error is the same. -/
theorem C82_messages (E : Env τ α κ) (o : Order κ) (other : Meta τ → String) (v : Validator) (m : Meta τ) :
    Diag.readAttribute { E with order := o } other v m = Diag.readAttribute E other v m := by
  have h1 := diag_table_map E other E.order v m
  have h2 := diag_table_map E other o v m
  rw [show ({ E with order := E.order } : Env τ α κ) = E from rfl] at h1
  simp only [Diag.readAttribute, h1, h2, bind_of_map, finish_map]

/-- C82: when exactly the second compilation generates its code from the same plan whatever the order of sets: unless the item is a
`phone` with two or more countries. -/
theorem C82_exact (M : Macro τ φ κ) (ast : Input τ) : (∀ o : Order κ, derive { M with order := o } ast = derive M ast) ↔
    ¬ ∃ a, derive M ast = .ok (.phone a) ∧ 2 ≤ a.countries.length := by
  constructor
  · rintro h ⟨a, ha, hl⟩
    obtain ⟨v, b, m, ps, -, -, -, ho, -⟩ := Generated.C71_written M ast _ ha
    have hn : a.countries.Nodup := by
      rcases ho.2.2.1 with ⟨p, -, -, n, t, is, ds, -, -, -, hd, he⟩ | ⟨-, he⟩
      · rw [he, (M.order.perm ds).nodup_iff]
        exact hd
      · simp [he]
    have k := derive_map M ⟨fun l => l.reverse, fun l => l.reverse_perm⟩ ast
    rw [h ⟨fun l => l.reverse, fun l => l.reverse_perm⟩, h written, ha] at k
    simp only [Out.map, reorder, Out.ok.injEq, Plan.phone.injEq] at k
    have e : a.countries = a.countries.reverse := congrArg PhoneAttribute.countries k
    match hc : a.countries, hn, hl, e with
    | c :: d :: cs, hn, hl, e =>
      have h1 : (c :: d :: cs).head? = (c :: d :: cs).reverse.head? := congrArg List.head? e
      rw [List.head?_reverse] at h1
      have h2 : c ∈ d :: cs := by
        rw [List.getLast?_cons_cons, List.head?_cons] at h1
        exact List.mem_of_getLast? h1.symm
      exact (List.nodup_cons.1 hn).1 h2
  · intro h o
    have := C82_derive M o ast
    cases hp : derive M ast with
    | ok p =>
      rw [hp] at this
      cases hq : derive { M with order := o } ast with
      | ok q =>
        rw [hq] at this
        rcases this with e | ⟨cs, ds, sf, rf, rfl, -, hl, -⟩
        · rw [e]
        · exact absurd ⟨_, hp, hl⟩ h
      | err e => rw [hq] at this; exact this.elim
      | panic => rw [hq] at this; exact this.elim
    | err e =>
      rw [hp] at this
      cases hq : derive { M with order := o } ast with
      | err f => rw [hq] at this; exact congrArg _ (Eq.symm this)
      | ok q => rw [hq] at this; exact this.elim
      | panic => rw [hq] at this; exact this.elim
    | panic =>
      rw [hp] at this
      cases hq : derive { M with order := o } ast with
      | panic => rfl
      | ok q => rw [hq] at this; exact this.elim
      | err f => rw [hq] at this; exact this.elim

end

section
variable [LinearOrder φ] [DecidableEq κ]

/-- C82: the program behaves the same after the second compilation. For every input of every type, the parsing functions give the same
value (a map of numbers has the same entries) or the same error, and the validating functions the same answer. -/
theorem C82_parse (M : Macro τ φ κ) (o : Order κ) (ast : Input τ) (p q : Plan φ κ) (hp : derive M ast = .ok p)
    (hq : derive { M with order := o } ast = .ok q) (L : Libs φ κ N U V ε) (Z : Traits.NumLibs φ V R ε) (ptr : IntV.Ptr) :
    Both (fun T T' => ∀ x, Both (Agree Same) (Traits.parse Z ptr T x) (Traits.parse Z ptr T' x) ∧
      Traits.validate Z ptr T x = Traits.validate Z ptr T' x) (Traits.traits L Z p) (Traits.traits L Z q) := by
  have := C82_derive M o ast
  rw [hp, hq] at this
  rcases this with rfl | ⟨cs, ds, sf, rf, rfl, rfl, hl, hperm⟩
  · exact Both.refl (fun T x => ⟨Both.refl (Agree.refl Generated.same_refl) _, rfl⟩) _
  · obtain ⟨I, J, hI, hJ, h1, h2, h3⟩ := phone_impl L cs ds sf rf hl hperm
    simp only [Traits.traits, hI, hJ, Option.map_some, Both]
    intro x
    cases x with
    | str s => exact ⟨h1 s, congrArg some (h3 s)⟩
    | string s => exact ⟨h2 s, rfl⟩
    | int signed w i => cases signed <;> exact ⟨trivial, rfl⟩
    | _ => exact ⟨trivial, rfl⟩

/-- C82: `Deserialize`, `FromFormField` and `FromParam` as well. -/
theorem C82_integrations (M : Macro τ φ κ) (o : Order κ) (ast : Input τ) (p q : Plan φ κ) (hp : derive M ast = .ok p)
    (hq : derive { M with order := o } ast = .ok q) (L : Libs φ κ N U V ε) (S : SerdeLibs φ V ε) :
    Both (fun b c => ∀ n d, Both (Agree Same) (Serde.run b n d) (Serde.run c n d)) (integrate M L S p).deserialize
      (integrate { M with order := o } L S q).deserialize ∧
    Both (fun f g => ∀ s, Agree Same (f s) (g s)) (integrate M L S p).fromFormField (integrate { M with order := o } L S q).fromFormField ∧
    Both (fun f g => ∀ s, Agree Same (f s) (g s)) (integrate M L S p).fromParam (integrate { M with order := o } L S q).fromParam := by
  have := C82_derive M o ast
  rw [hp, hq] at this
  rcases this with rfl | ⟨cs, ds, sf, rf, rfl, rfl, hl, hperm⟩
  · exact ⟨Both.refl (fun b n d => Both.refl (Agree.refl Generated.same_refl) _) _, Both.refl (fun f s => Agree.refl Generated.same_refl _) _,
      Both.refl (fun f s => Agree.refl Generated.same_refl _) _⟩
  · obtain ⟨I, J, hI, hJ, h1, h2, h3⟩ := phone_impl L cs ds sf rf hl hperm
    simp only [integrate, deserialize, serdeFlags, rocketFlags, hI, hJ, Option.map_some]
    refine ⟨?_, ?_, ?_⟩
    · split
      · intro n d
        cases n with
        | zero => trivial
        | succ n =>
          simp only [Serde.run, Serde.strDe, Serde.plain, Both, Serde.drive]
          cases d.feed .str with
          | none => rfl
          | some e =>
            cases e with
            | int t x => cases t <;> rfl
            | char c => exact agree_custom (h1 _)
            | str s => exact agree_custom (h1 _)
            | borrowedStr s => exact agree_custom (h1 _)
            | string s => exact agree_custom (h1 _)
            | _ => rfl
      · trivial
    · split
      · exact fun s => agree_custom (h1 s)
      · trivial
    · split
      · exact fun s => h1 s
      · trivial

end

section
variable [DecidableEq κ]

/-- C82: the interface is the same after the second compilation: the type and the `impl` blocks with their functions, the fields that are
filled and read, the names and types of the constants of the feature `test`. Of what is left, the values of the constants and the text
that `serde` shows, only the order of countries may differ. -/
theorem C82_interface_partial (M : Macro τ φ κ) (o : Order κ) (i : Surface.Item τ) (p q : Plan φ κ) (hp : derive M i.input = .ok p)
    (hq : derive { M with order := o } i.input = .ok q) (test : Bool) (ptr : IntV.Ptr) :
    Surface.expand { M with order := o } test ptr i = Surface.expand M test ptr i ∧ filled q = filled p ∧ read q = read p ∧
    Pointwise SameConstant (Constants.constants p) (Constants.constants q) ∧
    Both (Pointwise SamePiece) (Expect.expect p) (Expect.expect q) := by
  have := C82_derive M o i.input
  rw [hp, hq] at this
  rcases this with rfl | ⟨cs, ds, sf, rf, rfl, rfl, hl, hperm⟩
  · refine ⟨?_, rfl, rfl, ?_, Both.refl (fun t => ?_) _⟩
    · simp only [Surface.expand, hp, hq]
      rfl
    · exact Pointwise.refl (fun c => ⟨rfl, rfl, .inl rfl⟩) _
    · exact Pointwise.refl (fun c => .inl rfl) _
  · have hd : ds.length = cs.length := hperm.length_eq.symm
    have hce : cs.isEmpty = false := by cases cs <;> simp_all
    have hde : ds.isEmpty = false := by cases ds <;> simp_all
    refine ⟨?_, ?_, rfl, ?_, ?_⟩
    · simp only [Surface.expand, hp, hq, Out.bind, Surface.blocks, Surface.ownBlocks, Surface.phoneBlocks, Surface.frameworkBlocks, hd]
      rfl
    · simp only [filled, hd]
    · simp only [Constants.constants, hd]
      exact ⟨⟨rfl, rfl, .inr ⟨cs, ds, rfl, rfl, hperm⟩⟩, trivial⟩
    · simp only [Expect.expect, Expect.phoneExpect, hce, hde, Both]
      exact ⟨.inl rfl, .inr ⟨cs, ds, rfl, rfl, hperm⟩, trivial⟩

/-- C82 is violated by `phone` with two or more countries: for every such item there is a second compilation after which
`V_COUNTRIES` lists the countries in another order, and so does the text that `serde` shows. -/
theorem C82_violated_order (M : Macro τ φ κ) (ast : Input τ) (a : PhoneAttribute κ) (hp : derive M ast = .ok (.phone a))
    (hl : 2 ≤ a.countries.length) : ∃ (o : Order κ) (q : Plan φ κ), derive { M with order := o } ast = .ok q ∧
      Constants.constants q ≠ Constants.constants (.phone a : Plan φ κ) ∧ Expect.expect q ≠ Expect.expect (.phone a : Plan φ κ) := by
  by_cases h : ∀ o : Order κ, derive { M with order := o } ast = derive M ast
  · exact absurd ⟨a, hp, hl⟩ ((C82_exact M ast).1 h)
  · simp only [Classical.not_forall] at h
    obtain ⟨o, ho⟩ := h
    have := C82_derive M o ast
    rw [hp] at this
    cases hq : derive { M with order := o } ast with
    | ok q =>
      rw [hq] at this
      rcases this with rfl | ⟨cs, ds, sf, rf, e, rfl, hc, hperm⟩
      · exact absurd (hq.trans hp.symm) ho
      · obtain rfl : a = ⟨cs, sf, rf⟩ := by cases e; rfl
        have hne : ds ≠ cs := by
          rintro rfl
          exact ho (hq.trans hp.symm)
        have hde : ds.isEmpty = false := by
          have := hperm.length_eq
          cases ds <;> simp_all
        have hce : cs.isEmpty = false := by cases cs <;> simp_all
        refine ⟨o, _, hq, ?_, ?_⟩
        · simp [Constants.constants, hne]
        · simp [Expect.expect, Expect.phoneExpect, hce, hde, hne]
    | err e => rw [hq] at this; exact this.elim
    | panic => rw [hq] at this; exact this.elim

end

/-! ## The hypotheses are met -/

/-- `#[validator(phone(countries(TW, US)))] struct S(PhoneNumbers);` -/
def twoCountries : Input Toks :=
  ⟨[Derive.attr (.list (some "phone") (.metas [.list (some "countries") (.words ["TW", "US"])]))], .struct (.unnamed ["PhoneNumbers"])⟩

/-- The other order. -/
def backwards : Order Nat := ⟨fun l => l.reverse, fun l => l.reverse_perm⟩

/-- Two compilations: the same errors, but `V_COUNTRIES` is `[TW, US]` and `[US, TW]`. -/
example : derive Derive.full twoCountries = .ok (.phone ⟨[0, 1], Flags.both, Flags.both⟩) ∧
    derive { Derive.full with order := backwards } twoCountries = .ok (.phone ⟨[1, 0], Flags.both, Flags.both⟩) := ⟨rfl, rfl⟩

/-- An item that is refused, in the same way. -/
example : ∃ ast, derive Derive.full ast = .err (.attr .repeated) ∧ derive { Derive.full with order := backwards } ast = .err (.attr .repeated) :=
  ⟨⟨[Derive.attr (.list (some "phone") (.metas [.list (some "countries") (.words ["US", "US"])]))], .struct (.unnamed ["PhoneNumbers"])⟩, rfl, rfl⟩

end Verif.Props.Reproducible
