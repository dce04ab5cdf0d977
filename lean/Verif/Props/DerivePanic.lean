import Verif.Proof.DerivePanic
import Verif.Props.Derive

/-!
# Property C70: the derive macro reports what is wrong, it does not crash
-/

namespace Verif.Props.DerivePanic

open Verif.Attr Verif.Derive Verif.Spec.Attr Verif.Spec.Derive
open Verif.Range (RangeOption Bounds)

variable {τ φ κ α β : Type} [DecidableEq κ]

theorem lift_panic (x : Out AttrError β) : lift x = .panic ↔ x = .panic := by
  cases x <;> simp [lift]

theorem tupleOne_panic (f : Fields) (i : Item) : tupleOne f i ≠ .panic := by
  unfold tupleOne
  split
  · split_ifs <;> simp
  · simp

theorem namedOnly_panic (f : Fields) (n : Nat) (names : List String) (i : Item) : namedOnly f n names i ≠ .panic := by
  unfold namedOnly
  split
  · split_ifs <;> simp
  · simp

theorem single_panic (d : Data) (t : TypeEnum) : single d t ≠ .panic := by
  unfold single
  split
  · exact tupleOne_panic _ _
  · simp

theorem twoNamed_panic (d : Data) (i : Item) : twoNamed d i ≠ .panic := by
  unfold twoNamed
  split
  · split_ifs <;> simp
  · simp

theorem select_panic (syn : Syn τ) (enabled : Validator → Bool) (u : Option (Validator × Meta τ)) (l : List (Meta τ)) :
    select syn enabled u l ≠ .panic := by
  induction l generalizing u with
  | nil => simp [select]
  | cons a l ih =>
    unfold select
    repeat' first | exact ih _ | (simp; done) | split

theorem simple_panic (x : Out AttrError β) (hx : x ≠ .panic) (f : β → Out DeriveError α) (hf : ∀ b, f b ≠ .panic) :
    (lift x).bind f ≠ .panic := by
  rw [Ne, bind_panic, lift_panic]
  rintro (h | ⟨b, _, h⟩)
  · exact hx h
  · exact hf b h

theorem then_ok (x : Out DeriveError Unit) (hx : x ≠ .panic) (b : β) : x.bind (fun _ => .ok b) ≠ .panic := by
  cases x <;> simp_all [Out.bind]

theorem base_ok (E : Env τ α κ) (m : Meta τ) : baseAttribute E m ≠ .panic := by
  rw [baseAttribute, Ne, map_panic]; exact table_no_panic E _ (by simp [serdeRocket]) m

theorem basic_ok (E : Env τ α κ) (m : Meta τ) : basicAttribute E m ≠ .panic := by
  rw [basicAttribute, Ne, map_panic]; exact table_no_panic E _ (by simp [serdeRocket]) m

theorem url_ok (E : Env τ α κ) (m : Meta τ) : urlAttribute E m ≠ .panic := by
  rw [urlAttribute, Ne, map_panic]; exact table_no_panic E _ (by simp [serdeRocket]) m

theorem ip_ok (E : Env τ α κ) (m : Meta τ) : ipAttribute E m ≠ .panic := by
  rw [ipAttribute, Ne, map_panic]; exact table_no_panic E _ (by simp [serdeRocket]) m

theorem bit_ok (E : Env τ α κ) (m : Meta τ) : bitAttribute E m ≠ .panic := by
  rw [bitAttribute, Ne, map_panic]; exact table_no_panic E _ (by simp [serdeRocket]) m

theorem byte_ok (E : Env τ α κ) (m : Meta τ) : byteAttribute E m ≠ .panic := by
  rw [byteAttribute, Ne, map_panic]; exact table_no_panic E _ (by simp [serdeRocket]) m

theorem domain_ok (E : Env τ α κ) (m : Meta τ) : domainAttribute E m ≠ .panic := by
  rw [domainAttribute, Ne, map_panic]; exact table_no_panic E _ (by simp [serdeRocket]) m

theorem email_ok (E : Env τ α κ) (m : Meta τ) : emailAttribute E m ≠ .panic := by
  rw [emailAttribute, Ne, map_panic]; exact table_no_panic E _ (by simp [serdeRocket]) m

theorem host_ok (E : Env τ α κ) (m : Meta τ) : hostAttribute E m ≠ .panic := by
  rw [hostAttribute, Ne, map_panic]; exact table_no_panic E _ (by simp [serdeRocket]) m

theorem hex_ok (c : Char) (E : Env τ α κ) (m : Meta τ) : hexAttribute c E m ≠ .panic := by
  rw [hexAttribute, Ne, map_panic]; exact table_no_panic E _ (by simp [serdeRocket]) m

theorem phone_ok (E : Env τ α κ) (m : Meta τ) : phoneAttribute E m ≠ .panic := by
  rw [phoneAttribute, Ne, map_panic]; exact table_no_panic E _ (by simp [serdeRocket]) m

theorem utf8_ok (E : Env τ α κ) (m : Meta τ) : utf8Attribute E m ≠ .panic := by
  rw [utf8Attribute, Ne, map_panic]; exact table_no_panic E _ (by simp [serdeRocket]) m

theorem length_ok (E : Env τ α κ) (m : Meta τ) : lengthAttribute E m ≠ .panic := by
  simp only [lengthAttribute, ne_eq, bind_panic, not_or, not_exists, not_and, notAbove_panic]
  exact ⟨table_no_panic E _ (by simp) m, by simp⟩

theorem regex_ok (E : Env τ α κ) (m : Meta τ) : regexAttribute E m ≠ .panic := by
  simp only [regexAttribute, ne_eq, bind_panic, not_or, not_exists, not_and]
  refine ⟨table_no_panic E _ (by simp [serdeRocket]) m, fun s _ => ?_⟩
  split <;> simp

theorem domainConfig_ok (E : Env τ α κ) (m : Meta τ) : domainConfig E m ≠ .panic := by
  simp only [domainConfig, ne_eq, bind_panic, domain_ok, false_or, not_exists, not_and]
  intro a _
  split_ifs <;> simp

theorem emailConfig_ok (E : Env τ α κ) (m : Meta τ) : emailConfig E m ≠ .panic := by
  simp only [emailConfig, ne_eq, bind_panic, email_ok, false_or, not_exists, not_and]
  intro a _
  split_ifs <;> simp

theorem number_panic (E : Env τ α κ) (m : Meta τ) (h : numberConfig E m = .panic) : InfiniteBound E.syn E.full E.num m := by
  rw [numberConfig, bind_panic] at h
  rcases h with h | ⟨a, _, h⟩
  · rw [numberAttribute, map_panic] at h
    exact table_panic E _ (by simp [serdeRocket]) m h
  · split_ifs at h

theorem range_panic (E : Env τ α κ) (m : Meta τ) (h : rangeAttribute E m = .panic) : InfiniteBound E.syn E.full E.num m := by
  rw [rangeAttribute, map_panic] at h
  exact table_panic E _ (by simp [serdeRocket]) m h

theorem domainShape_panic (a : DomainAttribute) (f : Fields) : domainShape a f ≠ .panic := by
  unfold domainShape
  repeat' first | exact namedOnly_panic _ _ _ _ | exact tupleOne_panic _ _ | split

theorem hostShape_panic (a : HostAttribute) (f : Fields) : hostShape a f ≠ .panic := by
  unfold hostShape
  repeat' first | exact namedOnly_panic _ _ _ _ | exact tupleOne_panic _ _ | split

theorem ipShape_panic (x : String) (t : TypeEnum) (a : IpAttribute) (f : Fields) : ipShape x t a f ≠ .panic := by
  unfold ipShape
  repeat' first | exact namedOnly_panic _ _ _ _ | exact tupleOne_panic _ _ | split

theorem emailShape_panic (a : EmailAttribute) (f : Fields) : emailShape a f ≠ .panic := by
  unfold emailShape
  repeat' first | exact namedOnly_panic _ _ _ _ | exact tupleOne_panic _ _ | split

theorem ipHandler_panic (M : Macro τ φ κ) (v : Validator) (x : String) (t : TypeEnum) (d : Data) (m : Meta τ) :
    ipHandler M v x t d m ≠ .panic := by
  refine simple_panic _ (ip_ok _ m) _ fun a => ?_
  split
  · exact then_ok _ (ipShape_panic _ _ _ _) _
  · simp

theorem intHandler_panic (M : Macro τ φ κ) (signed : Bool) (d : Data) (m : Meta τ) : intHandler M signed d m ≠ .panic := by
  have key : ∀ w, rangeAttribute (M.env (intTy signed (IntV.bits M.ptr w))) m ≠ .panic := by
    intro w h
    obtain ⟨_, _, _, _, _, o, _, hw⟩ := range_panic _ m h
    exact hw fun _ _ _ _ => rfl
  unfold intHandler
  split
  · split
    · exact simple_panic _ (key _) _ fun a => by simp
    · simp
  · simp

/-- The statement of C70: no item makes the macro panic. -/
def C70 : Prop := ∀ (τ φ κ : Type) [DecidableEq κ] (M : Macro τ φ κ) (ast : Input τ), derive M ast ≠ .panic

/-- C70: if the macro panics, the item is a `number` whose range has a bound that is no finite number. Missing: those items
(`C70_violated`). -/
theorem C70_only_numbers_partial (M : Macro τ φ κ) (ast : Input τ) (h : derive M ast = .panic) :
    ∃ a m, Only Ours ast.attrs a ∧ Requests M.syn M.enabled a .number m ∧
      (ast.data = .struct (.unnamed ["f32"]) ∧ InfiniteBound M.syn M.full M.f32 m ∨
        ast.data = .struct (.unnamed ["f64"]) ∧ InfiniteBound M.syn M.full M.f64 m) := by
  rw [derive, bind_panic] at h
  rcases h with h | ⟨u, hu, h⟩
  · exact absurd h (select_panic _ _ _ _)
  · cases u with
    | none => cases h
    | some u =>
      obtain ⟨v, m⟩ := u
      obtain ⟨a, ha, hr⟩ := (select_none M.syn M.enabled ast.attrs v m).1 hu
      replace h : handler M v ast.data m = .panic := h
      cases v <;> simp only [handler] at h
      case number =>
        refine ⟨a, m, ha, hr, ?_⟩
        unfold numberHandler at h
        split at h
        · next ty hd =>
          split at h
          · next double hn =>
            rw [bind_panic, lift_panic] at h
            rcases h with h | ⟨_, _, h⟩
            · have := number_panic _ m h
              unfold numberType at hn
              split at hn <;> cases hn
              · exact .inl ⟨hd, this⟩
              · exact .inr ⟨hd, this⟩
            · cases h
          · cases h
        · cases h
      all_goals exfalso; revert h
      case domain =>
        unfold domainHandler
        split
        · exact simple_panic _ (domainConfig_ok _ m) _ fun a => then_ok _ (domainShape_panic _ _) _
        · exact simple_panic _ (domain_ok _ m) _ fun a => by simp
      case email =>
        unfold emailHandler
        split
        · exact simple_panic _ (emailConfig_ok _ m) _ fun a => then_ok _ (emailShape_panic _ _) _
        · exact simple_panic _ (email_ok _ m) _ fun a => by simp
      case host =>
        refine simple_panic _ (host_ok _ m) _ fun a => ?_
        split
        · exact then_ok _ (hostShape_panic _ _) _
        · simp
      all_goals first
        | exact ipHandler_panic M _ _ _ _ _
        | exact intHandler_panic M _ _ _
        | exact simple_panic _ (base_ok _ m) _ fun a => then_ok _ (single_panic _ _) _
        | exact simple_panic _ (basic_ok _ m) _ fun a => then_ok _ (single_panic _ _) _
        | exact simple_panic _ (bit_ok _ m) _ fun a => then_ok _ (single_panic _ _) _
        | exact simple_panic _ (byte_ok _ m) _ fun a => then_ok _ (single_panic _ _) _
        | exact simple_panic _ (length_ok _ m) _ fun a => then_ok _ (single_panic _ _) _
        | exact simple_panic _ (utf8_ok _ m) _ fun a => then_ok _ (single_panic _ _) _
        | exact simple_panic _ (hex_ok _ _ m) _ fun a => then_ok _ (single_panic _ _) _
        | exact simple_panic _ (phone_ok _ m) _ fun a => then_ok _ (single_panic _ _) _
        | exact simple_panic _ (regex_ok _ m) _ fun a => then_ok _ (single_panic _ _) _
        | exact simple_panic _ (url_ok _ m) _ fun a => then_ok _ (twoNamed_panic _ _) _

/-- C70: exactly the items with which the macro panics: a `number` for `f32` or `f64` where the first wrong thing in the attribute is a
range with a bound that is no finite number. -/
theorem C70_exact (M : Macro τ φ κ) (ast : Input τ) :
    derive M ast = .panic ↔ ∃ a m, Only Ours ast.attrs a ∧ Requests M.syn M.enabled a .number m ∧
      (ast.data = .struct (.unnamed ["f32"]) ∧ FirstInfinite M.syn M.full M.serde M.rocket M.f32 m ∨
        ast.data = .struct (.unnamed ["f64"]) ∧ FirstInfinite M.syn M.full M.serde M.rocket M.f64 m) := by
  have hc : ∀ (num : NumTy φ) m, numberConfig (M.env num) m = .panic ↔ FirstInfinite M.syn M.full M.serde M.rocket num m := by
    intro num m
    rw [numberConfig, bind_panic, number_panic_iff]
    constructor
    · rintro (h | ⟨a, _, h⟩)
      · exact h
      · split_ifs at h
    · exact .inl
  constructor
  · intro h
    obtain ⟨a, m, ha, hr, hd⟩ := C70_only_numbers_partial M ast h
    refine ⟨a, m, ha, hr, ?_⟩
    rw [derive, (select_none M.syn M.enabled ast.attrs .number m).2 ⟨a, ha, hr⟩] at h
    replace h : numberHandler M ast.data m = .panic := h
    rcases hd with ⟨hd, _⟩ | ⟨hd, _⟩ <;> rw [hd] at h
    · replace h : (lift (numberConfig (M.env M.f32) m)).bind (fun a => .ok (Plan.number false a : Plan φ κ)) = .panic := h
      rw [bind_panic, lift_panic, hc] at h
      exact .inl ⟨hd, by simpa using h⟩
    · replace h : (lift (numberConfig (M.env M.f64) m)).bind (fun a => .ok (Plan.number true a : Plan φ κ)) = .panic := h
      rw [bind_panic, lift_panic, hc] at h
      exact .inr ⟨hd, by simpa using h⟩
  · rintro ⟨a, m, ha, hr, hd⟩
    rw [derive, (select_none M.syn M.enabled ast.attrs .number m).2 ⟨a, ha, hr⟩]
    change numberHandler M ast.data m = .panic
    rcases hd with ⟨hd, h⟩ | ⟨hd, h⟩ <;> rw [hd]
    · change (lift (numberConfig (M.env M.f32) m)).bind (fun a => .ok (Plan.number false a : Plan φ κ)) = .panic
      rw [(lift_panic _).2 ((hc _ _).2 h)]; rfl
    · change (lift (numberConfig (M.env M.f64) m)).bind (fun a => .ok (Plan.number true a : Plan φ κ)) = .panic
      rw [(lift_panic _).2 ((hc _ _).2 h)]; rfl

/-! ### The hypotheses are met -/

/-- Floats with an infinity: the integers, and `1e999` is read as infinity. -/
def floats : NumTy (Option Int) where
  fromStr s := if s = ascii "1e999" then some none else (IntV.fromStr true 64 s).toOption.map some
  pcmp
    | some a, some b => some (compare a b)
    | some _, none => some .lt
    | none, some _ => some .gt
    | none, none => some .eq
  literal x := x.isSome

/-- The macro with these floats. -/
def withInfinity : Macro Toks (Option Int) Nat where
  syn := toksSyn
  serde := true
  rocket := true
  full := true
  f32 := floats
  f64 := floats
  ptr := .p64
  usize := env.usize
  country := env.country
  order := env.order
  regexOk := env.regexOk
  enabled _ := true

/-- `#[validator(number(range(Inside(min = 0, max = m))))] struct S(f64);` -/
def numberItem (max : String) : Input Toks :=
  ⟨[Derive.attr (.list (some "number") (.metas [.list (some "range") (.one (.list (some "Inside")
    (.metas [.nameValue (some "min") (.lit (.int (ascii "0"))), .nameValue (some "max") (.lit (.float (ascii max)))])))]))],
    .struct (.unnamed ["f64"])⟩

/-- C70 fails: the bound `1e999` is read as infinity, which is no literal. -/
theorem C70_violated : ¬ C70 := fun h => h _ _ _ withInfinity (numberItem "1e999") rfl

/-- A finite bound is accepted by the same macro. -/
example : derive withInfinity (numberItem "10") =
    .ok (.number true ⟨.inside ⟨some (some 0), some (some 10), true⟩, .allow, .disallow, Flags.both, Flags.both⟩) := by rfl

/-- A second `range` is refused before its bound `1e999` is written. -/
example : ∃ e, derive withInfinity ⟨[Derive.attr (.list (some "number") (.metas [.list (some "range") (.one (.path (some "Unlimited"))),
    .list (some "range") (.one (.list (some "Inside") (.metas [.nameValue (some "max") (.lit (.float (ascii "1e999")))])))]))],
    .struct (.unnamed ["f64"])⟩ = .err e := ⟨_, rfl⟩

/-- The item of `C70_violated`, seen by `C70_exact`. -/
example : ∃ a m, Only Ours (numberItem "1e999").attrs a ∧ Requests withInfinity.syn withInfinity.enabled a .number m ∧
    FirstInfinite withInfinity.syn true true true withInfinity.f64 m := by
  obtain ⟨a, m, ha, hr, ⟨h, _⟩ | ⟨_, h⟩⟩ := (C70_exact withInfinity (numberItem "1e999")).1 rfl
  · simp [numberItem] at h
  · exact ⟨a, m, ha, hr, h⟩

end Verif.Props.DerivePanic
