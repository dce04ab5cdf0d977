import Verif.Model.FloatAttr
import Verif.Spec.FloatAttr
import Verif.Props.Float
import Verif.Props.Attr
import Verif.Proof.AttrFixture

/-!
# C54, C55 and C83 from the attribute to the floats: what a `number` attribute makes of texts
-/

namespace Verif.Props.FloatAttr

open Verif.Range Verif.Float Verif.Attr
open Verif.Spec.Range Verif.Spec.Float Verif.Spec.Attr Verif.Spec.FloatAttr
open Verif.Props.Float

variable {F : Fmt} {τ κ : Type} [DecidableEq κ]

/-! ## The bounds as they are written -/

theorem exact_some {d : List UInt8} {neg : Bool} {q : ℚ} (h : Decimal d neg q) : exact.fromStr d = some q := by
  have h' : ∃ q neg, Decimal d neg q := ⟨q, neg, h⟩
  obtain ⟨neg', hc⟩ := h'.choose_spec
  simp only [exact]
  rw [dif_pos h', (decimal_unique hc h).2]

theorem written {d : List UInt8} {x : Float F} (h : fromStr F d = some x) (hx : x.mag < F.inf) :
    ∃ q, exact.fromStr d = some q ∧ Nearest q x := by
  by_contra hn
  have : fromStr F d = none := by
    rw [C83_reads_nothing_else]
    refine fun neg => ⟨fun q hq => hn ⟨q, exact_some hq, writes hq h⟩, fun hi => ?_, fun hi => ?_⟩
    · obtain ⟨y, hy, hy', -⟩ := (C83_reads_words (F := F) d neg).1 hi
      rw [h] at hy; cases hy
      rw [isInf_iff] at hy'; omega
    · obtain ⟨y, hy, hy'⟩ := (C83_reads_words (F := F) d neg).2 hi
      rw [h] at hy; cases hy
      rw [isNan_iff] at hy'; omega
  rw [h] at this; cases this

theorem number_written {syn : Syn τ} {p : Meta τ} {x : Float F} (h : SaysNumber syn (fromStr F) p x) (hx : x.mag < F.inf) :
    ∃ q, SaysNumber syn exact.fromStr p q ∧ Nearest q x := by
  rcases h with ⟨n, l, d, h1, h2, h3⟩ | ⟨n, l, d, h1, h2, h3⟩ | ⟨n, t, d, h1, h2, h3⟩ <;> obtain ⟨q, e, w⟩ := written h3 hx
  · exact ⟨q, .inl ⟨n, l, d, h1, h2, e⟩, w⟩
  · exact ⟨q, .inr (.inl ⟨n, l, d, h1, h2, e⟩), w⟩
  · exact ⟨q, .inr (.inr ⟨n, t, d, h1, h2, e⟩), w⟩

theorem opt_written {syn : Syn τ} {ps : List (Meta τ)} {n : String} {o : Option (Float F)}
    (h : SetOpt ps n (SaysNumber syn (fromStr F)) o) (hx : ∀ x, o = some x → x.mag < F.inf) :
    ∃ q, SetOpt ps n (SaysNumber syn exact.fromStr) q ∧ Read q o := by
  rcases h with ⟨p, hp, hn, x, rfl, h⟩ | ⟨h, rfl⟩
  · obtain ⟨q, e, w⟩ := number_written h (hx x rfl)
    exact ⟨some q, .inl ⟨p, hp, hn, q, rfl, e⟩, .inr ⟨q, x, rfl, rfl, (isFinite_iff x).mpr (hx x rfl), w⟩⟩
  · exact ⟨none, .inr ⟨h, rfl⟩, .inl ⟨rfl, rfl⟩⟩

theorem operand_written {l : Option (Option Lit)} {o : Option (Float F)} (h : SaysOperand (ty F) l o)
    (hx : ∀ x, o = some x → x.mag < F.inf) : ∃ q, SaysOperand exact l q ∧ Read q o := by
  rcases h with ⟨h, rfl⟩ | ⟨l', d, x, h, h', h3, rfl⟩
  · exact ⟨none, .inl ⟨h, rfl⟩, .inl ⟨rfl, rfl⟩⟩
  · obtain ⟨q, e, w⟩ := written h3 (hx x rfl)
    exact ⟨some q, .inr ⟨l', d, q, h, h', e, rfl⟩, .inr ⟨q, x, rfl, rfl, (isFinite_iff x).mpr (hx x rfl), w⟩⟩

theorem range_written {syn : Syn τ} {full : Bool} {p : Meta τ} {b : Bounds (Float F)} (h : SaysRange syn full (ty F) p b)
    (hx : ∀ x, b.min = some x ∨ b.max = some x → x.mag < F.inf) :
    ∃ B, SaysRange syn full exact p B ∧ Read B.min b.min ∧ Read B.max b.max ∧ b.inclusive = B.inclusive := by
  rcases h with ⟨r, hr, h1, h2, h3⟩ | ⟨t, ht, ⟨ps, h1, h2, h3, h4, h5⟩, -⟩
  · obtain ⟨lo, e1, r1⟩ := operand_written h1 fun x e => hx x (.inl e)
    obtain ⟨hi, e2, r2⟩ := operand_written h2 fun x e => hx x (.inr e)
    refine ⟨⟨lo, hi, b.inclusive⟩, .inl ⟨r, hr, e1, e2, h3.trans ?_⟩, r1, r2, rfl⟩
    rcases r2 with ⟨h, h'⟩ | ⟨_, _, h, h', -⟩ <;> simp [h, h']
  · obtain ⟨lo, e1, r1⟩ := opt_written h3 fun x e => hx x (.inl e)
    obtain ⟨hi, e2, r2⟩ := opt_written h4 fun x e => hx x (.inr e)
    exact ⟨⟨lo, hi, b.inclusive⟩, .inr ⟨t, ht, ⟨ps, h1, h2, e1, e2, h5⟩, fun _ _ _ _ => by simp [exact]⟩, r1, r2, rfl⟩

/-- The attribute with its numbers as they are written. -/
noncomputable def exactly (E : Env τ (Float F) κ) : Env τ ℚ κ := ⟨E.syn, E.serde, E.rocket, E.full, exact, E.usize, E.country, E.order, E.regexOk⟩

/-- C83: an accepted `number` attribute writes one range, and the bounds of the validator are the floats nearest to the numbers written
there. -/
theorem C83_attribute (E : Env τ (Float F) κ) (hE : E.num = ty F) (m : Meta τ) (a : NumberAttribute (Float F))
    (h : numberAttribute E m = .ok a) :
    ∃ R, WrittenRange E.syn E.full m R ∧ ReadRange R a.range ∧ ∀ R', WrittenRange E.syn E.full m R' → R' = R := by
  obtain ⟨ps, hg, hwf, hr, ho⟩ := (Attr.C53_number E m a).1 h
  suffices ∃ R, WrittenRange E.syn E.full m R ∧ ReadRange R a.range by
    obtain ⟨R, hR, hrr⟩ := this
    have key : ∀ R, WrittenRange E.syn E.full m R →
        numberAttribute (exactly E) m = .ok ⟨R, a.nan, a.conflict, a.serde, a.rocket⟩ := by
      rintro R ⟨ps', hg', hs⟩
      cases gives_inj E.syn m ps ps' hg hg'
      refine (Attr.C53_number (exactly E) m _).2 ⟨ps, hg, hwf, ?_, ho⟩
      rcases hs with ⟨p, hp, hn, hs⟩ | ⟨hno, e⟩
      · exact .inl ⟨p, hp, hn, hs, fun _ _ _ _ => rfl⟩
      · exact .inr ⟨hno, e⟩
    refine ⟨R, hR, hrr, fun R' hR' => ?_⟩
    have := (key R' hR').symm.trans (key R hR)
    simpa using this
  rw [hE] at hr
  rcases hr with ⟨p, hp, hn, ⟨n, t, m', e1, e2, hs⟩, hw⟩ | ⟨hno, e⟩
  · have hw' : ∀ b, a.range = .inside b ∨ a.range = .outside b → ∀ x, b.min = some x ∨ b.max = some x → x.mag < F.inf := by
      intro b hb x hx
      have := hw b hb x hx
      simpa [ty] using this
    cases hR : a.range with
    | unlimited =>
      rw [hR] at hs
      exact ⟨.unlimited, ⟨ps, hg, .inl ⟨p, hp, hn, n, t, m', e1, e2, hs⟩⟩, trivial⟩
    | inside b =>
      rw [hR] at hs
      obtain ⟨B, hB, r⟩ := range_written hs.2 (hw' b (.inl hR))
      exact ⟨.inside B, ⟨ps, hg, .inl ⟨p, hp, hn, n, t, m', e1, e2, hs.1, hB⟩⟩, r⟩
    | outside b =>
      rw [hR] at hs
      obtain ⟨B, hB, r⟩ := range_written hs.2 (hw' b (.inr hR))
      exact ⟨.outside B, ⟨ps, hg, .inl ⟨p, hp, hn, n, t, m', e1, e2, hs.1, hB⟩⟩, r⟩
  · rw [e]
    exact ⟨.unlimited, ⟨ps, hg, .inr ⟨hno, rfl⟩⟩, trivial⟩

theorem read_min {P : ℚ → Prop} {o : Option ℚ} {x : Option (Float F)} (h : Read o x) (hP : ∀ q, o = some q → P q) :
    ∀ m, x = some m → ∃ p, Nearest p m ∧ P p := by
  rintro m rfl
  rcases h with ⟨-, h⟩ | ⟨q, y, rfl, h, -, w⟩
  · cases h
  · cases h; exact ⟨q, w, hP q rfl⟩

theorem read_noNan {R : RangeOption ℚ} {r : RangeOption (Float F)} (h : ReadRange R r) : NoNan r := by
  have key : ∀ {o : Option ℚ} {x : Option (Float F)}, Read o x → ∀ m, x = some m → ¬ IsNan m := by
    intro o x h m hm
    obtain ⟨p, hp, -⟩ := read_min (P := fun _ => True) h (fun _ _ => trivial) m hm
    exact nearest_not_nan hp
  unfold ReadRange at h
  split at h
  · exact ⟨key h.1, key h.2.1⟩
  · exact ⟨key h.1, key h.2.1⟩
  · trivial
  · exact h.elim

theorem config_attribute {E : Env τ (Float F) κ} {m : Meta τ} {a : NumberAttribute (Float F)} (h : numberConfig E m = .ok a) :
    numberAttribute E m = .ok a := by
  unfold numberConfig at h
  cases h1 : numberAttribute E m with
  | ok b =>
    rw [h1] at h
    simp only [Out.bind_ok] at h
    obtain ⟨r, n, c, _, _⟩ := b
    cases r <;> cases n <;> cases c <;> simp_all
  | err e => rw [h1] at h; cases h
  | panic => rw [h1] at h; cases h

/-- C83: the code for an accepted `number` attribute compiles, and its parser judges decimal texts by the range as it is written, as far as
rounding allows: an inclusive `Inside` range accepts the nearest float for every number in it, an exclusive maximum lets no number pass that
is not below it, an inclusive `Outside` range refuses every number in it, and `Unlimited` accepts all. -/
theorem C83_attribute_texts_partial (E : Env τ (Float F) κ) (hE : E.num = ty F) (m : Meta τ) (a : NumberAttribute (Float F))
    (h : numberConfig E m = .ok a) :
    ∃ chk, check a.range = some chk ∧ ∀ R, WrittenRange E.syn E.full m R → ∀ s neg q, Decimal s neg q →
      (∀ B, R = .inside B → B.inclusive = true → Contains B q → a.nan ≠ .must → ∃ x, parseStr chk a.nan s = .ok x ∧ RoundsTo neg q x) ∧
      (∀ B, R = .inside B → B.inclusive = false → ∀ x, parseStr chk a.nan s = .ok x → ∀ p, B.max = some p → q < p) ∧
      (∀ B, R = .outside B → B.inclusive = true → Bounded B → Contains B q → parseStr chk a.nan s = .err (.range .forbidden)) ∧
      (R = .unlimited → a.nan ≠ .must → ∃ x, parseStr chk a.nan s = .ok x ∧ RoundsTo neg q x) := by
  obtain ⟨R, hR, hrr, hu⟩ := C83_attribute E hE m a (config_attribute h)
  have hnn := read_noNan hrr
  obtain ⟨chk, hc⟩ := Option.isSome_iff_exists.mp (C83_compiles a.range hnn)
  refine ⟨chk, hc, fun R' hR' s neg q hs => ?_⟩
  rw [hu R' hR']
  have bounds : ∀ {B : Bounds ℚ} {b : Bounds (Float F)}, Read B.min b.min ∧ Read B.max b.max ∧ b.inclusive = B.inclusive →
      Contains B q → (∀ m, b.min = some m → ∃ p, Nearest p m ∧ p ≤ q) ∧ ∀ m, b.max = some m → ∃ p, Nearest p m ∧ q ≤ p :=
    fun r hq => ⟨read_min r.1 fun p hp => hq.1 p hp, read_min r.2.1 fun p hp => (hq.2 p hp).1⟩
  refine ⟨?_, ?_, ?_, ?_⟩
  · rintro B rfl hi hq hn
    cases ha : a.range with
    | inside b =>
      rw [ha] at hrr hc
      obtain ⟨h1, h2⟩ := bounds hrr hq
      exact C83_inside_accepted_partial b (hrr.2.2.trans hi) q h1 h2 a.nan hn chk hc s neg hs
    | outside b => rw [ha] at hrr; exact hrr.elim
    | unlimited => rw [ha] at hrr; exact hrr.elim
  · rintro B rfl hi x hx p hp
    cases ha : a.range with
    | inside b =>
      rw [ha] at hrr hc hnn
      rcases hrr.2.1 with ⟨h', -⟩ | ⟨p', y, h1, h2, -, w⟩
      · rw [hp] at h'; cases h'
      · rw [hp] at h1; cases h1
        exact C83_exclusive_partial b (hrr.2.2.trans hi) hnn a.nan chk hc s neg q hs x hx y h2 p w
    | outside b => rw [ha] at hrr; exact hrr.elim
    | unlimited => rw [ha] at hrr; exact hrr.elim
  · rintro B rfl hi hb hq
    cases ha : a.range with
    | outside b =>
      rw [ha] at hrr hc
      obtain ⟨h1, h2⟩ := bounds hrr hq
      refine C83_outside_refused_partial b (hrr.2.2.trans hi) ?_ q h1 h2 a.nan chk hc s neg hs
      rcases hrr with ⟨r1, r2, -⟩
      unfold Bounded at hb ⊢
      rcases r1 with ⟨e1, e2⟩ | ⟨_, _, e1, e2, -⟩ <;> rcases r2 with ⟨e3, e4⟩ | ⟨_, _, e3, e4, -⟩ <;> simp_all
    | inside b => rw [ha] at hrr; exact hrr.elim
    | unlimited => rw [ha] at hrr; exact hrr.elim
  · rintro rfl hn
    cases ha : a.range with
    | unlimited =>
      obtain ⟨x, hx, hr⟩ := C83_reads_decimal (F := F) s neg q hs
      refine ⟨x, ?_, hr⟩
      rw [(C83_text chk a.nan s).2 x hx, C83_accepts _ hnn a.nan chk hc]
      refine ⟨rfl, .inr ⟨nearest_not_nan (writes hs hx), hn, ?_⟩⟩
      rw [ha]; trivial
    | inside b => rw [ha] at hrr; exact hrr.elim
    | outside b => rw [ha] at hrr; exact hrr.elim

/-! ## Attributes that accept nothing -/

theorem read_finite {o : Option ℚ} {x : Option (Float F)} (h : Read o x) : ∀ m, x = some m → IsFinite m := by
  rintro m rfl
  rcases h with ⟨-, h⟩ | ⟨q, y, rfl, h, w, -⟩
  · cases h
  · cases h; exact w

theorem place_of_finite {x : Float F} (h : IsFinite x) : place x = ((value x : WithTop ℚ) : Ext) := place_finite ((isFinite_iff x).mp h)

/-- A text that is accepted as this number. -/
theorem accepts_number {r : RangeOption (Float F)} (hnn : NoNan r) {nan : TriAllow} {chk : Float F → Out RangeError Unit}
    (hc : check r = some chk) (hn : nan ≠ .must) (x : Float F) (hx : ¬ IsNan x) (hs : Satisfies (placeRange r) (place x)) :
    ∃ s y, parseStr chk nan s = .ok y ∧ ¬ IsNan y := by
  obtain ⟨s, hs', -⟩ := C83_every_float x hx
  refine ⟨s, x, ?_, hx⟩
  rw [(C83_text chk nan s).2 x hs', C83_accepts _ hnn nan chk hc]
  exact ⟨rfl, .inr ⟨hx, hn, hs⟩⟩

theorem inf_number (neg : Bool) : ¬ IsNan (infinity F neg) ∧ place (infinity F neg) = if neg then ⊥ else ⊤ := by
  constructor
  · rw [isNan_iff]; simp [infinity]
  · rw [place_inf rfl]; rfl

/-- C54, floats, exactly: the validator of an accepted `number` attribute accepts a text as a number (not NaN) if and only if NaN is not
required and the bounds of an `Inside` range are in order. -/
theorem C54_nonempty_number (E : Env τ (Float F) κ) (hE : E.num = ty F) (m : Meta τ) (a : NumberAttribute (Float F))
    (h : numberConfig E m = .ok a) :
    ∃ chk, check a.range = some chk ∧ ((∃ s x, parseStr chk a.nan s = .ok x ∧ ¬ IsNan x) ↔
      a.nan ≠ .must ∧ ∀ b, a.range = .inside b → Ordered (placeBounds b)) := by
  obtain ⟨R, hR, hrr, hu⟩ := C83_attribute E hE m a (config_attribute h)
  have hnn := read_noNan hrr
  obtain ⟨chk, hc⟩ := Option.isSome_iff_exists.mp (C83_compiles a.range hnn)
  refine ⟨chk, hc, ?_, ?_⟩
  · rintro ⟨s, x, hs, hx⟩
    cases hf : fromStr F s with
    | none => rw [(C83_text chk a.nan s).1 hf] at hs; cases hs
    | some y =>
      rw [(C83_text chk a.nan s).2 y hf, C83_accepts _ hnn a.nan chk hc] at hs
      obtain ⟨rfl, ⟨hn, -⟩ | ⟨-, hm, hsat⟩⟩ := hs
      · exact absurd hn hx
      · refine ⟨hm, fun b hb lo hlo hi hhi => ?_⟩
        rw [hb] at hsat
        have h1 := hsat.1 lo hlo
        obtain ⟨h2, h3⟩ := hsat.2 hi hhi
        exact ⟨h1.trans h2, fun he e => h3 he (le_antisymm h2 (e ▸ h1))⟩
  · rintro ⟨hn, ho⟩
    cases ha : a.range with
    | unlimited =>
      rw [ha] at hc hnn
      exact accepts_number hnn hc hn (infinity F true) (inf_number true).1 trivial
    | inside b =>
      rw [ha] at hc hnn hrr
      have ho := ho b ha
      cases R with
      | inside B =>
        cases hmin : b.min with
        | some x =>
          refine accepts_number hnn hc hn x (hnn.1 x hmin) ⟨?_, ?_⟩
          · intro y hy
            simp only [placeBounds, hmin, Option.map_some, Option.some.injEq] at hy
            exact hy ▸ le_refl _
          · exact fun y hy => ho _ (by simp [placeBounds, hmin]) y hy
        | none =>
          refine accepts_number hnn hc hn (infinity F true) (inf_number true).1 ⟨?_, ?_⟩
          · intro y hy
            simp [placeBounds, hmin] at hy
          · intro y hy
            simp only [placeBounds, Option.map_eq_some_iff] at hy
            obtain ⟨z, hz, rfl⟩ := hy
            rw [(inf_number true).2, place_of_finite (read_finite hrr.2.1 z hz)]
            exact ⟨bot_le, fun _ => WithBot.bot_ne_coe⟩
      | outside B => exact hrr.elim
      | unlimited => exact hrr.elim
    | outside b =>
      rw [ha] at hc hnn hrr
      cases R with
      | outside B =>
        cases hmax : b.max with
        | some x =>
          refine accepts_number hnn hc hn (infinity F false) (inf_number false).1 ?_
          rintro ⟨-, -, hh⟩
          have := (hh (place x) (by simp [placeBounds, hmax])).1
          rw [(inf_number false).2, place_of_finite (read_finite hrr.2.1 x hmax)] at this
          exact absurd (WithBot.coe_le_coe.mp this) (by simp)
        | none =>
          refine accepts_number hnn hc hn (infinity F true) (inf_number true).1 ?_
          rintro ⟨hb, hh, -⟩
          cases hmin : b.min with
          | none => simp [Bounded, placeBounds, hmin, hmax] at hb
          | some x =>
            have := hh (place x) (by simp [placeBounds, hmin])
            rw [(inf_number true).2, place_of_finite (read_finite hrr.1 x hmin)] at this
            exact absurd this (by simp)
      | inside B => exact hrr.elim
      | unlimited => exact hrr.elim

/-- C55, `number`, exactly: the validator of an accepted attribute accepts no text at all if and only if NaN is disallowed and the bounds of
its `Inside` range are not in order. -/
theorem C55_number_exact (E : Env τ (Float F) κ) (hE : E.num = ty F) (m : Meta τ) (a : NumberAttribute (Float F))
    (h : numberConfig E m = .ok a) :
    ∃ chk, check a.range = some chk ∧ ((∀ s x, parseStr chk a.nan s ≠ .ok x) ↔
      a.nan = .disallow ∧ ∃ b, a.range = .inside b ∧ ¬ Ordered (placeBounds b)) := by
  obtain ⟨chk, hc, hiff⟩ := C54_nonempty_number E hE m a h
  obtain ⟨R, hR, hrr, -⟩ := C83_attribute E hE m a (config_attribute h)
  have hnn := read_noNan hrr
  refine ⟨chk, hc, ?_, ?_⟩
  · intro hno
    have hd : a.nan = .disallow := by
      by_contra hd
      obtain ⟨x, hx, hx'⟩ := (C83_reads_words (F := F) (ascii "nan") false).2 ⟨[], ascii "nan", rfl, .inl ⟨rfl, rfl⟩, by decide⟩
      refine hno (ascii "nan") x ?_
      rw [(C83_text chk a.nan _).2 x hx, C83_accepts _ hnn a.nan chk hc]
      exact ⟨rfl, .inl ⟨hx', hd⟩⟩
    refine ⟨hd, ?_⟩
    by_contra hb
    obtain ⟨s, x, hs, -⟩ := hiff.mpr ⟨by rw [hd]; decide, fun b hb' => not_not.mp fun ho => hb ⟨b, hb', ho⟩⟩
    exact hno s x hs
  · rintro ⟨hd, b, hb, ho⟩ s x hs
    refine ho ((hiff.mp ⟨s, x, hs, fun hx => ?_⟩).2 b hb)
    cases hf : fromStr F s with
    | none => rw [(C83_text chk a.nan s).1 hf] at hs; cases hs
    | some y =>
      rw [(C83_text chk a.nan s).2 y hf, C83_accepts _ hnn a.nan chk hc] at hs
      obtain ⟨rfl, ⟨-, hn⟩ | ⟨hn, -⟩⟩ := hs
      · exact hn hd
      · exact hn hx

/-- All features, with the floats of this type. -/
def floatEnv (F : Fmt) : Env Toks (Float F) Nat where
  syn := toksSyn
  serde := true
  rocket := true
  full := true
  num := ty F
  usize s := (IntV.fromStr false 64 s).toOption.map Int.toNat
  country s := ["TW", "US"].idxOf? s
  order := ⟨id, fun _ => .refl _⟩
  regexOk _ := true

/-- The hypotheses are met: `number(range(Inside(min = -1.5, max = 1)))`. -/
example : ∃ a, numberConfig (floatEnv .f64) (.list (some "number") (.metas [.list (some "range") (.one (.list (some "Inside")
        (.metas [.nameValue (some "min") (.neg (.float (ascii "1.5"))), .nameValue (some "max") (.lit (.int (ascii "1")))])))])) = .ok a ∧
      a.range = .inside ⟨some (ofRatio .f64 true 3 2), some (one .f64), true⟩ ∧ a.nan = .allow :=
  ⟨⟨_, .allow, .disallow, ⟨true, true⟩, ⟨true, true⟩⟩, by decide +kernel, rfl, rfl⟩

/-- `number(range(Inside(5..=1)), nan(Disallow))` accepts no text, `number(range(Inside(1..=5)), nan(Disallow))` does. -/
theorem C55_number_texts_violated :
    (∃ a chk, numberConfig (floatEnv .f64) (.list (some "number") (.metas [.list (some "range") (.one (.list (some "Inside")
        (.range ⟨some (some (.int (ascii "5"))), some (some (.int (ascii "1"))), false⟩))), .list (some "nan") (.word "Disallow")])) = .ok a ∧
      a.conflict = .disallow ∧ check a.range = some chk ∧ ∀ s x, parseStr chk a.nan s ≠ .ok x) ∧
    (∃ a chk, numberConfig (floatEnv .f64) (.list (some "number") (.metas [.list (some "range") (.one (.list (some "Inside")
        (.range ⟨some (some (.int (ascii "1"))), some (some (.int (ascii "5"))), false⟩))), .list (some "nan") (.word "Disallow")])) = .ok a ∧
      check a.range = some chk ∧ ∃ s x, parseStr chk a.nan s = .ok x) := by
  constructor
  · have h : numberConfig (floatEnv .f64) (.list (some "number") (.metas [.list (some "range") (.one (.list (some "Inside")
        (.range ⟨some (some (.int (ascii "5"))), some (some (.int (ascii "1"))), false⟩))), .list (some "nan") (.word "Disallow")])) =
        .ok ⟨.inside ⟨some (ofRatio .f64 false 5 1), some (ofRatio .f64 false 1 1), true⟩, .disallow, .disallow, ⟨true, true⟩, ⟨true, true⟩⟩ := by
      decide +kernel
    obtain ⟨chk, hc, hiff⟩ := C55_number_exact _ rfl _ _ h
    refine ⟨_, chk, h, rfl, hc, hiff.mpr ⟨rfl, _, rfl, fun ho => ?_⟩⟩
    have := (ho (place (ofRatio .f64 false 5 1)) (by simp only [placeBounds, Option.map_some]) (place (ofRatio .f64 false 1 1))
      (by simp only [placeBounds, Option.map_some])).1
    have hlt : place (ofRatio .f64 false 1 1) < place (ofRatio .f64 false 5 1) := by
      rw [place_lt (by rw [isNan_iff]; decide +kernel) (by rw [isNan_iff]; decide +kernel)]
      decide +kernel
    exact absurd this (not_le.mpr hlt)
  · have h : numberConfig (floatEnv .f64) (.list (some "number") (.metas [.list (some "range") (.one (.list (some "Inside")
        (.range ⟨some (some (.int (ascii "1"))), some (some (.int (ascii "5"))), false⟩))), .list (some "nan") (.word "Disallow")])) =
        .ok ⟨.inside ⟨some (ofRatio .f64 false 1 1), some (ofRatio .f64 false 5 1), true⟩, .disallow, .disallow, ⟨true, true⟩, ⟨true, true⟩⟩ := by
      decide +kernel
    obtain ⟨chk, hc, hiff⟩ := C54_nonempty_number _ rfl _ _ h
    obtain ⟨s, x, hs, -⟩ := hiff.mpr ⟨by decide, by
      rintro b ⟨⟩ m hm n hn
      simp only [placeBounds, Option.map_some, Option.some.injEq] at hm hn
      subst hm hn
      refine ⟨le_of_lt ?_, fun hf => absurd hf (by simp [placeBounds])⟩
      rw [place_lt (by rw [isNan_iff]; decide +kernel) (by rw [isNan_iff]; decide +kernel)]
      decide +kernel⟩
    exact ⟨_, chk, h, hc, s, x, hs⟩

end Verif.Props.FloatAttr
