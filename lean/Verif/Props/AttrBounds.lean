import Verif.Props.Attr
import Verif.Props.Range
import Verif.Props.Line
import Verif.Props.Domain
import Verif.Props.Email
import Verif.Spec.Int

/-!
# Properties C54 and C55: accepted bounds are in order, contradictory options are refused
-/

namespace Verif.Props.AttrBounds

open Verif.Attr Verif.Spec.Attr
open Verif.Range (Bounds RangeOption RangeError)
open Verif.Spec.Range (Contains Satisfies)
open Verif.Spec.IntV (Fits)
open Verif.BaseN (strBytes)

variable {τ α κ : Type} [DecidableEq κ]

/-! ## C54: ranges -/

/-- C54, integers, without range expressions: accepted bounds are in order. Missing: range expressions, which are not
checked. -/
theorem C54_integers_partial (E : Env τ α κ) (m : Meta τ) (ps : List (Meta τ)) (a : RangeAttribute α) (hg : Gives E.syn m ps)
    (hd : ¬ ∃ p ∈ ps, Dotted E.syn E.full p) (h : rangeAttribute E m = .ok a) (b : Bounds α) (hb : a.range = .inside b ∨ a.range = .outside b) :
    InOrder E.num b := by
  obtain ⟨qs, hq, -, hr, -⟩ := (Attr.C53_range E m a).1 h
  cases gives_inj E.syn m ps qs hg hq
  rcases hr with ⟨p, hp, -, ⟨n, t, m', e1, e2, hs⟩, -⟩ | ⟨-, e⟩
  · have key : SaysRange E.syn E.full E.num m' b := by
      rcases hb with hb | hb <;> rw [hb] at hs <;> exact hs.2
    rcases key with ⟨r, hr, -⟩ | ⟨_, -, -, ho⟩
    · exact absurd ⟨p, hp, .inr ⟨n, t, m', r, e1, e2, hr⟩⟩ hd
    · exact ho
  · rcases hb with hb | hb <;> rw [hb] at e <;> cases e

/-- C54, floats, without range expressions. Missing: range expressions. -/
theorem C54_numbers_partial (E : Env τ α κ) (m : Meta τ) (ps : List (Meta τ)) (a : NumberAttribute α) (hg : Gives E.syn m ps)
    (hd : ¬ ∃ p ∈ ps, Dotted E.syn E.full p) (h : numberAttribute E m = .ok a) (b : Bounds α) (hb : a.range = .inside b ∨ a.range = .outside b) :
    InOrder E.num b := by
  obtain ⟨qs, hq, -, hr, -⟩ := (Attr.C53_number E m a).1 h
  cases gives_inj E.syn m ps qs hg hq
  rcases hr with ⟨p, hp, -, ⟨n, t, m', e1, e2, hs⟩, -⟩ | ⟨-, e⟩
  · have key : SaysRange E.syn E.full E.num m' b := by
      rcases hb with hb | hb <;> rw [hb] at hs <;> exact hs.2
    rcases key with ⟨r, hr, -⟩ | ⟨_, -, -, ho⟩
    · exact absurd ⟨p, hp, .inr ⟨n, t, m', r, e1, e2, hr⟩⟩ hd
    · exact ho
  · rcases hb with hb | hb <;> rw [hb] at e <;> cases e

/-- C54, sizes, without range expressions. Missing: range expressions. -/
theorem C54_sizes_partial (E : Env τ α κ) (m : Meta τ) (ps : List (Meta τ)) (hg : Gives E.syn m ps)
    (hd : ¬ ∃ p ∈ ps, Dotted E.syn E.full p) :
    (∀ a, bitAttribute E m = .ok a → InOrder E.num a.range) ∧ (∀ a, byteAttribute E m = .ok a → InOrder E.num a.range) := by
  have key : ∀ b, Set ps "range" (SaysRange E.syn E.full E.num) ⟨none, none, false⟩ b → InOrder E.num b := by
    rintro b (⟨p, hp, -, ⟨r, hr, -⟩ | ⟨_, -, -, ho⟩⟩ | ⟨-, rfl⟩)
    · exact absurd ⟨p, hp, .inl ⟨r, hr⟩⟩ hd
    · exact ho
    · rintro _ _ ⟨⟩
  constructor <;> intro a h
  · obtain ⟨qs, hq, -, hr, -⟩ := (Attr.C53_bit E m a).1 h
    cases gives_inj E.syn m ps qs hg hq
    exact key _ hr
  · obtain ⟨qs, hq, -, hr, -⟩ := (Attr.C53_byte E m a).1 h
    cases gives_inj E.syn m ps qs hg hq
    exact key _ hr

/-- Without the feature `full` range expressions are not accepted: all bounds are in order. -/
theorem C54_without_full_partial (E : Env τ α κ) (hf : E.full = false) (m : Meta τ) :
    (∀ a b, rangeAttribute E m = .ok a → a.range = .inside b ∨ a.range = .outside b → InOrder E.num b) ∧
    (∀ a b, numberAttribute E m = .ok a → a.range = .inside b ∨ a.range = .outside b → InOrder E.num b) ∧
    (∀ a, bitAttribute E m = .ok a → InOrder E.num a.range) ∧ (∀ a, byteAttribute E m = .ok a → InOrder E.num a.range) := by
  have hd : ∀ ps : List (Meta τ), ¬ ∃ p ∈ ps, Dotted E.syn E.full p := by
    rintro ps ⟨p, -, ⟨r, h, -⟩ | ⟨n, t, m, r, -, -, h, -⟩⟩ <;> simp [hf] at h
  refine ⟨fun a b h hb => ?_, fun a b h hb => ?_, fun a h => ?_, fun a h => ?_⟩
  · obtain ⟨ps, hg, -⟩ := (Attr.C53_range E m a).1 h
    exact C54_integers_partial E m ps a hg (hd ps) h b hb
  · obtain ⟨ps, hg, -⟩ := (Attr.C53_number E m a).1 h
    exact C54_numbers_partial E m ps a hg (hd ps) h b hb
  · obtain ⟨ps, hg, -⟩ := (Attr.C53_bit E m a).1 h
    exact (C54_sizes_partial E m ps hg (hd ps)).1 a h
  · obtain ⟨ps, hg, -⟩ := (Attr.C53_byte E m a).1 h
    exact (C54_sizes_partial E m ps hg (hd ps)).2 a h

/-- The least value of an integer type. -/
def least (signed : Bool) (bits : Nat) : Int := if signed then -2 ^ (bits - 1) else 0

theorem fits_least (signed : Bool) (bits : Nat) : Fits signed bits (least signed bits) := by
  have h1 : (0 : Int) < 2 ^ (bits - 1) := Int.pow_pos (by decide)
  have h2 : (0 : Int) < 2 ^ bits := Int.pow_pos (by decide)
  cases signed
  · exact ⟨Int.le_refl _, h2⟩
  · refine ⟨Int.le_refl _, ?_⟩
    simp only [least, if_true]
    omega

theorem least_le (signed : Bool) (bits : Nat) (v : Int) (h : Fits signed bits v) : least signed bits ≤ v := by
  cases signed
  · exact h.1
  · exact h.1

theorem number_fits (syn : Syn τ) (signed : Bool) (bits : Nat) (p : Meta τ) (v : Int)
    (h : SaysNumber syn (intTy signed bits).fromStr p v) : Fits signed bits v := by
  have key : ∀ d, (intTy signed bits).fromStr d = some v → Fits signed bits v := by
    intro d hd
    simp only [intTy] at hd
    cases e : IntV.fromStr signed bits d with
    | error x => rw [e] at hd; simp [Except.toOption] at hd
    | ok x =>
      rw [e] at hd
      simp only [Except.toOption, Option.some.injEq] at hd
      subst hd
      exact ((IntV.fromStr_ok ..).1 e).2
  rcases h with ⟨_, _, d, -, -, h⟩ | ⟨_, _, d, -, -, h⟩ | ⟨_, _, d, -, -, h⟩ <;> exact key _ h

theorem operand_fits (signed : Bool) (bits : Nat) (o : Option (Option Lit)) (x : Option Int) (v : Int)
    (h : SaysOperand (intTy signed bits) o x) (hv : x = some v) : Fits signed bits v := by
  rcases h with ⟨-, rfl⟩ | ⟨l, d, a, -, -, h, rfl⟩
  · cases hv
  · cases hv
    exact number_fits ⟨fun _ => none, fun _ => none, fun _ => none, fun _ => none, fun _ => some d, fun _ => none, fun _ => none, fun _ => none,
      fun _ => none, fun _ => none⟩ signed bits (.list none ()) _ (.inr (.inr ⟨none, (), d, rfl, .inl rfl, h⟩))

theorem setOpt_fits (syn : Syn τ) (signed : Bool) (bits : Nat) (ps : List (Meta τ)) (n : String) (x : Option Int) (v : Int)
    (h : SetOpt ps n (SaysNumber syn (intTy signed bits).fromStr) x) (hv : x = some v) : Fits signed bits v := by
  rcases h with ⟨p, -, -, b, rfl, h⟩ | ⟨-, rfl⟩
  · cases hv; exact number_fits syn signed bits p _ h
  · cases hv

/-- The bounds of an accepted integer range are values of the type. -/
theorem range_fits (E : Env τ Int κ) (signed : Bool) (bits : Nat) (hE : E.num = intTy signed bits) (m : Meta τ) (a : RangeAttribute Int)
    (h : rangeAttribute E m = .ok a) (b : Bounds Int) (hb : a.range = .inside b ∨ a.range = .outside b) :
    (∀ v, b.min = some v → Fits signed bits v) ∧ ∀ v, b.max = some v → Fits signed bits v := by
  obtain ⟨qs, hq, -, hr, -⟩ := (Attr.C53_range E m a).1 h
  rcases hr with ⟨p, hp, -, ⟨n, t, m', e1, e2, hs⟩, -⟩ | ⟨-, e⟩
  · have key : SaysRange E.syn E.full E.num m' b := by
      rcases hb with hb | hb <;> rw [hb] at hs <;> exact hs.2
    rw [hE] at key
    rcases key with ⟨r, -, h1, h2, -⟩ | ⟨_, -, ⟨ps, -, -, h1, h2, -⟩, -⟩
    · exact ⟨fun v hv => operand_fits signed bits _ _ v h1 hv, fun v hv => operand_fits signed bits _ _ v h2 hv⟩
    · exact ⟨fun v hv => setOpt_fits E.syn signed bits ps _ _ v h1 hv, fun v hv => setOpt_fits E.syn signed bits ps _ _ v h2 hv⟩
  · rcases hb with hb | hb <;> rw [hb] at e <;> cases e

/-- C54, integers of every width, exactly: a validator that the macro accepts with `Inside` accepts some string if and only if
its bounds are in order and it does not just exclude the values from the least value of the type on. -/
theorem C54_nonempty_integer (E : Env τ Int κ) (ptr : IntV.Ptr) (signed : Bool) (w : IntV.Width)
    (hE : E.num = intTy signed (IntV.bits ptr w)) (m : Meta τ) (a : RangeAttribute Int) (h : rangeAttribute E m = .ok a)
    (b : Bounds Int) (hb : a.range = .inside b) (chk : Int → Out RangeError Unit) (hc : IntV.check ptr signed w a.range = some chk) :
    (∃ s v, IntV.parseStr chk signed (IntV.bits ptr w) s = .ok v) ↔
      InOrder E.num b ∧ ¬ (b.min = none ∧ b.max = some (least signed (IntV.bits ptr w)) ∧ b.inclusive = false) := by
  obtain ⟨f1, f2⟩ := range_fits E signed _ hE m a h b (.inl hb)
  have hin : InOrder E.num b ↔ Spec.Range.Ordered b := by
    rw [hE]
    unfold InOrder Spec.Range.Ordered intTy
    simp only [ne_eq, Option.some.injEq, Std.compare_eq_gt, Std.compare_eq_iff_eq]
    grind
  rw [hin]
  constructor
  · rintro ⟨s, v, hs⟩
    obtain ⟨-, hf, hsat⟩ := (Range.C16_language ptr signed w a.range chk hc s v).1 hs
    rw [hb] at hsat
    obtain ⟨g1, g2⟩ := hsat
    refine ⟨fun m' hm n hn => ?_, ?_⟩
    · have := g1 m' hm; have := g2 n hn
      exact ⟨by omega, fun hi => by have := (g2 n hn).2 hi; omega⟩
    · rintro ⟨-, h2, h3⟩
      have := g2 _ h2
      have := this.2 h3
      have := least_le signed _ v hf
      omega
  · rintro ⟨ho, hl⟩
    have : ∃ v, Fits signed (IntV.bits ptr w) v ∧ Contains b v := by
      cases hm : b.min with
      | some m' => exact ⟨m', f1 m' hm, fun x hx => by rw [hm] at hx; cases hx; exact Int.le_refl _, fun n hn => ho m' hm n hn⟩
      | none =>
        cases hn : b.max with
        | none => exact ⟨_, fits_least signed _, fun x hx => (by rw [hm] at hx; cases hx), fun x hx => (by rw [hn] at hx; cases hx)⟩
        | some n =>
          cases hi : b.inclusive with
          | true =>
            refine ⟨n, f2 n hn, fun x hx => (by rw [hm] at hx; cases hx), fun x hx => ?_⟩
            rw [hn] at hx; cases hx
            exact ⟨Int.le_refl _, fun hh => (by rw [hi] at hh; cases hh)⟩
          | false =>
            refine ⟨_, fits_least signed _, fun x hx => (by rw [hm] at hx; cases hx), fun x hx => ?_⟩
            rw [hn] at hx; cases hx
            exact ⟨least_le signed _ n (f2 n hn), fun _ e => hl ⟨hm, by rw [hn, e], hi⟩⟩
    obtain ⟨v, hf, hv⟩ := this
    exact ⟨_, v, Range.C16_round_trip ptr signed w a.range chk hc v hf (by rw [hb]; exact hv)⟩

/-- C54 is false of the code. For `u8`: `range(Inside(5..=1))` and `range(Inside(max = 0, inclusive = false))` are accepted, and
the validators that they make accept no string at all. -/
theorem C54_violated :
    (∃ a b, rangeAttribute (intEnv false 8) (.list (some "unsigned_integer") (.metas [.list (some "range") (.one (.list (some "Inside")
        (.range ⟨some (some (.int (ascii "5"))), some (some (.int (ascii "1"))), false⟩)))])) = .ok a ∧ a.range = .inside b ∧
      ¬ InOrder (intTy false 8) b ∧
      ∃ chk, IntV.check .p64 false .w8 a.range = some chk ∧ ∀ s v, IntV.parseStr chk false 8 s ≠ .ok v) ∧
    (∃ a, rangeAttribute (intEnv false 8) (.list (some "unsigned_integer") (.metas [.list (some "range") (.one (.list (some "Inside")
        (.metas [.nameValue (some "max") (.lit (.int (ascii "0"))), .nameValue (some "inclusive") (.lit (.bool false))])))])) = .ok a ∧
      ∃ chk, IntV.check .p64 false .w8 a.range = some chk ∧ ∀ s v, IntV.parseStr chk false 8 s ≠ .ok v) := by
  have none : ∀ r : RangeOption Int, ∀ chk, IntV.check .p64 false .w8 r = some chk → (∀ v, Fits false 8 v → ¬ Satisfies r v) →
      ∀ s v, IntV.parseStr chk false 8 s ≠ .ok v := by
    intro r chk hc h s v hs
    obtain ⟨-, hf, hsat⟩ := (Range.C16_language .p64 false .w8 r chk hc s v).1 hs
    exact h v hf hsat
  refine ⟨⟨⟨.inside ⟨some 5, some 1, true⟩, ⟨true, true⟩, ⟨true, true⟩⟩, _, by decide +kernel, rfl, ?_, _, rfl, none (.inside ⟨some 5, some 1, true⟩) _ rfl ?_⟩,
    ⟨⟨.inside ⟨Option.none, some 0, false⟩, ⟨true, true⟩, ⟨true, true⟩⟩, by decide +kernel, _, rfl, none (.inside ⟨Option.none, some 0, false⟩) _ rfl ?_⟩⟩
  · intro h
    exact (h 5 1 rfl rfl).1 (by decide)
  · rintro v - ⟨h1, h2⟩
    have := h1 5 rfl; have := (h2 1 rfl).1; omega
  · rintro v ⟨hf, -⟩ ⟨h1, h2⟩
    have := h2 0 rfl
    have := this.2 rfl
    omega

/-- The hypotheses are met: `range(Inside(min = 2, max = 5))`. -/
example : ∃ a m ps, a.range = .inside ⟨some 2, some 5, true⟩ ∧ rangeAttribute (intEnv true 8) m = .ok a ∧ Gives toksSyn m ps ∧
    ¬ ∃ p ∈ ps, Dotted toksSyn true p := by
  refine ⟨⟨_, ⟨true, true⟩, ⟨true, true⟩⟩, .list (some "signed_integer") (.metas [.list (some "range") (.one (.list (some "Inside")
    (.metas [.nameValue (some "min") (.lit (.int (ascii "2"))), .nameValue (some "max") (.lit (.int (ascii "5")))])))]), _, rfl,
    by decide +kernel, .inr ⟨_, _, rfl, rfl⟩, ?_⟩
  rintro ⟨p, hp, h⟩
  simp only [List.mem_cons, List.not_mem_nil, or_false] at hp
  subst hp
  rcases h with ⟨r, -, ⟨n, h⟩ | ⟨n, t, h, h'⟩⟩ | ⟨n, t, m, r, h, h', -, ⟨n', h''⟩ | ⟨n', t', h'', h3⟩⟩
  · cases h
  · cases h; cases h'
  · cases h; cases h'; cases h''
  · cases h; cases h'; cases h''; cases h3

/-! ## C54: lengths -/

/-- C54, `length`: accepted bounds are in order, and some length is accepted. -/
theorem C54_length (E : Env τ α κ) (m : Meta τ) (a : LengthAttribute) (h : lengthAttribute E m = .ok a) :
    NotAbove a.min a.max ∧ ∀ chk, Range.compileLength (Range.lengthCode a.min a.max) = some chk →
      ∃ v : List Unit, Length.parseCollection chk List.length v = .ok v := by
  obtain ⟨ps, -, -, -, -, -, ho⟩ := (Attr.C53_length E m a).1 h
  refine ⟨ho, fun chk hc => ⟨List.replicate (a.min.getD 0) (), ?_⟩⟩
  refine ((Range.C21_length List.length a.min a.max chk hc ?_ _).1 _).2 ⟨rfl, ?_, ?_⟩
  · unfold Length.accepts
    cases h1 : a.min <;> cases h2 : a.max <;> simp_all [NotAbove]
  · intro x hx; simp [hx]
  · intro x hx
    cases h1 : a.min with
    | none => simp
    | some y => simpa using ho y x h1 hx

theorem size_replicate (isByte : Bool) (n : Nat) : Spec.Line.size isByte (List.replicate n 'x') = n := by
  have : strBytes (List.replicate n 'x') = List.replicate n 120 := by
    induction n with
    | zero => rfl
    | succ n ih =>
      rw [List.replicate_succ, List.replicate_succ, ← ih]
      rfl
  unfold Spec.Line.size
  cases isByte <;> simp [this]

theorem dropWhile_replicate (n : Nat) : (List.replicate n 'x').dropWhile (· ∈ Spec.Line.whiteSpace) = List.replicate n 'x' := by
  cases n with
  | zero => rfl
  | succ n => rw [List.replicate_succ, List.dropWhile_cons_of_neg (by decide)]

/-- C54, `line` and `text`: accepted bounds are in order, and some string of the required size is accepted. -/
theorem C54_text (E : Env τ α κ) (m : Meta τ) (a : Utf8Attribute) (h : utf8Attribute E m = .ok a) (isByte : Bool) (l : Length)
    (hl : a.length = some (isByte, l)) (k : Line.Kind) :
    NotAbove l.trimmedMin l.min ∧ NotAbove l.min l.max ∧ NotAbove l.trimmedMin l.max ∧
      ∃ s, Line.parseStr k isByte l.min l.trimmedMin l.max s = .ok s := by
  obtain ⟨ps, -, -, ht, -, -⟩ := (Attr.C53_utf8 E m a).1 h
  rcases ht with ⟨e, -⟩ | ⟨p, -, b, l', e, hs, -, -⟩
  · rw [hl] at e; cases e
  · rw [hl] at e; cases e
    obtain ⟨_, _, _, -, -, -, -, -, -, h1, h2, h3⟩ := hs
    refine ⟨h1, h2, h3, List.replicate (l.min.getD (l.trimmedMin.getD 0)) 'x', ?_⟩
    have hc : Line.check k isByte l.min l.trimmedMin l.max (List.replicate (l.min.getD (l.trimmedMin.getD 0)) 'x') = .ok () := by
      have ho : Line.InOrder l.min l.max := fun x hx y hy => h2 x y hx hy
      rw [(Line.outcome k isByte l.min l.trimmedMin l.max _ ho).1]
      refine ⟨?_, ⟨?_, ?_⟩, ?_⟩
      · intro c hc
        have : c ∈ List.replicate (l.min.getD (l.trimmedMin.getD 0)) 'x' := by
          unfold Line.checked at hc
          split at hc
          · exact hc
          · exact List.dropWhile_subset _ hc
        rw [(List.mem_replicate.1 this).2]
        unfold Spec.Line.Forbidden
        rintro ⟨h | h, -⟩ <;> revert h <;> decide
      · intro x hx; rw [size_replicate, hx]; exact Nat.le_refl _
      · intro x hx
        rw [size_replicate]
        cases e1 : l.min with
        | some y => exact h2 y x e1 hx
        | none =>
          cases e2 : l.trimmedMin with
          | some y => exact h3 y x e2 hx
          | none => exact Nat.zero_le _
      · intro x hx
        have : Spec.Line.trim (List.replicate (l.min.getD (l.trimmedMin.getD 0)) 'x') = List.replicate (l.min.getD (l.trimmedMin.getD 0)) 'x' := by
          unfold Spec.Line.trim Spec.Line.trimStart
          rw [dropWhile_replicate, List.reverse_replicate, dropWhile_replicate, List.reverse_replicate]
        rw [this, size_replicate]
        cases e1 : l.min with
        | some y => exact h1 x y hx e1
        | none => rw [hx]; exact Nat.le_refl _
    unfold Line.parseStr
    rw [hc]; rfl

example : ∃ m a, utf8Attribute (intEnv false 8) m = .ok a ∧ a.length = some (true, ⟨some 3, some 2, some 4⟩) :=
  ⟨.list (some "text") (.metas [.list (some "byte_length") (.metas [.nameValue (some "max") (.lit (.int (ascii "4"))),
    .nameValue (some "trimmed_min") (.lit (.int (ascii "2"))), .nameValue (some "min") (.lit (.int (ascii "3")))])]),
    ⟨_, ⟨true, true⟩, ⟨true, true⟩⟩, by decide +kernel, rfl⟩

/-! ## C55 -/

/-- What is assumed of the IDNA conversion: it leaves these three names alone. -/
structure Keeps (idna : Domain.Idna) : Prop where
  localhost : idna (ascii "localhost") = some (ascii "localhost")
  one : idna (ascii "example") = some (ascii "example")
  two : idna (ascii "example.com") = some (ascii "example.com")

/-- The options of a `domain` validator. -/
def domainOpts (a : DomainAttribute) : Domain.Opts := ⟨a.ipv4, a.loc, a.port, a.atl⟩

/-- The options of an `email` validator. -/
def emailOpts (a : EmailAttribute) (checked : Bool) : Email.Opts := ⟨a.comment, a.ip, a.loc, a.atl, a.nonAscii, checked⟩

/-- A string that satisfies the options. -/
def domainWitness (o : Domain.Opts) : String :=
  if o.ipv4 = .must then
    if o.loc = .disallow then (if o.port = .must then "8.8.8.8:80" else "8.8.8.8")
    else if o.port = .must then "127.0.0.1:80" else "127.0.0.1"
  else if o.loc ≠ .disallow then (if o.port = .must then "localhost:80" else "localhost")
  else if o.atl = .disallow then (if o.port = .must then "example:80" else "example")
  else if o.port = .must then "example.com:80" else "example.com"

theorem forall_tri (P : TriAllow → Prop) (h1 : P .allow) (h2 : P .must) (h3 : P .disallow) (t : TriAllow) : P t := by cases t <;> assumption

instance (P : TriAllow → Prop) [DecidablePred P] : Decidable (∀ t, P t) :=
  decidable_of_iff (P .allow ∧ P .must ∧ P .disallow) ⟨fun h => forall_tri P h.1 h.2.1 h.2.2, fun h => ⟨h _, h _, h _⟩⟩

instance (P : Allow → Prop) [DecidablePred P] : Decidable (∀ t, P t) :=
  decidable_of_iff (P .allow ∧ P .disallow) ⟨fun h t => by cases t; exacts [h.1, h.2], fun h => ⟨h _, h _⟩⟩

theorem domain_witness : ∀ a b c d, ¬ (a = TriAllow.must ∧ d = .disallow) →
    ∃ v, Domain.parseStr ⟨a, b, c, d⟩ some (strBytes (domainWitness ⟨a, b, c, d⟩).toList) = .ok v ∧
      (a ≠ .must → v.domain = ascii "localhost" ∨ v.domain = ascii "example" ∨ v.domain = ascii "example.com") := by
  have : ∀ a b c d, ¬ (a = TriAllow.must ∧ d = .disallow) →
    match Domain.parseStr ⟨a, b, c, d⟩ some (strBytes (domainWitness ⟨a, b, c, d⟩).toList) with
    | .ok v => a ≠ .must → v.domain = ascii "localhost" ∨ v.domain = ascii "example" ∨ v.domain = ascii "example.com"
    | _ => False := by
    have h : ∀ a b c d, ¬ (a = TriAllow.must ∧ d = .disallow) →
      (match Domain.parseStr ⟨a, b, c, d⟩ some (strBytes (domainWitness ⟨a, b, c, d⟩).toList) with
      | .ok v => decide (a ≠ .must → v.domain = ascii "localhost" ∨ v.domain = ascii "example" ∨ v.domain = ascii "example.com")
      | _ => false) = true := by decide +kernel
    intro a b c d hn
    have := h a b c d hn
    split at this
    · exact of_decide_eq_true this
    · cases this
  intro a b c d hn
  have := this a b c d hn
  split at this
  · exact ⟨_, by assumption, this⟩
  · exact this.elim

/-- C55, `domain`: the macro refuses exactly the configurations that accept no string, unless `conflict(Allow)` is given. -/
theorem C55_domain (E : Env τ α κ) (m : Meta τ) (a : DomainAttribute) (h : domainAttribute E m = .ok a) (idna : Domain.Idna) (hi : Keeps idna) :
    domainConfig E m = .ok a ↔ a.conflict = .allow ∨ ∃ cs v, Domain.parseStr (domainOpts a) idna (strBytes cs) = .ok v := by
  have hsat : (∃ cs v, Domain.parseStr (domainOpts a) idna (strBytes cs) = .ok v) ↔ ¬ (a.ipv4 = .must ∧ a.atl = .disallow) := by
    constructor
    · rintro ⟨cs, v, hv⟩ ⟨h1, h2⟩
      obtain ⟨-, d, -, -, ⟨-, x, hx⟩ | hx⟩ := (Domain.C58_domain _ idna cs v).1 hv
      · exact hx.2.2.2.1 h2
      · exact hx.2.1 h1
    · intro hn
      obtain ⟨v, hv, hd⟩ := domain_witness a.ipv4 a.loc a.port a.atl hn
      refine ⟨(domainWitness (domainOpts a)).toList, v, (Domain.C58_domain (domainOpts a) idna _ v).2 ?_⟩
      obtain ⟨h0, d, h1, h2, h3⟩ := (Domain.C58_domain (domainOpts a) some _ v).1 hv
      refine ⟨h0, d, h1, h2, h3.imp id fun hx => ⟨hx.1, hx.2.1, ?_, hx.2.2.2⟩⟩
      have e : d = v.domain := Option.some.inj hx.2.2.1
      rw [e]
      rcases hd hx.2.1 with e | e | e <;> rw [e]
      · exact hi.localhost
      · exact hi.one
      · exact hi.two
  rw [hsat]
  unfold domainConfig
  rw [h]
  simp only [Out.bind_ok]
  cases hc : a.conflict
  · simp
  · by_cases hn : a.ipv4 = .must ∧ a.atl = .disallow <;> simp [hn]

/-- A string that satisfies the options. -/
def emailWitness (o : Email.Opts) : String :=
  if o.ip = .must then (if o.loc = .disallow then "a@[8.8.8.8]" else "a@[127.0.0.1]")
  else if o.loc ≠ .disallow then "a@localhost"
  else if o.atl = .disallow then "a@example" else "a@example.com"

theorem email_witness : ∀ c ip l d na k, ¬ (ip = TriAllow.must ∧ d = .disallow) →
    ∃ v, Email.parseStr ⟨c, ip, l, d, na, k⟩ some (strBytes (emailWitness ⟨c, ip, l, d, na, k⟩).toList) = .ok v ∧
      (∀ x, v.host = .domain x → x = ascii "localhost" ∨ x = ascii "example" ∨ x = ascii "example.com") := by
  intro c ip l d na k hn
  have h : ∀ c ip l d na k, ¬ (ip = TriAllow.must ∧ d = .disallow) →
      (match Email.parseStr ⟨c, ip, l, d, na, k⟩ some (strBytes (emailWitness ⟨c, ip, l, d, na, k⟩).toList) with
      | .ok v => (match v.host with | .domain x => decide (x = ascii "localhost" ∨ x = ascii "example" ∨ x = ascii "example.com") | _ => true)
      | _ => false) = true := by decide +kernel
  have := h c ip l d na k hn
  split at this
  · refine ⟨_, by assumption, fun x hx => ?_⟩
    rw [hx] at this
    simpa using this
  · cases this

/-- C55, `email`. -/
theorem C55_email (E : Env τ α κ) (m : Meta τ) (a : EmailAttribute) (h : emailAttribute E m = .ok a) (idna : Domain.Idna) (hi : Keeps idna)
    (checked : Bool) :
    emailConfig E m = .ok a ↔ a.conflict = .allow ∨ ∃ cs v, Email.parseStr (emailOpts a checked) idna (strBytes cs) = .ok v := by
  have hsat : (∃ cs v, Email.parseStr (emailOpts a checked) idna (strBytes cs) = .ok v) ↔ ¬ (a.ip = .must ∧ a.atl = .disallow) := by
    constructor
    · rintro ⟨cs, v, hv⟩ ⟨h1, h2⟩
      obtain ⟨q, t, x, tail, hx⟩ := (Email.C62_email _ idna cs v).1 hv
      have ok := hx.domainText.ok
      cases hh : v.host with
      | domain d => rw [hh] at ok; exact ok.1 h1
      | ipv4 d => rw [hh] at ok; exact ok.2.1 h2
      | ipv6 d => rw [hh] at ok; exact ok.2.1 h2
    · intro hn
      obtain ⟨v, hv, hd⟩ := email_witness a.comment a.ip a.loc a.atl a.nonAscii checked hn
      refine ⟨(emailWitness (emailOpts a checked)).toList, v, (Email.C62_email (emailOpts a checked) idna _ v).2 ?_⟩
      obtain ⟨q, t, x, tail, hx⟩ := (Email.C62_email (emailOpts a checked) some _ v).1 hv
      have ht := hx.domainText
      refine ⟨q, t, x, tail, { hx with domainText := { ht with host := ?_ } }⟩
      have hho := ht.host
      revert hho hd
      generalize v.host = host
      intro hd hho
      cases hho with
      | ipv4 => exact .ipv4
      | ipv6 h => exact .ipv6 h
      | domain g1 g2 g3 g4 g5 =>
        refine .domain g1 g2 g3 g4 ?_
        cases g5
        rcases hd _ rfl with e | e | e <;> rw [e]
        · exact hi.localhost
        · exact hi.one
        · exact hi.two
  rw [hsat]
  unfold emailConfig
  rw [h]
  simp only [Out.bind_ok]
  cases hc : a.conflict
  · simp
  · by_cases hn : a.ip = .must ∧ a.atl = .disallow <;> simp [hn]

/-- The hypotheses are met, and both outcomes occur. -/
example : Keeps Domain.ldh ∧
    domainAttribute (intEnv false 8) (.list (some "domain") (.metas [.list (some "ipv4") (.word "Must"), .list (some "at_least_two_labels") (.word "Disallow")])) =
      .ok ⟨.must, .allow, .allow, .disallow, .disallow, ⟨true, true⟩, ⟨true, true⟩⟩ ∧
    domainConfig (intEnv false 8) (.list (some "domain") (.metas [.list (some "ipv4") (.word "Must"), .list (some "at_least_two_labels") (.word "Disallow")])) =
      .err .conflict ∧
    emailConfig (intEnv false 8) (.list (some "email") (.metas [.list (some "ip") (.word "Must"), .list (some "at_least_two_labels") (.word "Must")])) =
      .ok ⟨.allow, .must, .allow, .must, .allow, .disallow, ⟨true, true⟩, ⟨true, true⟩⟩ :=
  ⟨⟨by decide +kernel, by decide +kernel, by decide +kernel⟩, by decide +kernel, by decide +kernel, by decide +kernel⟩

/-! ### Numbers -/

variable [LinearOrder α]

/-- C55, `number`, what holds: a configuration that allows NaN accepts NaN; one that does not accepts something exactly when
some number satisfies the range. Missing: that such a number exists. -/
theorem C55_number_partial (E : Env τ α κ) (m : Meta τ) (a : NumberAttribute α) (_h : numberConfig E m = .ok a)
    (chk : Number.Fl α → Out RangeError Unit) (hc : Number.check (Range.floats a.range) = some chk) :
    (a.nan ≠ .disallow → Number.parseF chk a.nan none = .ok none) ∧
    (a.nan = .disallow → ((∃ f g, Number.parseF chk a.nan f = .ok g) ↔ ∃ x, Satisfies a.range x)) := by
  refine ⟨(Range.C20_nan a.range a.nan chk hc).1.2, fun hd => ⟨?_, ?_⟩⟩
  · rintro ⟨f, g, hf⟩
    cases f with
    | none =>
      obtain ⟨e, h2, -⟩ := Range.C20_nan_policy a.range a.nan chk hc none g hf
      exact absurd e (h2 hd)
    | some x => exact ⟨x, ((Range.C20_number a.range a.nan chk hc x g).1 hf).2.1⟩
  · rintro ⟨x, hx⟩
    exact ⟨some x, some x, (Range.C20_number a.range a.nan chk hc x _).2 ⟨rfl, hx, by simp [hd]⟩⟩

/-- C55, `number`: what the macro refuses as contradictory (`nan(Must)` with `range(Inside)`) is not contradictory: NaN passes
every range. -/
theorem C55_number_refused (E : Env τ α κ) (m : Meta τ) (a : NumberAttribute α) (h : numberAttribute E m = .ok a) :
    (numberConfig E m = .err .conflict ↔ a.nan = .must ∧ (∃ b, a.range = .inside b) ∧ a.conflict = .disallow) ∧
    (numberConfig E m = .err .conflict → ∀ chk, Number.check (Range.floats a.range) = some chk → Number.parseF chk a.nan none = .ok none) := by
  have h1 : numberConfig E m = .err .conflict ↔ a.nan = .must ∧ (∃ b, a.range = .inside b) ∧ a.conflict = .disallow := by
    unfold numberConfig
    rw [h]
    simp only [Out.bind_ok]
    cases a with | mk r n c _ _ => cases r <;> cases n <;> cases c <;> simp
  refine ⟨h1, fun he chk hc => (Range.C20_nan a.range a.nan chk hc).1.2 ?_⟩
  simp [(h1.1 he).1]

/-- C55 is false for `number`: `number(range(Inside(5..=1)), nan(Disallow))` is accepted without `conflict(Allow)` and accepts no
float. Here the floats that are not NaN are taken to be the integers. -/
theorem C55_number_violated : ∃ a, numberConfig (intEnv true 64) (.list (some "number") (.metas [.list (some "range") (.one (.list (some "Inside")
        (.range ⟨some (some (.int (ascii "5"))), some (some (.int (ascii "1"))), false⟩))), .list (some "nan") (.word "Disallow")])) = .ok a ∧
      a.conflict = .disallow ∧
      ∃ chk, Number.check (Range.floats a.range) = some chk ∧ ∀ f g, Number.parseF chk a.nan f ≠ .ok g := by
  refine ⟨⟨.inside ⟨some 5, some 1, true⟩, .disallow, .disallow, ⟨true, true⟩, ⟨true, true⟩⟩, by decide +kernel, rfl, _, rfl, fun f g h => ?_⟩
  cases f with
  | none =>
    have := Range.C20_nan_policy (.inside ⟨some (5 : Int), some 1, true⟩) .disallow _ rfl none g h
    exact this.2.1 rfl this.1
  | some x =>
    have := ((Range.C20_number (.inside ⟨some (5 : Int), some 1, true⟩) .disallow _ rfl x g).1 h).2.1
    have h1 := this.1 5 rfl
    have h2 := (this.2 1 rfl).1
    omega

/-- The hypotheses are met: `number(nan(Must))` is accepted; with `range(Inside(1..=5))` it is refused. -/
example : numberConfig (intEnv true 64) (.list (some "number") (.metas [.list (some "nan") (.word "Must")])) =
      .ok ⟨.unlimited, .must, .disallow, ⟨true, true⟩, ⟨true, true⟩⟩ ∧
    numberConfig (intEnv true 64) (.list (some "number") (.metas [.list (some "nan") (.word "Must"), .list (some "range") (.one (.list (some "Inside")
        (.range ⟨some (some (.int (ascii "1"))), some (some (.int (ascii "5"))), false⟩)))])) = .err .conflict := by decide +kernel

end Verif.Props.AttrBounds
