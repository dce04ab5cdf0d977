import Verif.Model.Input
import Verif.Spec.Input
import Verif.Props.Generated
import Verif.Props.Range

/-!
# C87: what is checked is what is kept
-/

namespace Verif.Props.Input

open Verif Verif.Attr Verif.Derive Verif.Generated Verif.Spec.Input
open Verif.Input (Source Prog ask plain Entries ByteEntries keeps parses checks entries keepsBytes decodesBytes runLength parseCollection validateCollection isEmpty)
open _root_.Verif.BaseN (strBytes)
open Verif.Props.BaseN (Kind)

variable {φ κ N U V ε : Type} [LinearOrder φ] [DecidableEq κ]

/-- A program that asks once and goes on without asking. -/
theorem once {σ α E A : Type} (k : α → Prog σ E A) (f : α → Out E A) (h : ∀ a st, k a st = (f a, st)) :
    Once (σ := σ) (fun src => (ask src).bind k) f := by
  intro src st st'
  constructor
  · intro a e
    simp only [Prog.bind, ask, e, h]
  · intro e
    simp only [Prog.bind, ask, e]

/-- A check, and what follows. -/
theorem check_then {σ E A : Type} (r : Out E Unit) (x : A) (st : σ) : ((plain r).bind fun _ => plain (.ok x)) st = (r.bind fun _ => .ok x, st) := by
  simp only [Prog.bind, plain]
  cases r <;> rfl

theorem then_void {σ E A : Type} (r : Out E A) (st : σ) : ((plain r).bind fun _ => plain (.ok ())) st = (r.void, st) := by
  simp only [Prog.bind, plain]
  cases r <;> rfl

theorem keeps_once {σ E A : Type} (I : Impl E A) (wrap : List Char → A) (hs : ∀ s, I.parseString s = I.parseStr s)
    (hk : ∀ s, I.parseStr s = (I.validateStr s).bind fun _ => .ok (wrap s)) :
    Once (keeps (σ := σ) I.validateStr wrap).parseString I.parseString ∧ Once (keeps (σ := σ) I.validateStr wrap).parseStr I.parseStr ∧
      Once (keeps (σ := σ) I.validateStr wrap).validateStr I.validateStr := by
  refine ⟨once _ _ fun s st => ?_, once _ _ fun s st => ?_, once _ _ fun s st => ?_⟩
  · rw [hs, hk]; exact check_then _ _ _
  · rw [hk]; exact check_then _ _ _
  · refine (then_void _ _).trans ?_
    cases I.validateStr s <;> rfl

theorem parses_once {σ E A : Type} (I : Impl E A) (hs : ∀ s, I.parseString s = I.parseStr s) (hv : ∀ s, I.validateStr s = (I.parseStr s).void) :
    Once (parses (σ := σ) I.parseStr).parseString I.parseString ∧ Once (parses (σ := σ) I.parseStr).parseStr I.parseStr ∧
      Once (parses (σ := σ) I.parseStr).validateStr I.validateStr := by
  refine ⟨once _ _ fun s st => ?_, once _ _ fun s st => rfl, once _ _ fun s st => ?_⟩
  · rw [hs]; rfl
  · rw [hv]; exact then_void _ _

theorem checks_once {σ E A : Type} (I : Impl E A) (hs : ∀ s, I.parseString s = I.parseStr s) :
    Once (checks (σ := σ) I.parseStr I.validateStr).parseString I.parseString ∧
      Once (checks (σ := σ) I.parseStr I.validateStr).parseStr I.parseStr ∧
      Once (checks (σ := σ) I.parseStr I.validateStr).validateStr I.validateStr := by
  refine ⟨once _ _ fun s st => ?_, once _ _ fun s st => rfl, once _ _ fun s st => ?_⟩
  · rw [hs]; rfl
  · refine (then_void _ _).trans ?_
    cases I.validateStr s <;> rfl

/-- How a validator that keeps the text makes its value. -/
def wrap : Plan φ κ → List Char → Value φ κ N U V
  | .regex _ => fun s => .matched (strBytes s)
  | _ => .text

theorem kept (L : Libs φ κ N U V ε) (p : Plan φ κ) (I : Impl (Error ε) (Value φ κ N U V)) (hI : generate L p = some I) (hp : KeepsText p)
    (s : List Char) : I.parseStr s = (I.validateStr s).bind fun _ => .ok (wrap p s) := by
  cases p with
  | base v a =>
    have keepB : ∀ B : BaseN.Variant, generate L (.base v a) = some (textImpl B a) →
        I.parseStr s = (I.validateStr s).bind fun _ => .ok (.text s) := by
      intro B h
      cases h.symm.trans hI
      simp only [textImpl, Impl.make, BaseN.parseStr, BaseN.validateStr]
      cases BaseN.check B a.padding (strBytes s) <;> rfl
    simp only [KeepsText, List.mem_cons, List.not_mem_nil, or_false] at hp
    rcases hp with rfl | rfl | rfl
    · exact keepB _ rfl
    · exact keepB _ rfl
    · exact keepB _ rfl
  | utf8 v a =>
    have key : ∀ k, lineImpl L k a = I → I.parseStr s = (I.validateStr s).bind fun _ => .ok (.text s) := by
      rintro k rfl
      unfold lineImpl
      rcases a.length with _ | ⟨isByte, l⟩
      · simp only [Impl.make, Line.parseStr, Line.validateStr]
        cases Line.check _ _ _ _ _ _ <;> rfl
      · simp only [Impl.make, Line.parseAt, Line.validateAt]
        cases Line.checkAt _ _ _ _ _ _ _ _ <;> rfl
    simp only [generate] at hI
    split at hI <;> cases hI
    · exact key _ rfl
    · exact key _ rfl
  | regex a =>
    cases hI
    simp only [Impl.make, Regex.parseStr, Regex.validateStr]
    cases Regex.vParse _ _ <;> rfl
  | _ => cases hp

/-- C87, strings: each function of `ValidateString` calls `into` or `as_ref` exactly once, and its outcome is the one for the string that
this call returns, whatever the caller's type does. -/
theorem C87_string (σ : Type) (L : Libs φ κ N U V ε) (p : Plan φ κ) (I : Impl (Error ε) (Value φ κ N U V)) (hI : generate L p = some I) :
    ∃ G, entries σ L p = some G ∧ Once G.parseString I.parseString ∧ Once G.parseStr I.parseStr ∧ Once G.validateStr I.validateStr := by
  have hs s := (Generated.C71_entry_points L p I hI s).1
  have hv (hd : ¬ Spec.Generated.Decoded p) s := (Generated.C71_entry_points L p I hI s).2 hd
  have hk := kept L p I hI
  unfold entries
  rw [hI]
  refine ⟨_, rfl, ?_⟩
  cases p with
  | base v a =>
    cases v with
    | base32 => exact keeps_once I _ hs (hk (by simp [KeepsText]))
    | base64 => exact keeps_once I _ hs (hk (by simp [KeepsText]))
    | base64_url => exact keeps_once I _ hs (hk (by simp [KeepsText]))
    | base32_decoded => exact checks_once I hs
    | base64_decoded => exact checks_once I hs
    | base64_url_decoded => exact checks_once I hs
    | _ => cases hI
  | utf8 v a => exact keeps_once I _ hs (hk trivial)
  | regex a => exact keeps_once I _ hs (hk trivial)
  | hex v a => exact checks_once I hs
  | _ => exact parses_once I hs (hv id)

/-- Between two calls a caller's type may return different strings. -/
example : ∃ src : Source Nat (List Char), src 0 = (some "QQ==".toList, 1) ∧ src 1 = (some "??".toList, 2) :=
  ⟨fun n => (some (if n = 0 then "QQ==".toList else "??".toList), n + 1), rfl, rfl⟩

/-- `Once` excludes code that asks twice, here to check one string and keep another. -/
example : ¬ Once (σ := Nat) (fun src => ((ask src).bind fun s => ((plain (BaseN.check BaseN.base64 .must (strBytes s))).bind fun _ => ask src)))
    (fun s => BaseN.parseStr BaseN.base64 .must s) := by
  intro h
  have := (h (fun n => (some (if n = 0 then "QQ==".toList else "??".toList), n + 1)) 0 1).1 "QQ==".toList rfl
  exact absurd (congrArg Prod.snd this) (by decide +kernel)

/-- What `Once` says of an accepted input. -/
theorem once_ok {σ α E A : Type} (prog : Source σ α → Prog σ E A) (f : α → Out E A) (h : Once prog f) (src : Source σ α) (st st' : σ) (x : A)
    (hx : prog src st = (.ok x, st')) : ∃ a, src st = (some a, st') ∧ f a = .ok x := by
  rcases hr : src st with ⟨_ | a, st''⟩
  · have := (h src st st'').2 hr
    rw [hx] at this
    cases this
  · have := (h src st st'').1 a hr
    rw [hx, Prod.mk.injEq] at this
    exact ⟨a, by rw [this.2], this.1.symm⟩

/-- C87, the validators that keep the text: the text kept is the text that has been checked, the one that the caller's conversion
returned. -/
theorem C87_kept (σ : Type) (L : Libs φ κ N U V ε) (p : Plan φ κ) (I : Impl (Error ε) (Value φ κ N U V)) (hI : generate L p = some I)
    (hp : KeepsText p) (G : Entries σ (Error ε) (Value φ κ N U V)) (hG : entries σ L p = some G) (src : Source σ (List Char)) (st st' : σ)
    (x : Value φ κ N U V) (h : G.parseString src st = (.ok x, st') ∨ G.parseStr src st = (.ok x, st')) :
    ∃ t, src st = (some t, st') ∧ I.validateStr t = .ok () ∧ IsText x t := by
  obtain ⟨G', hG', h1, h2, -⟩ := C87_string σ L p I hI
  cases hG.symm.trans hG'
  have key : ∃ t, src st = (some t, st') ∧ I.parseStr t = .ok x := by
    rcases h with h | h
    · obtain ⟨t, ht, e⟩ := once_ok _ _ h1 src st st' x h
      rw [(Generated.C71_entry_points L p I hI t).1] at e
      exact ⟨t, ht, e⟩
    · exact once_ok _ _ h2 src st st' x h
  obtain ⟨t, ht, e⟩ := key
  rw [kept L p I hI hp] at e
  refine ⟨t, ht, ?_⟩
  cases hc : I.validateStr t with
  | ok u =>
    rw [hc] at e
    cases e
    refine ⟨rfl, ?_⟩
    cases p <;> first | exact .inl rfl | exact .inr rfl
  | err e' => rw [hc] at e; cases e
  | panic => rw [hc] at e; cases e

/-- C87, bytes: the same of the functions of `ValidateBytes`. -/
theorem C87_bytes (σ : Type) (K : BaseN.Kind) (pad : TriAllow) :
    Once (keepsBytes (σ := σ) K.variant pad).parseVecU8 (BaseN.parseVecU8 K.variant pad) ∧
    Once (keepsBytes (σ := σ) K.variant pad).parseU8Slice (BaseN.parseU8Slice K.variant pad) ∧
    Once (keepsBytes (σ := σ) K.variant pad).validateU8Slice (BaseN.validateU8Slice K.variant pad) ∧
    Once (decodesBytes (σ := σ) K.variant K.encoding pad).parseVecU8 (BaseN.decodedParse K.encoding pad) ∧
    Once (decodesBytes (σ := σ) K.variant K.encoding pad).parseU8Slice (BaseN.decodedParse K.encoding pad) ∧
    Once (decodesBytes (σ := σ) K.variant K.encoding pad).validateU8Slice (BaseN.decodedValidate K.variant pad) := by
  refine ⟨once _ _ fun v st => check_then _ _ _, once _ _ fun v st => check_then _ _ _, once _ _ fun v st => check_then _ _ _,
    once _ _ fun v st => rfl, once _ _ fun v st => rfl, once _ _ fun v st => (then_void _ _).trans ?_⟩
  cases BaseN.decodedValidate K.variant pad v <;> rfl

/-- C87, memory safety: whatever bytes the caller's type returns, and in whatever order, those that end up in a `String` without a check of
their encoding are UTF-8. -/
theorem C87_utf8 (σ : Type) (K : BaseN.Kind) (pad : TriAllow) (src : Source σ (List UInt8)) (st st' : σ) (b : List UInt8)
    (h : (keepsBytes K.variant pad).parseVecU8 src st = (.ok b, st') ∨ (keepsBytes K.variant pad).parseU8Slice src st = (.ok b, st')) :
    src st = (some b, st') ∧ ∃ s : List Char, strBytes s = b := by
  obtain ⟨h1, h2, -⟩ := C87_bytes σ K pad
  have key : ∃ v, src st = (some v, st') ∧ (BaseN.parseU8Slice K.variant pad v = .ok b ∨ BaseN.parseVecU8 K.variant pad v = .ok b) := by
    rcases h with h | h
    · obtain ⟨v, e, hv⟩ := once_ok _ _ h1 src st st' b h
      exact ⟨v, e, .inr hv⟩
    · obtain ⟨v, e, hv⟩ := once_ok _ _ h2 src st st' b h
      exact ⟨v, e, .inl hv⟩
  obtain ⟨v, e, hv⟩ := key
  have : v = b := by
    rcases hv with hv | hv
    · simp only [BaseN.parseU8Slice] at hv
      cases hc : BaseN.check K.variant pad v <;> simp_all
    · simp only [BaseN.parseVecU8] at hv
      cases hc : BaseN.check K.variant pad v <;> simp_all
  subst this
  exact ⟨e, (BaseN.C02_accepted_bytes_ascii K pad v v hv).2⟩

/-- A byte source that returns `QQ==` first and something that is not UTF-8 afterwards: the bytes kept are `QQ==`. -/
example : (keepsBytes (Kind.variant .base64) .must).parseU8Slice (fun n : Nat => (some (if n = 0 then ascii "QQ==" else [0xff]), n + 1)) 0 =
    (.ok (ascii "QQ=="), 1) := by
  decide +kernel

/-- C87, `length`: with a bound, `CollectionLength::len` is called exactly once, and the outcome is that for the length that it returns; the
collection given is the one kept. Without bounds it is not called. (With two equal bounds the code does not compile: C18.) -/
theorem C87_length (σ : Type) {K : Type} (min max : Option Nat) (hc : Range.compileLength (Range.lengthCode min max) ≠ none) (v : K) :
    (min ≠ none ∨ max ≠ none →
      Once (σ := σ) (fun len => parseCollection (Range.lengthCode min max) len v) (bounded min max v) ∧
      Once (σ := σ) (validateCollection (Range.lengthCode min max)) (bounded min max ())) ∧
    (min = none → max = none → Never (σ := σ) (fun len => parseCollection (Range.lengthCode min max) len v) (.ok v) ∧
      Never (σ := σ) (validateCollection (Range.lengthCode min max)) (.ok ())) := by
  have lt1 : ∀ a b : Nat, Range.evalOp (some (compare a b)) .lt = decide (a < b) := fun a b => Range.linCmp_lt a b
  have gt1 : ∀ a b : Nat, Range.evalOp (some (compare a b)) .gt = decide (b < a) := fun a b => Range.linCmp_gt a b
  have bound : ∀ {A : Type} (x : A) (rest : List (Range.Stmt Nat)) (f : Nat → Out Range.RangeError A),
      (∀ n st len, ((runLength (σ := σ) len (fun y => if y = .length then some n else none) rest).bind fun _ => plain (.ok x)) st = (f n, st)) →
      Once (σ := σ) (fun len => (runLength len (fun _ => none) (.bindLen :: rest)).bind fun _ => plain (.ok x)) f := by
    intro A x rest f h src st st'
    constructor
    · intro a e
      rw [← h a st' src]
      simp only [runLength, bind, Prog.bind, ask, e]
    · intro e
      simp only [runLength, bind, Prog.bind, ask, e]
  refine ⟨fun hb => ?_, fun h1 h2 => ?_⟩
  · have both : ∀ {A : Type} (x : A),
        Once (σ := σ) (fun len => (runLength len (fun _ => none) (Range.lengthCode min max)).bind fun _ => plain (.ok x)) (bounded min max x) := by
      intro A x
      rcases min with _ | a <;> rcases max with _ | b
      · simp at hb
      · refine bound x _ _ fun n st len => ?_
        by_cases h : b < n <;>
          simp [runLength, Range.Cond.name, Range.evalCond, gt1, bounded, h, Prog.bind, plain, pure]
      · refine bound x _ _ fun n st len => ?_
        by_cases h : n < a <;>
          simp [runLength, Range.Cond.name, Range.evalCond, lt1, bounded, h, Prog.bind, plain, pure]
      · by_cases hab : a = b
        · exact absurd ((Range.C18_length_closed_iff_partial (some a) (some b)).2 ⟨a, rfl, by rw [hab]⟩) hc
        · simp only [Range.lengthCode, hab, if_false]
          refine bound x _ _ fun n st len => ?_
          by_cases h : n < a <;> by_cases h' : b < n <;>
            simp [runLength, Range.Cond.name, Range.evalCond, lt1, gt1, bounded, h, h', Prog.bind, plain, pure]
    exact ⟨both v, both ()⟩
  · subst h1 h2
    exact ⟨fun _ _ => rfl, fun _ _ => rfl⟩

/-- A collection whose `len` is 5 at the first call and 100 at the second: it is accepted with bounds 1 and 10, after one call. -/
example : parseCollection (Range.lengthCode (some 1) (some 10)) (fun calls : Nat => (some (if calls = 0 then 5 else 100), calls + 1)) "five" 0 =
    (.ok "five", 1) :=
  (((C87_length Nat (some 1) (some 10) (by rw [Ne, Range.C18_length_closed_iff_partial]; simp) "five").1 (by simp)).1 _ 0 1).1 5 rfl

/-- Reading the length anew for the second bound would not be this. -/
example : ¬ Once (σ := Nat) (fun len => (do
      runLength len (fun _ => none) (Range.lengthCode (some 1) none)
      runLength len (fun _ => none) (Range.lengthCode none (some 10)) : Prog Nat _ Unit)) (bounded (some 1) (some 10) ()) := by
  intro h
  have := (h (fun calls => (some 5, calls + 1)) 0 1).1 5 rfl
  cases this

/-- C87: `CollectionLength::is_empty` calls `len` exactly once and says whether its answer is 0. -/
theorem C87_is_empty (σ E : Type) : Once (isEmpty (σ := σ) (E := E)) (fun n => .ok (decide (n = 0))) :=
  once _ _ fun n st => by cases n <;> rfl

end Verif.Props.Input
