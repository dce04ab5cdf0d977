import Verif.Proof.Serde
import Verif.Props.BaseN
import Verif.Props.Boolean
import Verif.Props.Range
import Verif.Props.Ip
import Verif.Props.Line
import Verif.Props.Wrapper

/-!
# C49, C51, C52: deserialization, `validators::Result` and the Rocket traits
-/

namespace Verif.Props.Serde

open Verif Verif.Serde Verif.Spec.Serde Verif.Spec.IntV
open Verif.BaseN (strBytes)
open Verif.Props.BaseN (Kind)

variable {F G : Type} (widen : G → F)

/-! ## C49

Each theorem gives the one outcome of the deserialization, for every deserializer: that of the parse function for the kind of
data handed over, and an error for every other kind of data. -/

theorem C49_base (K : Kind) (pad : TriAllow) (d : Deserializer F G) (o : Out Unit (List UInt8)) :
    Outcome (baseDe widen K.variant pad) d o ↔
      o = reply (textsOrBytes (fun s => (BaseN.parseStr K.variant pad s).map strBytes) (BaseN.parseU8Slice K.variant pad)) .any d := by
  rw [← bytes_eq widen]
  exact outcome_plain _ d o

theorem C49_base_decoded (K : Kind) (pad : TriAllow) (d : Deserializer F G) (o : Out Unit (List UInt8)) :
    Outcome (decodedDe widen K.encoding pad) d o ↔
      o = reply (textsOrBytes (fun s => BaseN.decodedParse K.encoding pad (strBytes s)) (BaseN.decodedParse K.encoding pad)) .any d := by
  rw [← bytes_eq widen]
  exact outcome_plain _ d o

/-- The ten validators that ask for a text and know nothing else. -/
theorem C49_texts (d : Deserializer F G) :
    (∀ sep case o, Outcome (uuidDe widen sep case) d o ↔ o = reply (texts fun s => Uuid.parseStr sep case (strBytes s)) .str d) ∧
    (∀ sep case o, Outcome (macDe widen sep case) d o ↔ o = reply (texts fun s => Mac.parseStr sep case (strBytes s)) .str d) ∧
    (∀ loc port o, Outcome (ipv4De widen loc port) d o ↔ o = reply (texts fun s => Ip.parseStr Ip.parseIpv4 loc port (strBytes s)) .str d) ∧
    (∀ loc port o, Outcome (ipv6De widen loc port) d o ↔ o = reply (texts fun s => Ip.parseStr Ip.parseIpv6 loc port (strBytes s)) .str d) ∧
    (∀ loc port o, Outcome (ipDe widen loc port) d o ↔ o = reply (texts fun s => Ip.parseStr Ip.parseIp loc port (strBytes s)) .str d) ∧
    (∀ opts idna o, Outcome (hostDe widen opts idna) d o ↔ o = reply (texts fun s => Host.parseStr opts idna (strBytes s)) .str d) ∧
    (∀ opts idna o, Outcome (emailDe widen opts idna) d o ↔ o = reply (texts fun s => Email.parseStr opts idna (strBytes s)) .str d) ∧
    (∀ (C N : Type) [DecidableEq C] (lib : Phone.Lib C N) cs o,
      Outcome (phoneDe widen lib cs) d o ↔ o = reply (texts fun s => Phone.parseStr lib cs (strBytes s)) .str d) ∧
    (∀ (U : Type) (lib : Url.Lib U) loc o, Outcome (httpDe widen lib loc) d o ↔ o = reply (texts fun s => Url.parseHttpStr lib loc (strBytes s)) .str d) ∧
    (∀ (U : Type) (lib : Url.Lib U) loc o,
      Outcome (httpFtpDe widen lib loc) d o ↔ o = reply (texts fun s => Url.parseHttpFtpStr lib loc (strBytes s)) .str d) := by
  refine ⟨?_, ?_, ?_, ?_, ?_, ?_, ?_, ?_, ?_, ?_⟩ <;> intros <;> rw [← str_eq widen] <;> exact outcome_plain _ d _

/-- `domain` takes what the deserializer offers; `line`, `text` and `regex` ask for a string. -/
theorem C49_strings (d : Deserializer F G) :
    (∀ opts idna o, Outcome (domDe widen opts idna) d o ↔ o = reply (texts fun s => Domain.parseStr opts idna (strBytes s)) .any d) ∧
    (∀ k b min tmin max o, Outcome (lineDe widen k b min tmin max) d o ↔ o = reply (texts (Line.parseStr k b min tmin max)) .string d) ∧
    (∀ isMatch o, Outcome (regexDe widen isMatch) d o ↔ o = reply (texts fun s => Regex.parseStr isMatch (strBytes s)) .string d) := by
  refine ⟨?_, ?_, ?_⟩
  · intro opts idna o
    rw [← string_eq widen]
    exact outcome_plain _ d o
  · intro k b min tmin max o
    rw [← string_eq widen]
    exact outcome_plain _ d o
  · intro isMatch o
    rw [← string_eq widen]
    have e : (fun s => Regex.parseString isMatch (strBytes s)) = fun s => Regex.parseStr isMatch (strBytes s) := by
      funext s
      have h := Props.Wrapper.C48_regex isMatch (strBytes s)
      have hs : ∀ v, Regex.parseString isMatch (strBytes s) = .ok v ↔ Regex.parseStr isMatch (strBytes s) = .ok v := fun v => by
        rw [h.1, h.2.1]
      cases h1 : Regex.parseString isMatch (strBytes s) <;> cases h2 : Regex.parseStr isMatch (strBytes s) <;> grind
    unfold regexDe stringDe
    rw [e]
    exact outcome_plain _ d o

theorem C49_boolean (d : Deserializer F G) (o : Out Unit Bool) :
    Outcome (boolDe widen) d o ↔ o = reply (textsBoolsOrInts (fun s => Boolean.parseStr (strBytes s)) Boolean.parseInt) .any d := by
  rw [← boolean_eq widen _ Boolean.parseChar _ fun c => Props.Boolean.C22_char c]
  exact outcome_plain _ d o

theorem C49_number {α β : Type} [Ord α] [Ord β] (widen : Number.Fl β → Number.Fl α) (narrow : Number.Fl α → Number.Fl β)
    (from64 : List UInt8 → Option (Number.Fl α)) (from32 : List UInt8 → Option (Number.Fl β))
    (chk64 : Number.Fl α → Out Range.RangeError Unit) (chk32 : Number.Fl β → Out Range.RangeError Unit) (nan : TriAllow)
    (d : Deserializer (Number.Fl α) (Number.Fl β)) :
    (∀ o, Outcome (number64De widen from64 chk64 nan) d o ↔ o = reply (textsOrFloats (fun s => Number.parseStr from64 chk64 nan (strBytes s))
      (Number.parseF chk64 nan) fun f => Number.parseF chk64 nan (widen f)) .any d) ∧
    (∀ o, Outcome (number32De widen narrow from32 chk32 nan) d o ↔ o = reply (textsOrFloats (fun s => Number.parseStr from32 chk32 nan (strBytes s))
      (fun f => Number.parseF chk32 nan (narrow f)) (Number.parseF chk32 nan)) .any d) := by
  refine ⟨?_, ?_⟩ <;> intro o <;> rw [← number_eq widen] <;> exact outcome_plain _ d o

theorem width_agrees (chk : Int → Out Range.RangeError Unit) (ptr : IntV.Ptr) (target : IntV.Width) (signed : Bool) (w : IntV.Width) (ty : IntTy)
    (x : Int) (hx : Fits signed (bitsOf ty) x) (hw : IntV.bits ptr w = bitsOf ty) :
    IntV.parseW chk ptr signed target w x = IntV.parseW chk ptr signed target .w128 x := by
  refine Props.Range.C17_entry_points_agree ptr signed target w .w128 chk x (hw ▸ hx) ?_
  have h128 : IntV.bits ptr .w128 = 128 := rfl
  rw [h128]
  have hb : bitsOf ty ≤ 128 := by cases ty <;> decide
  revert hx
  cases signed <;> cases ty <;> simp only [Fits, bitsOf, if_true, Bool.false_eq_true, if_false] <;> omega

theorem asIntError_eq {α : Type} (r : Out Range.RangeError α) : asIntError r = withRangeError r := by
  rcases r with a | e | _
  · rfl
  · cases e <;> rfl
  · rfl

theorem C49_signed (chk : Int → Out Range.RangeError Unit) (ptr : IntV.Ptr) (target : IntV.Width) (d : Deserializer F G) (hd : WellTyped d)
    (o : Out Unit Int) :
    Outcome (intDe widen chk ptr target) d o ↔
      o = reply (textsOrInts true (fun s => IntV.parseStr chk true (IntV.bits ptr target) (strBytes s))
        fun x => withRangeError (IntV.parseW chk ptr true target .w128 x)) .any d := by
  simp only [← asIntError_eq]
  rw [← signed_eq widen _ (IntV.parseW chk ptr true target) d]
  · exact outcome_plain _ d o
  · intro ty x hf hs
    have hx := hd _ _ _ hf
    rw [hs] at hx
    cases ty <;> first | exact width_agrees chk ptr target true _ _ x hx rfl | exact absurd hs (by decide)

theorem C49_unsigned (chk : Int → Out Range.RangeError Unit) (ptr : IntV.Ptr) (target : IntV.Width) (d : Deserializer F G) (hd : WellTyped d)
    (o : Out Unit Int) :
    Outcome (uintDe widen chk ptr target) d o ↔
      o = reply (textsOrInts false (fun s => IntV.parseStr chk false (IntV.bits ptr target) (strBytes s))
        fun x => withRangeError (IntV.parseW chk ptr false target .w128 x)) .any d := by
  simp only [← asIntError_eq]
  rw [← unsigned_eq widen _ (IntV.parseW chk ptr false target) d]
  · exact outcome_plain _ d o
  · intro ty x hf hs
    have hx := hd _ _ _ hf
    rw [hs] at hx
    cases ty <;> first | exact width_agrees chk ptr target false _ _ x hx rfl | exact absurd hs (by decide)

/-- `byte`: a text in formats for humans; in the others an integer that the format delivers as a `u128`. -/
theorem C49_byte (lib : List UInt8 → Option Nat) (maxSize : Nat) (chk : Nat → Out Range.RangeError Unit) (d : Deserializer F G) (o : Out Unit Nat) :
    Outcome (sizeDe widen lib maxSize chk) d o ↔
      o = reply (fun
        | .text s => some (Size.parseStr lib chk (strBytes s))
        | .int .u128 x => some (Size.parseU128 maxSize chk x.toNat)
        | _ => none) (if d.human then .str else .u128) d := by
  unfold sizeDe byteDe
  rw [outcome_plain]
  generalize (if d.human = true then Hint.str else Hint.u128) = hint
  refine Eq.congr rfl ?_
  unfold drive reply
  cases d.feed hint with
  | none => rfl
  | some e =>
    cases e <;> simp only [Option.bind_some, dataOf, byteVisitor, visit, orError, orElse, id] <;>
      first
        | rfl
        | (cases Size.parseStr lib chk _ <;> rfl)
        | (rename_i ty x; cases ty <;> simp only [visit, orError, orElse] <;> first | rfl | (cases Size.parseU128 maxSize chk x.toNat <;> rfl))

/-- `bit` and `length`: what the inner type reads, if it passes the check. -/
theorem C49_inner {κ : Type} (inner : Deserializer F G → Option κ) (chk : Nat → Out Range.RangeError Unit) (len : κ → Nat) (d : Deserializer F G)
    (v : κ) :
    Outcome (lengthDe inner len chk) d (.ok v) ↔ inner d = some v ∧ Length.parseCollection chk len v = .ok v := by
  unfold lengthDe innerDe
  rw [outcome_plain]
  cases h : inner d with
  | none => simp
  | some w =>
    constructor
    · intro hv
      have : v = w := by
        cases hc : chk (len w) <;> simp [hc, custom] at hv
        exact hv
      subst this
      refine ⟨rfl, ?_⟩
      unfold Length.parseCollection
      cases hc : chk (len v) <;> simp [hc, custom] at hv ⊢
    · rintro ⟨hw, hp⟩
      cases hw
      unfold Length.parseCollection at hp
      cases hc : chk (len v) <;> simp [hc, custom] at hp ⊢

theorem C49_bit (inner : Deserializer F G → Option Nat) (chk : Nat → Out Range.RangeError Unit) (d : Deserializer F G) (v : Nat) :
    Outcome (bitDe inner chk) d (.ok v) ↔ inner d = some v ∧ Size.parseV chk v = .ok v := by
  have := C49_inner inner chk id d v
  unfold lengthDe at this
  unfold bitDe
  refine this.trans (and_congr_right fun _ => ?_)
  unfold Length.parseCollection Size.parseV
  cases hc : chk v <;> simp [hc]

/-- `json`: what `from_value` makes of the value read. -/
theorem C49_json {ε J V : Type} (value : Deserializer F G → Option J) (fromValue : J → Except ε V) (d : Deserializer F G) (v : V) :
    Outcome (jsonDe value fromValue) d (.ok v) ↔ ∃ j, value d = some j ∧ fromValue j = .ok v := by
  unfold jsonDe
  rw [outcome_plain]
  cases value d with
  | none => simp
  | some j => cases hf : fromValue j <;> simp [hf]; exact eq_comm

/-- `bit`, `length` and `json`, every outcome: nothing read or refused is an error, and nothing panics that the parse function
does not. -/
theorem C49_read (d : Deserializer F G) :
    (∀ (κ : Type) (inner : Deserializer F G → Option κ) chk len o, Outcome (lengthDe inner len chk) d o ↔
      o = replyRead inner (Length.parseCollection chk len) d) ∧
    (∀ inner chk o, Outcome (bitDe inner chk) d o ↔ o = replyRead inner (Size.parseV chk) d) ∧
    (∀ (ε J V : Type) (value : Deserializer F G → Option J) (fromValue : J → Except ε V) o, Outcome (jsonDe value fromValue) d o ↔
      o = replyRead value (fun j => match fromValue j with | .ok v => .ok v | .error e => .err e) d) := by
  refine ⟨?_, ?_, ?_⟩
  · intro κ inner chk len o
    unfold lengthDe innerDe replyRead
    rw [outcome_plain]
    refine Eq.congr rfl ?_
    cases inner d with
    | none => rfl
    | some v =>
      simp only [Option.map_some, Length.parseCollection]
      cases chk (len v) <;> rfl
  · intro inner chk o
    unfold bitDe innerDe replyRead
    rw [outcome_plain]
    refine Eq.congr rfl ?_
    cases inner d with
    | none => rfl
    | some v =>
      simp only [Option.map_some, Size.parseV]
      cases chk v <;> rfl
  · intro ε J V value fromValue o
    unfold jsonDe replyRead
    rw [outcome_plain]
    refine Eq.congr rfl ?_
    cases value d with
    | none => rfl
    | some j =>
      simp only [Option.map_some]
      cases fromValue j <;> rfl

/-- Reading the list `[1, 2, 3]` with at most two (three) elements allowed. -/
example (d : Deserializer F G) :
    replyRead (fun _ : Deserializer F G => some [1, 2, 3]) (Length.parseCollection (fun n => if n ≤ 2 then .ok () else .err .tooLarge) List.length) d = .err () ∧
    replyRead (fun _ : Deserializer F G => some [1, 2, 3]) (Length.parseCollection (fun n => if n ≤ 3 then .ok () else .err .tooLarge) List.length) d = .ok [1, 2, 3] := by
  constructor <;> rfl

/-! What it means for the values: no deserialized value escapes the validation. -/

theorem reply_ok {ε α : Type} {parse : Data F G → Option (Out ε α)} {hint : Hint} {d : Deserializer F G} {v : α} :
    Out.ok v = reply parse hint d ↔ ∃ e, d.feed hint = some e ∧ parse (dataOf e) = some (.ok v) := by
  unfold reply
  cases hf : d.feed hint with
  | none => simp
  | some e =>
    cases hp : parse (dataOf e) with
    | none => simp [hp]
    | some o => cases o <;> simp [hp]; exact eq_comm

/-- A deserialized base-N text is in the language of the validator. -/
theorem C49_base_valid (K : Kind) (pad : TriAllow) (d : Deserializer F G) (v : List UInt8) (h : Outcome (baseDe widen K.variant pad) d (.ok v)) :
    Spec.BaseN.Accepts K.spec pad v := by
  rw [C49_base, reply_ok] at h
  obtain ⟨e, -, h⟩ := h
  have main : ∀ b, BaseN.parseU8Slice K.variant pad b = .ok v → Spec.BaseN.Accepts K.spec pad v := fun b hb => by
    have hv := (Props.BaseN.C01_parse_u8_slice_language K pad b).1 ⟨v, hb⟩
    have : v = b := by
      unfold BaseN.parseU8Slice at hb
      cases hc : BaseN.check K.variant pad b <;> simp [hc] at hb
      exact hb.symm
    exact this ▸ hv
  cases hd : dataOf e <;> simp only [hd, textsOrBytes, reduceCtorEq, Option.some.injEq] at h
  · rename_i s
    rw [(Props.BaseN.C03_entry_points_agree K pad s _ rfl).2.2.1] at h
    exact main _ h
  · exact main _ h

/-- A deserialized integer is a value of the type and satisfies the range. -/
theorem C49_integer_valid (ptr : IntV.Ptr) (target : IntV.Width) (r : Range.RangeOption Int) (chk : Int → Out Range.RangeError Unit)
    (d : Deserializer F G) (hd : WellTyped d) (v : Int) :
    (IntV.check ptr true target r = some chk → Outcome (intDe widen chk ptr target) d (.ok v) →
      Fits true (IntV.bits ptr target) v ∧ Spec.Range.Satisfies r v) ∧
    (IntV.check ptr false target r = some chk → Outcome (uintDe widen chk ptr target) d (.ok v) →
      Fits false (IntV.bits ptr target) v ∧ Spec.Range.Satisfies r v) := by
  have ext : ∀ signed ty x, Fits signed (bitsOf ty) x → Fits signed (IntV.bits ptr .w128) x := by
    intro signed ty x hx
    revert hx
    cases signed <;> cases ty <;> simp only [Fits, bitsOf, IntV.bits, if_true, Bool.false_eq_true, if_false] <;> omega
  have main : ∀ signed, IntV.check ptr signed target r = some chk → ∀ e, d.feed .any = some e →
      textsOrInts signed (fun s => IntV.parseStr chk signed (IntV.bits ptr target) (strBytes s))
        (fun x => withRangeError (IntV.parseW chk ptr signed target .w128 x)) (dataOf e) = some (.ok v) →
      Fits signed (IntV.bits ptr target) v ∧ Spec.Range.Satisfies r v := by
    intro signed hc e hf h
    cases e <;> simp only [dataOf, textsOrInts, reduceCtorEq, Option.some.injEq] at h
    case int ty x =>
      split at h
      · rename_i hs
        have hx := hd _ _ _ hf
        rw [hs] at hx
        have h' : IntV.parseW chk ptr signed target .w128 x = .ok v := by
          revert h
          rcases IntV.parseW chk ptr signed target .w128 x with _ | (_ | _ | _) | _ <;> simp [withRangeError]
        obtain ⟨rfl, h1, h2⟩ := ((Props.Range.C17_no_truncation ptr signed target .w128 r chk hc x (ext signed ty x hx)).2.1 v).1 h'
        exact ⟨h1, h2⟩
      · cases h
    all_goals exact ((Props.Range.C16_language ptr signed target r chk hc _ v).1 h).2
  refine ⟨fun hc h => ?_, fun hc h => ?_⟩
  · rw [C49_signed widen chk ptr target d hd, reply_ok] at h
    obtain ⟨e, hf, h⟩ := h
    exact main true hc e hf h
  · rw [C49_unsigned widen chk ptr target d hd, reply_ok] at h
    obtain ⟨e, hf, h⟩ := h
    exact main false hc e hf h

/-- A deserialized size is within the bounds. -/
theorem C49_byte_valid (lib : List UInt8 → Option Nat) (maxSize : Nat) (b : Range.Bounds Nat) (chk : Nat → Out Range.RangeError Unit)
    (hc : Size.check b = some chk) (d : Deserializer F G) (v : Nat) (h : Outcome (sizeDe widen lib maxSize chk) d (.ok v)) :
    Spec.Range.Contains b v := by
  rw [C49_byte, reply_ok] at h
  obtain ⟨e, -, h⟩ := h
  split at h
  · exact ((Props.Range.C19_text lib b chk hc _ v).1 (Option.some.inj h)).2
  · obtain ⟨rfl, -, h⟩ := ((Props.Range.C19_integer_entry maxSize b chk hc _).2.2 v).1 (Option.some.inj h)
    exact h
  · cases h

/-- A deserialized line or text is clean and within the lengths. -/
theorem C49_line_valid (k : Line.Kind) (b : Bool) (min max : Option Nat) (ho : Props.Line.InOrder min max) (d : Deserializer F G) (v : List Char)
    (h : Outcome (lineDe widen k b min none max) d (.ok v)) : Spec.Line.Clean k v ∧ Spec.Line.SizeOk b min max v := by
  rw [(C49_strings widen d).2.1, reply_ok] at h
  obtain ⟨e, -, h⟩ := h
  cases hd : dataOf e <;> simp only [hd, texts, reduceCtorEq, Option.some.injEq] at h
  rename_i s
  obtain ⟨rfl, h⟩ := (Props.Line.C23_language k b min max s v ho).1 h
  exact h

/-- A deserializer that hands over one event, whatever it is asked for. -/
def always (e : Event F G) : Deserializer F G := ⟨true, fun _ => some e⟩

/-- Concrete cases: a text is parsed, a text that is no base64 and a boolean are refused. -/
example : Outcome (baseDe (F := Unit) (G := Unit) id Kind.base64.variant .must) (always (.str "QUE=".toList)) (.ok (ascii "QUE=")) := ⟨1, by decide⟩
example : Outcome (baseDe (F := Unit) (G := Unit) id Kind.base64.variant .must) (always (.string "QUE".toList)) (.err ()) := ⟨1, by decide⟩
example : Outcome (baseDe (F := Unit) (G := Unit) id Kind.base64.variant .must) (always (.bool true)) (.err ()) := ⟨1, by decide⟩
example : Outcome (decodedDe (F := Unit) (G := Unit) id Kind.base64.encoding .must) (always (.byteBuf (ascii "QUE="))) (.ok (ascii "AA")) := ⟨1, by decide⟩
example : Outcome (boolDe (F := Unit) (G := Unit) id) (always (.int .i8 1)) (.ok true) := ⟨1, by decide⟩
example : Outcome (boolDe (F := Unit) (G := Unit) id) (always (.char 'n')) (.ok false) := ⟨1, by decide⟩
example : WellTyped (F := Unit) (G := Unit) (always (.int .i8 (-3))) := by
  intro _ _ _ h; cases h; exact ⟨by decide, by decide⟩
example : ∃ chk, IntV.check .p64 true .w8 (.inside ⟨some (-5), some 7, true⟩) = some chk ∧
    Outcome (intDe (F := Unit) (G := Unit) id chk .p64 .w8) (always (.int .i64 (-3))) (.ok (-3)) ∧
    Outcome (intDe (F := Unit) (G := Unit) id chk .p64 .w8) (always (.int .i64 300)) (.err ()) ∧
    Outcome (intDe (F := Unit) (G := Unit) id chk .p64 .w8) (always (.str "6".toList)) (.ok 6) :=
  ⟨_, rfl, ⟨1, by decide⟩, ⟨1, by decide⟩, ⟨1, by decide⟩⟩

/-! ## C51 -/

/-- C51: deserialization returns, for every deserializer and every validator but `url`, `semver` and `semver_req`. -/
theorem C51_finishes_partial (d : Deserializer F G) :
    (∀ B pad, Finishes (baseDe widen B pad) d) ∧ (∀ E pad, Finishes (decodedDe widen E pad) d) ∧
    (∀ sep case, Finishes (uuidDe widen sep case) d) ∧ (∀ sep case, Finishes (macDe widen sep case) d) ∧
    (∀ loc port, Finishes (ipv4De widen loc port) d) ∧ (∀ loc port, Finishes (ipv6De widen loc port) d) ∧
    (∀ loc port, Finishes (ipDe widen loc port) d) ∧ (∀ o idna, Finishes (domDe widen o idna) d) ∧ (∀ o idna, Finishes (hostDe widen o idna) d) ∧
    (∀ o idna, Finishes (emailDe widen o idna) d) ∧
    (∀ (C N : Type) [DecidableEq C] (lib : Phone.Lib C N) cs, Finishes (phoneDe widen lib cs) d) ∧
    (∀ (U : Type) (lib : Url.Lib U) loc, Finishes (httpDe widen lib loc) d ∧ Finishes (httpFtpDe widen lib loc) d) ∧
    (∀ k b min tmin max, Finishes (lineDe widen k b min tmin max) d) ∧ (∀ isMatch, Finishes (regexDe widen isMatch) d) ∧
    Finishes (boolDe widen) d ∧ (∀ chk ptr w, Finishes (intDe widen chk ptr w) d ∧ Finishes (uintDe widen chk ptr w) d) ∧
    (∀ lib n chk, Finishes (sizeDe widen lib n chk) d) ∧ (∀ inner chk, Finishes (bitDe inner chk) d) ∧
    (∀ (κ : Type) (inner : Deserializer F G → Option κ) len chk, Finishes (lengthDe inner len chk) d) ∧
    (∀ (ε J V : Type) (value : Deserializer F G → Option J) (fromValue : J → Except ε V), Finishes (jsonDe value fromValue) d) := by
  have fin : ∀ {α : Type} (f : Deserializer F G → Out Unit α), Finishes (plain f) d := fun f => ⟨f d, (outcome_plain f d _).2 rfl⟩
  refine ⟨?_, ?_, ?_, ?_, ?_, ?_, ?_, ?_, ?_, ?_, ?_, ?_, ?_, ?_, ?_, ?_, ?_, ?_, ?_, ?_⟩ <;> intros <;>
    first
      | exact fin _
      | exact ⟨fin _, fin _⟩

/-- C51, the same for `number`. -/
theorem C51_number_finishes {α β : Type} [Ord α] [Ord β] (widen : Number.Fl β → Number.Fl α) (narrow : Number.Fl α → Number.Fl β)
    (from64 : List UInt8 → Option (Number.Fl α)) (from32 : List UInt8 → Option (Number.Fl β))
    (chk64 : Number.Fl α → Out Range.RangeError Unit) (chk32 : Number.Fl β → Out Range.RangeError Unit) (nan : TriAllow)
    (d : Deserializer (Number.Fl α) (Number.Fl β)) :
    Finishes (number64De widen from64 chk64 nan) d ∧ Finishes (number32De widen narrow from32 chk32 nan) d :=
  ⟨⟨_, (outcome_plain _ d _).2 rfl⟩, ⟨_, (outcome_plain _ d _).2 rfl⟩⟩

/-- C51 is violated by `url`, `semver` and `semver_req`: for no deserializer does the call return, however deep the calls may
nest. -/
theorem C51_violated (V : Type) (d : Deserializer F G) : ¬ Finishes (selfDe : Body F G V) d := by
  rintro ⟨o, n, h⟩
  have : ∀ n, run (selfDe : Body F G V) n d = none := by
    intro n
    induction n with
    | zero => rfl
    | succ n ih => exact ih
  rw [this n] at h
  cases h

/-! ## C52 -/

/-- C52: `validators::Result` applies the same parse functions to the same data, and a refusal becomes a value. -/
theorem C52_result_base (K : Kind) (pad : TriAllow) (d : Deserializer F G) :
    (∀ o, Outcome (baseResult widen K.variant pad) d o ↔
      o = replyResult (textsOrBytes (fun s => (BaseN.parseStr K.variant pad s).map strBytes) (BaseN.parseU8Slice K.variant pad)) .any d) ∧
    (∀ o, Outcome (decodedResult widen K.encoding pad) d o ↔
      o = replyResult (textsOrBytes (fun s => BaseN.decodedParse K.encoding pad (strBytes s)) (BaseN.decodedParse K.encoding pad)) .any d) := by
  refine ⟨?_, ?_⟩ <;> intro o <;> rw [← bytes_result_eq widen] <;> exact outcome_plain _ d o

/-- For every validator that is deserialized from a text alone (`parse` is its parse function). -/
theorem C52_result_texts {ε V : Type} (parse : List Char → Out ε V) (d : Deserializer F G) (o : Out Unit (Except ε V)) :
    (Outcome (strResultDe widen parse) d o ↔ o = replyResult (texts parse) .str d) ∧
    (Outcome (stringResultDe widen parse parse) d o ↔ o = replyResult (texts parse) .string d) ∧
    (Outcome (domainResultDe widen parse parse) d o ↔ o = replyResult (texts parse) .any d) := by
  refine ⟨?_, ?_, ?_⟩
  · rw [← str_result_eq widen]
    exact outcome_plain _ d o
  · rw [← string_result_eq widen]
    exact outcome_plain _ d o
  · rw [← string_result_eq widen]
    exact outcome_plain _ d o

theorem C52_result_boolean (d : Deserializer F G) (o : Out Unit (Except Unit Bool)) :
    Outcome (boolResult widen) d o ↔
      o = replyResult (textsBoolsOrInts (fun s => Boolean.parseStr (strBytes s)) Boolean.parseInt) .any d := by
  rw [← boolean_result_eq widen _ Boolean.parseChar _ fun c => Props.Boolean.C22_char c]
  exact outcome_plain _ d o

theorem C52_result_number {α β : Type} [Ord α] (widen : Number.Fl β → Number.Fl α) (from64 : List UInt8 → Option (Number.Fl α))
    (chk64 : Number.Fl α → Out Range.RangeError Unit) (nan : TriAllow) (d : Deserializer (Number.Fl α) (Number.Fl β))
    (o : Out Unit (Except Number.NumberError (Number.Fl α))) :
    Outcome (number64Result widen from64 chk64 nan) d o ↔
      o = replyResult (textsOrFloats (fun s => Number.parseStr from64 chk64 nan (strBytes s)) (Number.parseF chk64 nan)
        fun f => Number.parseF chk64 nan (widen f)) .any d := by
  rw [← number_result_eq widen]
  exact outcome_plain _ d o

theorem C52_result_integers (chk : Int → Out Range.RangeError Unit) (ptr : IntV.Ptr) (target : IntV.Width) (d : Deserializer F G)
    (hd : WellTyped d) (o : Out Unit (Except IntV.IntError Int)) :
    (Outcome (intResult widen chk ptr target) d o ↔
      o = replyResult (textsOrInts true (fun s => IntV.parseStr chk true (IntV.bits ptr target) (strBytes s))
        fun x => withRangeError (IntV.parseW chk ptr true target .w128 x)) .any d) ∧
    (Outcome (uintResult widen chk ptr target) d o ↔
      o = replyResult (textsOrInts false (fun s => IntV.parseStr chk false (IntV.bits ptr target) (strBytes s))
        fun x => withRangeError (IntV.parseW chk ptr false target .w128 x)) .any d) := by
  simp only [← asIntError_eq]
  refine ⟨?_, ?_⟩
  · rw [← signed_result_eq widen _ (IntV.parseW chk ptr true target) d]
    · exact outcome_plain _ d o
    · intro ty x hf hs
      have hx := hd _ _ _ hf
      rw [hs] at hx
      cases ty <;> first | exact width_agrees chk ptr target true _ _ x hx rfl | exact absurd hs (by decide)
  · rw [← unsigned_result_eq widen _ (IntV.parseW chk ptr false target) d]
    · exact outcome_plain _ d o
    · intro ty x hf hs
      have hx := hd _ _ _ hf
      rw [hs] at hx
      cases ty <;> first | exact width_agrees chk ptr target false _ _ x hx rfl | exact absurd hs (by decide)

/-- `bit` and `byte`: the string or integer that serde reads, parsed. -/
theorem C52_result_size {ε : Type} (utf8 : List UInt8 → Option (List Char)) (parse : List Char → Out ε Nat) (parseInt : Int → Out ε Nat)
    (d : Deserializer F G) (hd : WellTyped d) (o : Out Unit (Except ε Nat)) :
    Outcome (sizeResultDe widen utf8 parse parseInt) d o ↔
      o = if d.human = true then
        replyResult (fun | .text s => some (parse s) | .bytes b => (utf8 b).map parse | _ => none) .string d
      else replyResult (fun | .int _ x => if 0 ≤ x then some (parseInt x) else none | _ => none) .u128 d := by
  unfold sizeResultDe
  rw [outcome_plain]
  refine Eq.congr rfl ?_
  split
  · unfold drive replyResult
    cases d.feed .string with
    | none => rfl
    | some e =>
      cases e <;> simp only [Option.bind_some, dataOf, readString, visit, orError, orElse, id] <;>
        first
          | rfl
          | (rename_i ty x; cases ty <;> rfl)
          | (rename_i b; cases hb : utf8 b <;> simp only [Option.map_none, Option.map_some, Out.bind_ok, Out.bind_err]; cases parse _ <;> rfl)
          | (simp only [Out.bind_ok]; cases parse _ <;> rfl)
  · unfold drive replyResult
    cases hf : d.feed .u128 with
    | none => rfl
    | some e =>
      cases e <;> try rfl
      rename_i ty x
      have hx := hd _ _ _ hf
      simp only [Option.bind_some, dataOf]
      cases ty <;> simp only [Fits, IsSigned, bitsOf, if_true, Bool.false_eq_true, if_false] at hx <;>
        simp only [readU128, visit, orError, orElse] <;> by_cases h0 : x < 0 <;> simp [h0, Int.not_le.2, Int.not_lt.1] <;>
        first
          | omega
          | (cases h : parseInt x <;> simp [wrap, h, Int.not_lt.1 h0])

/-- `length` and `json`: the value that serde reads, parsed; if there is none, an error for `length` and the value
`Err(InvalidJsonValueError)` for `json`. -/
theorem C52_result_read {ε ι V : Type} (read : Deserializer F G → Option ι) (parse : ι → Out ε V) (d : Deserializer F G)
    (o : Out Unit (Except ε V)) :
    (Outcome (lengthResultDe read parse) d o ↔ o = replyReadResult read parse (.err ()) d) ∧
    (∀ invalid, Outcome (jsonResultDe read parse invalid) d o ↔ o = replyReadResult read parse (.ok (.error invalid)) d) := by
  unfold lengthResultDe jsonResultDe replyReadResult
  refine ⟨?_, fun invalid => ?_⟩ <;> rw [outcome_plain] <;> refine Eq.congr rfl ?_ <;> cases read d with
  | none => rfl
  | some v =>
    simp only [Option.map_some]
    cases parse v <;> rfl

/-- C52: a `validators::Result` and the validator itself agree: the same values, and the `Result` fails only where the data
cannot be given to a parse function at all. -/
theorem C52_result_agrees {ε V : Type} (parse : Data F G → Option (Out ε V)) (hint : Hint) (d : Deserializer F G) :
    (∀ v, replyResult parse hint d = .ok (.ok v) ↔ reply parse hint d = .ok v) ∧
    (∀ x, replyResult parse hint d = .ok (.error x) ↔ ∃ e, d.feed hint = some e ∧ parse (dataOf e) = some (.err x)) ∧
    (replyResult parse hint d = .err () ↔ ∀ e, d.feed hint = some e → parse (dataOf e) = none) := by
  unfold reply replyResult
  cases hf : d.feed hint with
  | none => simp
  | some e =>
    cases hp : parse (dataOf e) with
    | none => simp [hp]
    | some o => cases o <;> simp [hp]

/-- C52: the Rocket traits return exactly what `parse_str` returns, and a `validators::Result` field never fails. -/
theorem C52_rocket {ε V : Type} (parse : List UInt8 → Out ε V) (s : List UInt8) :
    (∀ v, Adapters.fromParam parse s = .ok v ↔ parse s = .ok v) ∧ (∀ e, Adapters.fromParam parse s = .err e ↔ parse s = .err e) ∧
    (∀ v, Adapters.fromFormField parse s = .ok v ↔ parse s = .ok v) ∧
    (Adapters.fromFormField parse s = .err () ↔ ∃ e, parse s = .err e) ∧
    (∀ v, Adapters.resultFromFormField parse s = .ok (.ok v) ↔ parse s = .ok v) ∧
    (∀ e, Adapters.resultFromFormField parse s = .ok (.error e) ↔ parse s = .err e) ∧
    Adapters.resultFromFormField parse s ≠ .err () := by
  unfold Adapters.resultFromFormField Adapters.fromFormField Adapters.fromParam
  cases parse s <;> simp [custom, wrap]

/-- C52: `FromStr` and the `From` impls of `validators::Result` never fail; the result inside is that of the parse function. -/
theorem C52_conversions {ε V X : Type} (parse : X → Out ε V) (parseStr : List UInt8 → Out ε V) (x : X) (s : List UInt8) :
    (∀ v, Adapters.resultFrom parse x = .ok (.ok v) ↔ parse x = .ok v) ∧
    (∀ e, Adapters.resultFrom parse x = .ok (.error e) ↔ parse x = .err e) ∧ (∀ e, Adapters.resultFrom parse x ≠ .err e) ∧
    (∀ v, Adapters.resultFromStr parseStr s = .ok (.ok v) ↔ parseStr s = .ok v) ∧
    (∀ e, Adapters.resultFromStr parseStr s = .ok (.error e) ↔ parseStr s = .err e) ∧ (∀ e, Adapters.resultFromStr parseStr s ≠ .err e) ∧
    (∀ r : Except ε V, Adapters.intoStdResult (Adapters.new r) = r) := by
  unfold Adapters.resultFrom Adapters.resultFromStr
  cases parse x <;> cases parseStr s <;> simp [Adapters.new, Adapters.intoStdResult]

/-- Concrete cases: a refused text is a value of the `Result`, a boolean for a base64 validator is an error. -/
example : Outcome (baseResult (F := Unit) (G := Unit) id Kind.base64.variant .must) (always (.str "QUE".toList)) (.ok (.error .invalid)) ∨
    Outcome (baseResult (F := Unit) (G := Unit) id Kind.base64.variant .must) (always (.str "QUE".toList)) (.ok (.error .paddingMust)) :=
  .inr ⟨1, by decide⟩
example : Outcome (baseResult (F := Unit) (G := Unit) id Kind.base64.variant .must) (always (.bool true)) (.err ()) := ⟨1, by decide⟩
example : Adapters.resultFromFormField Boolean.parseStr (ascii "maybe") = .ok (.error ()) ∧
    Adapters.resultFromFormField Boolean.parseStr (ascii "yes") = .ok (.ok true) := by decide

end Verif.Props.Serde
