import Verif.Proof.TextOrder
import Verif.Props.Line
import Verif.Props.BaseN
import Verif.Props.Hex

/-!
# C84 for `line`, `text`, the base-N texts, `uuid` and `mac_address`

The lists are in Spec/TextOrder.lean. The panic of `line` and `text` with a maximum of `usize::MAX` (C24) is a matter of `Model/LineMax.lean`.
-/

namespace Verif.Props.TextOrder

open Verif.Spec Verif.Spec.Line Verif.Spec.Order Verif.Spec.TextOrder Verif.Order Verif.Line Verif.TextOrder
open Verif.Props.Line (InOrder)
open Verif.Props.BaseN (Kind.variant Kind.spec Kind.encoding)
open _root_.Verif.BaseN (strBytes)

/-- C84, `line` and `text`, with bounds in order, as the macro requires. -/
theorem C84_line (k : Kind) (b : Bool) (min trimmedMin max : Option Nat) (s : List Char) (ho : InOrder min max) :
    Decide (line k b min trimmedMin max s) (parseStr k b min trimmedMin max s) ∧
    Decide (line k b min trimmedMin max s) (validateStr k b min trimmedMin max s) := by
  have h := line_checks k b min trimmedMin max s ho
  refine ⟨(decide_congr _ _ _ ?_).1 h, (decide_congr _ _ _ ?_).1 h⟩
  · unfold parseStr
    cases check k b min trimmedMin max s <;> rfl
  · unfold validateStr
    cases check k b min trimmedMin max s <;> rfl

/-- C84, `base64`, `base64_url` and `base32`. -/
theorem C84_base (K : Verif.Props.BaseN.Kind) (pad : TriAllow) (v : List UInt8) :
    Decide (base K.spec pad v) (BaseN.parseU8Slice K.variant pad v) ∧
    Decide (base K.spec pad v) (BaseN.validateU8Slice K.variant pad v) ∧
    Decide (base K.spec pad v) (BaseN.decodedValidate K.variant pad v) := by
  have h := base_checks _ _ K.matches pad v
  refine ⟨(decide_congr _ _ _ ?_).1 h, (decide_congr _ _ _ ?_).1 h, h⟩
  · unfold BaseN.parseU8Slice
    cases BaseN.check K.variant pad v <;> rfl
  · unfold BaseN.validateU8Slice
    cases BaseN.check K.variant pad v <;> rfl

/-- C84, `base64`, `base64_url` and `base32`, strings. -/
theorem C84_base_str (K : Verif.Props.BaseN.Kind) (pad : TriAllow) (s : List Char) :
    Decide (base K.spec pad (strBytes s)) (BaseN.parseStr K.variant pad s) ∧
    Decide (base K.spec pad (strBytes s)) (BaseN.validateStr K.variant pad s) := by
  have h := base_checks _ _ K.matches pad (strBytes s)
  refine ⟨(decide_congr _ _ _ ?_).1 h, (decide_congr _ _ _ ?_).1 h⟩
  · unfold BaseN.parseStr
    cases BaseN.check K.variant pad (strBytes s) <;> rfl
  · unfold BaseN.validateStr
    cases BaseN.check K.variant pad (strBytes s) <;> rfl

/-- C84, `base64_decoded`, `base64_url_decoded` and `base32_decoded`: only an empty text is `Invalid`, all other faults are `Decode`. -/
theorem C84_base_decoded (K : Verif.Props.BaseN.Kind) (pad : TriAllow) (v : List UInt8) :
    Decide (decoded K.spec pad v) (BaseN.decodedParse K.encoding pad v) := by
  unfold decoded
  by_cases hv : v = []
  · rw [show BaseN.decodedParse K.encoding pad v = .err .invalid from by subst hv; rfl]
    exact decide_err _ _ _ hv
  refine decide_skip _ _ _ _ hv ?_
  by_cases hd : ∃ d, BaseN.Decodes K.spec pad v d
  · obtain ⟨d, hd⟩ := hd
    rw [(Verif.Props.BaseN.C06_language K pad v d).2 hd]
    exact decide_skip _ _ _ _ (fun h => h ⟨d, hd⟩) ((decide_nil _).2 ⟨d, rfl⟩)
  · rw [(Verif.Props.BaseN.C06_errors K pad v).2.2.2 ⟨hv, fun d h => hd ⟨d, h⟩⟩]
    exact decide_err _ _ _ hd

/-- C84, `uuid`. -/
theorem C84_uuid (sep : SeparatorOption) (case : CaseOption) (v : List UInt8) :
    Decide (hex sep case Hex.uuidSizes v) (Uuid.parseStr sep case v) ∧ Decide (hex sep case Hex.uuidSizes v) (Uuid.validateStr sep case v) := by
  have h : Decide (hex sep case Hex.uuidSizes v) (Uuid.parseStr sep case v) := by
    refine hex_checks _ _ _ _ _ (Verif.Props.Hex.C08_uuid_exact sep case v) (Verif.Props.Hex.C09_uuid_no_panic sep case v).1 ?_ ?_
      (uuid_plain sep case v)
    · rintro s rfl hl
      unfold Uuid.parseStr Uuid.digits
      simp only
      rw [if_pos (show v.length ≠ 36 from hl)]; rfl
    · rintro rfl hl
      unfold Uuid.parseStr Uuid.digits
      simp only
      rw [if_pos (show v.length ≠ 32 from hl)]; rfl
  refine ⟨h, (decide_congr _ _ _ ?_).1 h⟩
  rw [Verif.Props.Hex.C09_uuid_validate_agrees]
  cases Uuid.parseStr sep case v <;> rfl

/-- C84, `mac_address`, for the texts on which it does not panic (C12). -/
theorem C84_mac (sep : SeparatorOption) (case : CaseOption) (v : List UInt8) (hp : Mac.parseStr sep case v ≠ .panic) :
    Decide (hex sep case Hex.macSizes v) (Mac.parseStr sep case v) ∧ Decide (hex sep case Hex.macSizes v) (Mac.validateStr sep case v) := by
  have h : Decide (hex sep case Hex.macSizes v) (Mac.parseStr sep case v) := by
    refine hex_checks _ _ _ _ _ (Verif.Props.Hex.C11_mac_exact sep case v) hp ?_ ?_ (mac_plain sep case v)
    · rintro s rfl hl
      unfold Mac.parseStr Mac.digits
      simp only
      rw [if_pos (show v.length ≠ 17 from hl)]; rfl
    · rintro rfl hl
      unfold Mac.parseStr Mac.digits
      simp only
      rw [if_pos (show v.length ≠ 12 from hl)]; rfl
  refine ⟨h, (decide_congr _ _ _ ?_).1 h⟩
  rw [Verif.Props.Hex.C12_mac_validate_agrees]
  cases Mac.parseStr sep case v <;> rfl

/-! ### The hypotheses are met -/

example : InOrder (some 2) (some 4) := by rintro _ ⟨⟩ _ ⟨⟩; omega

/-- Counting bytes the length comes before the control character, counting characters after it, unless it lies behind the maximum. -/
example : parseStr .line true none none (some 3) "a\x01bc".toList = .err .tooLong ∧
    parseStr .line false none none (some 3) "a\x01bc".toList = .err .invalid ∧
    parseStr .line false none none (some 3) "abcdef\x01".toList = .err .tooLong := by decide

/-- With `trimmed_min`: leading white space that is too long, a control character before the maximum, and one behind it with and without
a minimum. -/
example : parseStr .line true none (some 1) (some 3) "   \x01".toList = .err .tooLong ∧
    parseStr .line true (some 1) (some 1) (some 3) " a\x01bc".toList = .err .invalid ∧
    parseStr .line true none (some 1) (some 3) " abcd\x01".toList = .err .invalid ∧
    parseStr .line true (some 1) (some 1) (some 3) " abcd\x01".toList = .err .tooLong := by decide

/-- A byte that is no symbol comes before the padding, in an earlier block also after it. -/
example : BaseN.parseStr Verif.Props.BaseN.Kind.base64.variant .disallow "QQ==QQ==".toList = .err .invalid ∧
    BaseN.parseStr Verif.Props.BaseN.Kind.base64.variant .disallow "QUJDQQ=!".toList = .err .paddingDisallow ∧
    BaseN.parseStr Verif.Props.BaseN.Kind.base64.variant .disallow "QUJDQ!==".toList = .err .invalid ∧
    BaseN.parseStr Verif.Props.BaseN.Kind.base64.variant .must "!!!!!".toList = .err .paddingMust := by decide

/-- Any text of another length is said to lack separators, or to have some. -/
example : Mac.parseStr (.must (asc ':')) .upper (ascii "?") = .err .separatorMust ∧
    Mac.parseStr .disallow .upper (ascii "?") = .err .separatorDisallow ∧
    Mac.parseStr (.must (asc ':')) .upper (ascii "080027B246C3-----") = .err .invalid ∧
    Mac.parseStr (.allow (asc ':')) .upper (ascii "?") = .err .invalid ∧
    Uuid.parseStr (.must (asc '-')) .lower (ascii "936da01f9abd4d9d80c702af85c822a8") = .err .separatorMust := by decide +kernel

end Verif.Props.TextOrder
