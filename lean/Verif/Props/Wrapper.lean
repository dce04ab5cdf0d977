import Verif.Model.Wrapper
import Verif.Proof.Int

/-!
# C48: wrapper validators
-/

namespace Verif.Props.Wrapper

open Verif Verif.IntV Verif.Spec.IntV

/-- C48, `regex`: exactly the texts that match, unchanged, for each entry point. -/
theorem C48_regex (isMatch : List UInt8 → Bool) (s : List UInt8) :
    (∀ v, Regex.parseString isMatch s = .ok v ↔ isMatch s = true ∧ v = s) ∧
    (∀ v, Regex.parseStr isMatch s = .ok v ↔ isMatch s = true ∧ v = s) ∧
    (Regex.validateStr isMatch s = .ok () ↔ isMatch s = true) ∧
    Regex.parseString isMatch s ≠ .panic ∧ Regex.parseStr isMatch s ≠ .panic ∧ Regex.validateStr isMatch s ≠ .panic := by
  unfold Regex.parseString Regex.parseStr Regex.validateStr Regex.vParse
  cases isMatch s <;> simp [eq_comm]

example : Regex.parseStr (fun s => s.length == 2) (ascii "ab") = .ok (ascii "ab") ∧
    Regex.parseStr (fun s => s.length == 2) (ascii "abc") = .err () := by decide

/-- C48, `url`, `semver`, `semver_req`, `json`: exactly what the library returns, for each entry point. -/
theorem C48_library {ε V : Type} (lib : List UInt8 → Except ε V) (s : List UInt8) :
    (∀ v, Wrapper.parseString lib s = .ok v ↔ lib s = .ok v) ∧ (∀ e, Wrapper.parseString lib s = .err e ↔ lib s = .error e) ∧
    (∀ v, Wrapper.parseStr lib s = .ok v ↔ lib s = .ok v) ∧ (∀ e, Wrapper.parseStr lib s = .err e ↔ lib s = .error e) ∧
    (Wrapper.validateStr lib s = .ok () ↔ ∃ v, lib s = .ok v) ∧ (∀ e, Wrapper.validateStr lib s = .err e ↔ lib s = .error e) ∧
    Wrapper.parseString lib s ≠ .panic ∧ Wrapper.parseStr lib s ≠ .panic ∧ Wrapper.validateStr lib s ≠ .panic := by
  unfold Wrapper.parseString Wrapper.parseStr Wrapper.validateStr Wrapper.vParse
  cases h : lib s <;> simp

example : Wrapper.parseStr (fun s => if s = [] then .error 'e' else .ok s.length) (ascii "1.0") = .ok 3 ∧
    Wrapper.parseStr (fun s => if s = [] then .error 'e' else .ok s.length) [] = .err 'e' := by decide

variable {F R ε V : Type}

/-- The JSON number of an integer that has one. -/
def jsonInt (x : Int) : Json.Value F R := .number (if x < 0 then .neg x else .pos x.toNat)

/-- C48, `json`: through every integer entry point, an integer in the range of `i64` or `u64` is treated as the JSON value of
that integer; any other integer (they exist for the 128-bit entry points only) is refused. -/
theorem C48_json_integers (fromValue : Json.Value F R → Except ε V) (ptr : Ptr) (signed : Bool) (w : Width) (x : Int)
    (hx : Fits signed (bits ptr w) x) :
    ((-2 ^ 63 ≤ x ∧ x < 2 ^ 64) → Json.parseW fromValue ptr signed w x = Json.parseValue fromValue (jsonInt x)) ∧
    (¬ (-2 ^ 63 ≤ x ∧ x < 2 ^ 64) → w = .w128 ∧ Json.parseW fromValue ptr signed w x = .err .toValue) := by
  have c16 : Fits signed 16 x → castTo signed 16 x = x := castTo_fits signed 16 (by decide) x
  have c32 : Fits signed 32 x → castTo signed 32 x = x := castTo_fits signed 32 (by decide) x
  have c64 : Fits signed 64 x → castTo signed 64 x = x := castTo_fits signed 64 (by decide) x
  have w16 : Fits signed 8 x → Fits signed 16 x := by cases signed <;> simp only [Fits] <;> intro h <;> simp at h ⊢ <;> omega
  have w32 : Fits signed 16 x → Fits signed 32 x := by cases signed <;> simp only [Fits] <;> intro h <;> simp at h ⊢ <;> omega
  have w64 : Fits signed 32 x → Fits signed 64 x := by cases signed <;> simp only [Fits] <;> intro h <;> simp at h ⊢ <;> omega
  have r64 : Fits signed 64 x → (-2 ^ 63 ≤ x ∧ x < 2 ^ 64) := by
    cases signed <;> simp only [Fits] <;> intro h <;> simp at h ⊢ <;> omega
  have p64 : Json.parse64 fromValue x = Json.parseValue fromValue (jsonInt x) := rfl
  have narrow : Fits signed 64 x → Json.parseW fromValue ptr signed w x = Json.parseValue fromValue (jsonInt x) → _ := fun h e =>
    (⟨fun _ => e, fun n => absurd (r64 h) n⟩ :
      ((-2 ^ 63 ≤ x ∧ x < 2 ^ 64) → Json.parseW fromValue ptr signed w x = Json.parseValue fromValue (jsonInt x)) ∧
      (¬ (-2 ^ 63 ≤ x ∧ x < 2 ^ 64) → w = .w128 ∧ Json.parseW fromValue ptr signed w x = .err .toValue))
  cases w with
  | w8 =>
    have h8 : Fits signed 8 x := hx
    refine narrow (w64 (w32 (w16 h8))) ?_
    simp only [Json.parseW, Json.parse8, Json.parse16, Json.parse32, c16 (w16 h8), c32 (w32 (w16 h8)), c64 (w64 (w32 (w16 h8))), p64]
  | w16 =>
    have h16 : Fits signed 16 x := hx
    refine narrow (w64 (w32 h16)) ?_
    simp only [Json.parseW, Json.parse16, Json.parse32, c32 (w32 h16), c64 (w64 (w32 h16)), p64]
  | w32 =>
    have h32 : Fits signed 32 x := hx
    refine narrow (w64 h32) ?_
    simp only [Json.parseW, Json.parse32, c64 (w64 h32), p64]
  | w64 => exact narrow hx p64
  | size =>
    cases ptr with
    | p64 =>
      have h64 : Fits signed 64 x := hx
      exact narrow h64 (by simp only [Json.parseW, c64 h64, p64])
    | p32 =>
      have h32 : Fits signed 32 x := hx
      exact narrow (w64 h32) (by simp only [Json.parseW, Json.parse32, c32 h32, c64 (w64 h32), p64])
    | p16 =>
      have h16 : Fits signed 16 x := hx
      exact narrow (w64 (w32 h16))
        (by simp only [Json.parseW, Json.parse16, Json.parse32, c16 h16, c32 (w32 h16), c64 (w64 (w32 h16)), p64])
  | w128 =>
    constructor
    · intro h
      simp only [Json.parseW, Json.parse128, Json.toValue128]
      by_cases h0 : 0 ≤ x
      · rw [if_pos ⟨h0, h.2⟩]
        simp only [Json.fromTo, Json.parseValue, jsonInt]
        rw [if_neg (by omega)]
      · rw [if_neg (by omega), if_pos (by omega)]
        simp only [Json.fromTo, Json.parseValue, jsonInt]
        rw [if_pos (by omega)]
    · intro h
      refine ⟨rfl, ?_⟩
      simp only [Json.parseW, Json.parse128, Json.toValue128]
      rw [if_neg (by omega), if_neg (by omega)]
      rfl

/-- C48, `json`: two integer entry points, signed or not, that can carry an integer treat it alike, and `validate_*` goes with
`parse_*`. -/
theorem C48_json_agree (fromValue : Json.Value F R → Except ε V) (ptr : Ptr) (signed signed' : Bool) (w w' : Width) (x : Int)
    (hx : Fits signed (bits ptr w) x) (hx' : Fits signed' (bits ptr w') x) :
    Json.parseW fromValue ptr signed w x = Json.parseW fromValue ptr signed' w' x ∧
    Json.validateW fromValue ptr signed w x = (Json.parseW fromValue ptr signed w x).void := by
  constructor
  · obtain ⟨h1, h2⟩ := C48_json_integers fromValue ptr signed w x hx
    obtain ⟨h1', h2'⟩ := C48_json_integers fromValue ptr signed' w' x hx'
    by_cases h : -2 ^ 63 ≤ x ∧ x < 2 ^ 64
    · rw [h1 h, h1' h]
    · rw [(h2 h).2, (h2' h).2]
  · unfold Json.validateW
    cases Json.parseW fromValue ptr signed w x <;> rfl

/-- C48, `json`: booleans and floats are treated as their JSON values, a float that is not finite as `null`. -/
theorem C48_json_other (finite : F → Bool) (fromValue : Json.Value F R → Except ε V) (b : Bool) (f : F) :
    Json.parseBool fromValue b = Json.parseValue fromValue (.bool b) ∧
    (finite f = true → Json.parseF64 finite fromValue f = Json.parseValue fromValue (.number (.float f))) ∧
    (finite f = false → Json.parseF64 finite fromValue f = Json.parseValue fromValue .null) := by
  refine ⟨rfl, ?_, ?_⟩ <;> intro h <;> simp [Json.parseF64, Json.toValueF, h, Json.fromTo, Json.parseValue]

/-- A type that takes only the JSON numbers of at most 200. -/
def small : Json.Value Unit Unit → Except Unit Nat
  | .number (.pos n) => if n ≤ 200 then .ok n else .error ()
  | _ => .error ()

/-- The hypotheses can be met and the outcomes occur. -/
example : Fits true 8 100 ∧ Fits false 128 (2 ^ 100) ∧ ¬ Fits true 8 200 := by simp [Fits]
example : Json.parseW small .p64 true .w8 100 = .ok 100 ∧ Json.parseW small .p32 false .size 100 = .ok 100 ∧
    Json.parseW small .p64 true .w16 (-1) = .err (.fromValue ()) ∧ Json.parseW small .p64 true .w128 (2 ^ 64) = .err .toValue := by
  refine ⟨rfl, rfl, rfl, rfl⟩

end Verif.Props.Wrapper
