import Verif.Proof.BaseNBlocks

/-!
# Properties C01–C07: base-N validators

The theorems range over the three notations, the three padding options and every input.
-/

namespace Verif.Props.BaseN

open Verif.BaseN
open Verif.Spec.BaseN (Notation Accepts padByte encodeNopad encodePad PaddedParts Decodes)

/-- The three families of handlers: `base64`, `base64_url`, `base32`. -/
inductive Kind where
  | base64
  | base64Url
  | base32
  deriving DecidableEq, Repr

/-- The scanner of the handler. -/
def Kind.variant : Kind → Variant
  | base64 => BaseN.base64
  | base64Url => BaseN.base64Url
  | base32 => BaseN.base32

/-- The decoder of the `_decoded` handler. -/
def Kind.encoding : Kind → Encoding
  | base64 => enc64
  | base64Url => enc64Url
  | base32 => enc32

/-- The specification of the notation. -/
def Kind.spec : Kind → Notation
  | base64 => Spec.BaseN.base64
  | base64Url => Spec.BaseN.base64Url
  | base32 => Spec.BaseN.base32

theorem Kind.matches (K : Kind) : Matches K.variant K.spec := by
  cases K
  · exact matches64
  · exact matches64Url
  · exact matches32

theorem Kind.codec (K : Kind) : Codec K.encoding K.spec := by
  cases K
  · exact codec64
  · exact codec64Url
  · exact codec32

theorem Kind.tails (K : Kind) : Tails K.spec := by
  cases K
  · exact tails64
  · exact tails64Url
  · exact tails32

/-! ## C01 -/

/-- C01, byte entry point: exactly the texts of the specification are accepted. -/
theorem C01_parse_u8_slice_language (K : Kind) (pad : TriAllow) (v : List UInt8) :
    (parseU8Slice K.variant pad v).IsOk ↔ Accepts K.spec pad v := by
  rw [← check_ok_iff _ _ K.matches]
  unfold parseU8Slice
  cases check K.variant pad v <;> simp

/-- C01, string entry point. -/
theorem C01_parse_str_language (K : Kind) (pad : TriAllow) (s : List Char) :
    (parseStr K.variant pad s).IsOk ↔ Accepts K.spec pad (strBytes s) := by
  rw [← check_ok_iff _ _ K.matches]
  unfold parseStr
  cases check K.variant pad (strBytes s) <;> simp

/-- C01: no input makes the scanner panic. -/
theorem C01_no_panic (K : Kind) (pad : TriAllow) (v : List UInt8) : parseU8Slice K.variant pad v ≠ .panic := by
  have h := check_ne_panic _ _ K.matches pad v
  unfold parseU8Slice
  cases hc : check K.variant pad v <;> simp_all

example : (parseU8Slice Kind.base64.variant .must (ascii "QUJDRA==")).IsOk ∧
    ¬ (parseU8Slice Kind.base64.variant .disallow (ascii "QUJDRA==")).IsOk ∧
    ¬ (parseU8Slice Kind.base64.variant .allow (ascii "QUJDR===")).IsOk ∧
    (parseU8Slice Kind.base32.variant .must (ascii "MZXW6YQ=")).IsOk ∧
    (parseU8Slice Kind.base64Url.variant .allow (ascii "__7_")).IsOk := by decide

/-! ## C02 -/

theorem ascii_alphabet (K : Kind) : ∀ b ∈ K.spec.alphabet, b.toNat < 128 := by
  cases K <;> decide

/-- C02: every accepted byte is ASCII, so the accepted bytes are the UTF-8 encoding of a string. -/
theorem C02_accepted_bytes_ascii (K : Kind) (pad : TriAllow) (v w : List UInt8)
    (h : parseU8Slice K.variant pad v = .ok w ∨ parseVecU8 K.variant pad v = .ok w) :
    (∀ b ∈ w, b.toNat < 128) ∧ ∃ s : List Char, strBytes s = w := by
  have hok : check K.variant pad v = .ok () ∧ v = w := by
    unfold parseU8Slice parseVecU8 at h
    cases hc : check K.variant pad v <;> simp_all
  obtain ⟨hok, rfl⟩ := hok
  rw [check_ok_iff _ _ K.matches] at hok
  obtain ⟨-, body, k, hv, hb, -⟩ := hok
  have hasc : ∀ b ∈ v, b.toNat < 128 := by
    intro b hbv
    rw [hv, List.mem_append] at hbv
    rcases hbv with h | h
    · exact ascii_alphabet K b (hb b h)
    · rw [List.eq_of_mem_replicate h]; decide
  refine ⟨hasc, v.map fun b => Char.ofNat b.toNat, ?_⟩
  clear hv hb h
  induction v with
  | nil => rfl
  | cons b v ih =>
    have ih' := ih (fun x hx => hasc x (by simp [hx]))
    unfold strBytes at ih' ⊢
    rw [List.map_cons, List.flatMap_cons, ih']
    have hb : b.toNat < 128 := hasc b (by simp)
    have hone : ∀ b : UInt8, b.toNat < 128 → String.utf8EncodeChar (Char.ofNat b.toNat) = [b] :=
      forall_uint8 (by decide +kernel)
    rw [hone b hb]; rfl

/-- The hypothesis is satisfiable: -/
example : parseVecU8 Kind.base64.variant .allow (ascii "QUJD") = .ok (ascii "QUJD") := by decide

/-! ## C03 -/

/-- C03: all entry points run the same check and keep the input. -/
theorem C03_entry_points_agree (K : Kind) (pad : TriAllow) (s : List Char) (v : List UInt8) (hv : v = strBytes s) :
    (parseString K.variant pad s = parseStr K.variant pad s) ∧
    (parseVecU8 K.variant pad v = parseU8Slice K.variant pad v) ∧
    ((parseStr K.variant pad s).map strBytes = parseU8Slice K.variant pad v) ∧
    (validateStr K.variant pad s = (parseStr K.variant pad s).void) ∧
    (validateU8Slice K.variant pad v = (parseU8Slice K.variant pad v).void) ∧
    (∀ t, parseStr K.variant pad s = .ok t → t = s) ∧
    (∀ w, parseU8Slice K.variant pad v = .ok w → w = v) := by
  subst hv
  unfold parseString parseStr parseVecU8 parseU8Slice validateStr validateU8Slice
  cases check K.variant pad (strBytes s) <;> simp [Out.void]

example : parseStr Kind.base32.variant .allow "MZXW6YQ=".toList = .ok "MZXW6YQ=".toList ∧
    validateStr Kind.base32.variant .disallow "MZXW6YQ=".toList = .err .paddingDisallow := by decide

/-! ## C04 -/

/-- C04: `PaddingMust` exactly for a non-empty text of incomplete blocks under `padding(Must)`. -/
theorem C04_padding_must (K : Kind) (pad : TriAllow) (v : List UInt8) :
    parseU8Slice K.variant pad v = .err .paddingMust ↔ pad = .must ∧ v ≠ [] ∧ v.length % K.spec.block ≠ 0 := by
  by_cases hv : v = []
  · subst hv; simp [parseU8Slice, check]
  have hc := check_eq _ _ K.matches pad v hv
  unfold parseU8Slice
  constructor
  · intro h
    have h' : check K.variant pad v = .err .paddingMust := by
      clear hc
      cases hx : check K.variant pad v <;> simp_all
    rw [hc] at h'
    split at h'
    · rename_i hm; exact ⟨hm.1, hv, hm.2⟩
    · split at h'
      · rcases lastLoop_err _ _ _ _ _ _ h' with h | ⟨h, _⟩ <;> cases h
      · cases h'
  · rintro ⟨hp, _, hm⟩
    rw [hc, if_pos ⟨hp, hm⟩]; rfl

/-- C04: `PaddingDisallow` only under `padding(Disallow)` and for a text with `=`. -/
theorem C04_padding_disallow (K : Kind) (pad : TriAllow) (v : List UInt8)
    (h : parseU8Slice K.variant pad v = .err .paddingDisallow) : pad = .disallow ∧ padByte ∈ v := by
  by_cases hv : v = []
  · subst hv; simp [parseU8Slice, check] at h
  have hc := check_eq _ _ K.matches pad v hv
  have h' : check K.variant pad v = .err .paddingDisallow := by
    clear hc
    unfold parseU8Slice at h
    cases hx : check K.variant pad v <;> simp_all
  rw [hc] at h'
  split at h'
  · cases h'
  · split at h'
    · rcases lastLoop_err _ _ _ _ _ _ h' with h | ⟨_, h1, h2⟩
      · cases h
      · exact ⟨h1, List.mem_of_mem_drop h2⟩
    · cases h'

/-- C04: a text that would be accepted if padding were allowed is refused under `padding(Disallow)` with
`PaddingDisallow`, not with another error. -/
theorem C04_padding_disallow_complete (K : Kind) (v : List UInt8) (h : Accepts K.spec .allow v) (hp : padByte ∈ v) :
    parseU8Slice K.variant .disallow v = .err .paddingDisallow := by
  have hne := h.1
  have hall := (check_ok_iff _ _ K.matches .allow v).mpr h
  rw [check_eq _ _ K.matches _ v hne] at hall
  have hnot : ¬ Accepts K.spec .disallow v := by
    rintro ⟨_, body, k, hv, hb, hk⟩
    rcases hk with ⟨rfl, _⟩ | ⟨_, _, hc, _⟩
    · simp at hv; subst hv; exact K.matches.noPad (hb _ hp)
    · exact hc rfl
  rw [← check_ok_iff _ _ K.matches] at hnot
  have hpre : (v.take (v.length - lastLen K.spec v)).all K.variant.sym = true := by
    simp only [reduceCtorEq, false_and, if_false] at hall
    split at hall
    · assumption
    · cases hall
  unfold parseU8Slice
  rw [check_eq _ _ K.matches _ v hne] at hnot ⊢
  simp only [reduceCtorEq, false_and, if_false, hpre, if_true] at hnot hall ⊢
  generalize v.drop (v.length - lastLen K.spec v) = rest at *
  generalize lastLen K.spec v = n at *
  generalize 0 = p at *
  -- follow both runs of the closing loop
  have key : ∀ (rest : List UInt8) (p : Nat), lastLoop K.variant .allow n rest p = .ok () →
      lastLoop K.variant .disallow n rest p ≠ .ok () → lastLoop K.variant .disallow n rest p = .err .paddingDisallow := by
    intro rest
    induction rest with
    | nil => intro p h1 h2; unfold lastLoop at h1 h2 ⊢; split <;> simp_all
    | cons e rest ih =>
      intro p h1 h2
      unfold lastLoop at h1 h2 ⊢
      by_cases hpn : p = n
      · simp [hpn] at h2
      · simp only [hpn, if_false] at h1 h2 ⊢
        by_cases hs : K.variant.sym e = true
        · simp only [hs, if_true] at h1 h2 ⊢; exact ih _ h1 h2
        · by_cases he : e = asc '='
          · simp [hs, he]
            intro hs'
            exact absurd (he ▸ hs') hs
          · simp [hs, he] at h1
  rw [key rest p hall hnot]; rfl

/-- C04: an empty text is `Invalid`. -/
theorem C04_empty (K : Kind) (pad : TriAllow) : parseU8Slice K.variant pad [] = .err .invalid := by
  simp [parseU8Slice, check]

example : parseU8Slice Kind.base64.variant .must (ascii "QQ") = .err .paddingMust ∧
    parseU8Slice Kind.base64.variant .disallow (ascii "QQ==") = .err .paddingDisallow ∧
    parseU8Slice Kind.base64.variant .allow (ascii "Q===") = .err .invalid := by decide

/-! ## C05 -/

/-- C05: parsing the encoding of non-empty bytes gives back these bytes. -/
theorem C05_decode_encode (K : Kind) (d : List UInt8) (hd : d ≠ []) :
    decodedParse K.encoding .must (encodePad K.spec d) = .ok d ∧
    decodedParse K.encoding .allow (encodePad K.spec d) = .ok d ∧
    decodedParse K.encoding .disallow (encodeNopad K.spec d) = .ok d ∧
    decodedParse K.encoding .allow (encodeNopad K.spec d) = .ok d := by
  have h1 := decodePad_encodePad K.codec d
  have h2 := decodeNopad_encodeNopad K.codec d
  have hne := (encodeNopad_ne_nil K.codec d).mpr hd
  have hnp := padByte_notMem_encodeNopad K.codec d
  have hneP : encodePad K.spec d ≠ [] := by unfold encodePad; simp [hne]
  have hlast : (encodeNopad K.spec d).getLast hne ≠ padByte := fun h => hnp (h ▸ List.getLast_mem hne)
  unfold decodedParse
  rw [List.getLast?_eq_some_getLast hneP, List.getLast?_eq_some_getLast hne]
  simp only [h1, h2, orDecode, asc_eq]
  refine ⟨trivial, ?_, trivial, ?_⟩
  · split
    · rfl
    · -- no padding was needed: both decoders agree
      rename_i hl
      have hk : (K.spec.block - (encodeNopad K.spec d).length % K.spec.block) % K.spec.block = 0 := by
        refine Decidable.byContradiction fun hk => hl ?_
        obtain ⟨j, hj⟩ := Nat.exists_eq_succ_of_ne_zero hk
        unfold encodePad
        simp only [hj, List.replicate_succ']
        rw [List.getLast_append_of_ne_nil _ (by simp)]
        rw [List.getLast_append_of_ne_nil _ (by simp)]
        rfl
      have : encodePad K.spec d = encodeNopad K.spec d := by
        unfold encodePad; simp [hk]
      rw [this, h2]
  · rw [if_neg hlast]

example : encodePad Kind.base32.spec (ascii "foob") = ascii "MZXW6YQ=" ∧
    decodedParse Kind.base32.encoding .must (ascii "MZXW6YQ=") = .ok (ascii "foob") := by decide +kernel

/-! ## C06 -/

/-- All `=` of the text stand at its end. -/
def PaddingAtEnd (v : List UInt8) : Prop := ∀ a b, v = a ++ padByte :: b → ∀ x ∈ b, x = padByte

/-- C06 for unpadded texts, exact: the accepted texts are the encodings of non-empty bytes, and each decodes to what it encodes. -/
theorem C06_unpadded_canonical (K : Kind) (v d : List UInt8) :
    decodedParse K.encoding .disallow v = .ok d ↔ d ≠ [] ∧ v = encodeNopad K.spec d := by
  constructor
  · intro h
    unfold decodedParse at h
    cases hl : v.getLast? with
    | none => simp [hl] at h
    | some l =>
      simp only [hl] at h
      cases hd : K.encoding.decodeNopad v with
      | none => simp [hd, orDecode] at h
      | some d' =>
        simp [hd, orDecode] at h
        subst h
        have he := encodeNopad_of_decodeNopad K.codec v _ hd
        refine ⟨?_, he.symm⟩
        rw [← encodeNopad_ne_nil K.codec, he]
        rintro rfl
        simp at hl
  · rintro ⟨hd, rfl⟩
    exact (C05_decode_encode K d hd).2.2.1

/-- C06, the part that holds for every option: an accepted text whose `=` all stand at its end is the
encoding of the decoded bytes. Missing: padded texts with `=` inside, see `C06_padded_not_canonical`. -/
theorem C06_canonical_partial (K : Kind) (pad : TriAllow) (v d : List UInt8) (hin : PaddingAtEnd v)
    (h : decodedParse K.encoding pad v = .ok d) :
    d ≠ [] ∧ v = if pad = .must ∨ (pad = .allow ∧ v.getLast? = some padByte) then encodePad K.spec d else encodeNopad K.spec d := by
  have hdis : decodedParse K.encoding .disallow v = .ok d → d ≠ [] ∧ v = encodeNopad K.spec d := (C06_unpadded_canonical K v d).mp
  have hpad : decodedParse K.encoding .must v = .ok d → d ≠ [] ∧ v = encodePad K.spec d := by
    intro h
    unfold decodedParse at h
    cases hl : v.getLast? with
    | none => simp [hl] at h
    | some l =>
      simp only [hl] at h
      cases hd : K.encoding.decodePad v with
      | none => simp [hd, orDecode] at h
      | some d' =>
        simp [hd, orDecode] at h
        subst h
        have he := encodePad_of_decodePad K.codec v _ hd hin
        refine ⟨?_, he.symm⟩
        rw [← encodeNopad_ne_nil K.codec]
        intro h0
        rw [← he] at hl
        unfold encodePad at hl
        simp [h0] at hl
  cases pad with
  | must => simpa using hpad h
  | disallow => simpa using hdis h
  | allow =>
    by_cases hl : v.getLast? = some padByte
    · rw [if_pos (.inr ⟨rfl, hl⟩)]
      apply hpad
      unfold decodedParse at h ⊢
      simpa [hl, asc_eq] using h
    · rw [if_neg (by simp [hl])]
      apply hdis
      unfold decodedParse at h ⊢
      cases hl' : v.getLast? with
      | none => simp [hl'] at h
      | some l =>
        have : l ≠ padByte := by rintro rfl; exact hl hl'
        simpa [hl', asc_eq, this] using h

/-- What the code does instead, for every text: a padded text may consist of several padded encodings, one after the other; their
bytes are concatenated. -/
theorem C06_language (K : Kind) (pad : TriAllow) (v d : List UInt8) : decodedParse K.encoding pad v = .ok d ↔ Decodes K.spec pad v d := by
  have hpad : decodedParse K.encoding .must v = .ok d ↔ PaddedParts K.spec v d := by
    cases hl : v.getLast? with
    | none =>
      have hv : v = [] := by simpa using hl
      subst hv
      constructor
      · intro h; simp [decodedParse] at h
      · rintro ⟨ds, h0, hne, hv, -⟩
        obtain ⟨x, ds', rfl⟩ := List.exists_cons_of_ne_nil h0
        have hx := hne x (by simp)
        rw [← encodeNopad_ne_nil K.codec] at hx
        rw [List.flatMap_cons] at hv
        have := (List.append_eq_nil_iff.1 hv.symm).1
        unfold encodePad at this
        exact absurd (List.append_eq_nil_iff.1 this).1 hx
    | some l =>
      have e : decodedParse K.encoding .must v = .ok d ↔ K.encoding.decodePad v = some d := by
        unfold decodedParse
        simp only [hl, orDecode]
        cases K.encoding.decodePad v <;> simp
      rw [e, decodePad_iff K.codec]
      constructor
      · rintro ⟨ds, hne, hv, hd⟩
        refine ⟨ds, ?_, hne, hv, hd⟩
        rintro rfl
        rw [hv] at hl
        simp at hl
      · rintro ⟨ds, -, hne, hv, hd⟩
        exact ⟨ds, hne, hv, hd⟩
  cases pad with
  | must => exact hpad
  | disallow => exact C06_unpadded_canonical K v d
  | allow =>
    simp only [Decodes]
    split
    · rename_i hl
      rw [← hpad]
      unfold decodedParse
      simp [hl, asc_eq]
    · rename_i hl
      rw [← C06_unpadded_canonical K v d]
      unfold decodedParse
      cases hl' : v.getLast? with
      | none => simp
      | some l =>
        have : l ≠ padByte := by rintro rfl; exact hl hl'
        simp [asc_eq, this]

/-- No text makes the decoding validators panic, and the only errors are `Invalid`, for the empty text, and `Decode`. -/
theorem C06_errors (K : Kind) (pad : TriAllow) (v : List UInt8) :
    decodedParse K.encoding pad v ≠ .panic ∧ (decodedParse K.encoding pad v = .err .invalid ↔ v = []) ∧
    (decodedParse K.encoding pad v = .err .decode ↔ v ≠ [] ∧ ∀ d, ¬ Decodes K.spec pad v d) := by
  have key : (v = [] ∧ decodedParse K.encoding pad v = .err .invalid) ∨
      v ≠ [] ∧ ((∃ d, decodedParse K.encoding pad v = .ok d) ∨ decodedParse K.encoding pad v = .err .decode) := by
    unfold decodedParse
    cases hl : v.getLast? with
    | none => exact .inl ⟨by simpa using hl, rfl⟩
    | some l =>
      refine .inr ⟨by rintro rfl; simp at hl, ?_⟩
      have ho : ∀ r : Option (List UInt8), (∃ d, orDecode r = .ok d) ∨ orDecode r = .err .decode := by
        intro r; cases r <;> simp [orDecode]
      cases pad <;> simp only
      · split <;> exact ho _
      · exact ho _
      · exact ho _
  simp only [← C06_language]
  rcases key with ⟨rfl, h⟩ | ⟨h0, ⟨d, h⟩ | h⟩
  · simp [h]
  · simp [h, h0]
  · simp [h, h0]

example : Decodes Kind.base64.spec .must (ascii "QQ==QQ==") (ascii "AA") :=
  ⟨[ascii "A", ascii "A"], by decide, by decide, by decide +kernel, by decide⟩

/-- C06, injectivity of the part that holds: two accepted texts of the same form with the same bytes are equal. -/
theorem C06_injective_partial (K : Kind) (pad : TriAllow) (v w d : List UInt8) (hv : PaddingAtEnd v) (hw : PaddingAtEnd w)
    (hform : v.getLast? = some padByte ↔ w.getLast? = some padByte)
    (h1 : decodedParse K.encoding pad v = .ok d) (h2 : decodedParse K.encoding pad w = .ok d) : v = w := by
  have e1 := (C06_canonical_partial K pad v d hv h1).2
  have e2 := (C06_canonical_partial K pad w d hw h2).2
  rw [e1, e2]
  simp only [hform]

/-- C06 fails with padding: the same bytes have two accepted texts. -/
theorem C06_padded_not_canonical :
    decodedParse Kind.base64.encoding .must (ascii "QQ==QQ==") = .ok (ascii "AA") ∧
    decodedParse Kind.base64.encoding .must (ascii "QUE=") = .ok (ascii "AA") ∧
    ascii "QQ==QQ==" ≠ ascii "QUE=" ∧ encodePad Kind.base64.spec (ascii "AA") = ascii "QUE=" := by decide +kernel

/-! ## C07 -/

/-- C07 fails in both directions: `validate` accepts what `parse` refuses, and conversely. -/
theorem C07_disagreement :
    (decodedValidate Kind.base64.variant .allow (ascii "A") = .ok () ∧
      decodedParse Kind.base64.encoding .allow (ascii "A") = .err .decode) ∧
    (decodedValidate Kind.base64.variant .must (ascii "AB==") = .ok () ∧
      decodedParse Kind.base64.encoding .must (ascii "AB==") = .err .decode) ∧
    (decodedParse Kind.base64.encoding .must (ascii "QQ==QQ==") = .ok (ascii "AA") ∧
      decodedValidate Kind.base64.variant .must (ascii "QQ==QQ==") = .err .invalid) := by decide +kernel

/-- C07, one direction, for texts whose `=` all stand at the end: what `parse` accepts, `validate` accepts.
Missing: the converse (false) and texts with `=` inside (false), see `C07_disagreement`. -/
theorem C07_parse_implies_validate_partial (K : Kind) (pad : TriAllow) (v d : List UInt8) (hin : PaddingAtEnd v)
    (h : decodedParse K.encoding pad v = .ok d) : decodedValidate K.variant pad v = .ok () := by
  obtain ⟨hd, hv⟩ := C06_canonical_partial K pad v d hin h
  unfold decodedValidate
  rw [check_ok_iff _ _ K.matches]
  split at hv
  · rename_i hc
    rw [hv]
    refine accepts_encodePad K.codec K.tails pad ?_ d hd
    rintro rfl; simp at hc
  · rename_i hc
    rw [hv]
    refine accepts_encodeNopad K.codec K.tails pad ?_ d hd
    rintro rfl; simp at hc

/-- C07, the other direction made exact: what `validate` accepts and `parse` refuses is refused with `Decode`, and is
not the encoding of any bytes. -/
theorem C07_validate_without_parse_partial (K : Kind) (pad : TriAllow) (v : List UInt8) (e : BaseError)
    (hval : decodedValidate K.variant pad v = .ok ()) (hpar : decodedParse K.encoding pad v = .err e) :
    e = .decode ∧ ∀ d, v ≠ encodePad K.spec d ∧ v ≠ encodeNopad K.spec d := by
  unfold decodedValidate at hval
  rw [check_ok_iff _ _ K.matches] at hval
  have hne := hval.1
  refine ⟨?_, ?_⟩
  · unfold decodedParse at hpar
    rw [List.getLast?_eq_some_getLast hne] at hpar
    simp only [orDecode] at hpar
    cases pad <;> simp only at hpar <;> (repeat' split at hpar) <;> simp_all
  · intro d
    by_cases hd : d = []
    · subst hd
      have h0 : encodeNopad K.spec [] = [] := by
        have := encodeNopad_ne_nil K.codec ([] : List UInt8)
        simpa using this
      have h1 : encodePad K.spec [] = [] := by unfold encodePad; simp [h0]
      exact ⟨by rw [h1]; exact hne, by rw [h0]; exact hne⟩
    · obtain ⟨c1, c2, c3, c4⟩ := C05_decode_encode K d hd
      obtain ⟨_, body, k, hv, hb, hk⟩ := hval
      have hpadmod := (padCount K.codec.pos (encodeNopad K.spec d).length).2
      constructor
      · rintro rfl
        cases pad with
        | must => rw [c1] at hpar; cases hpar
        | allow => rw [c2] at hpar; cases hpar
        | disallow =>
          -- accepted without padding: the padded form equals the unpadded one
          rcases hk with ⟨rfl, _⟩ | ⟨_, _, hc, _⟩
          · have hz : (K.spec.block - (encodeNopad K.spec d).length % K.spec.block) % K.spec.block = 0 := by
              refine Decidable.byContradiction fun hz => ?_
              have hmem : padByte ∈ encodePad K.spec d := by
                unfold encodePad
                simp [hz]
              rw [hv] at hmem
              simp at hmem
              exact K.matches.noPad (hb _ hmem)
            have : encodePad K.spec d = encodeNopad K.spec d := by unfold encodePad; simp [hz]
            rw [this, c3] at hpar; cases hpar
          · exact hc rfl
      · rintro rfl
        cases pad with
        | disallow => rw [c3] at hpar; cases hpar
        | allow => rw [c4] at hpar; cases hpar
        | must =>
          have hl : (encodeNopad K.spec d).length % K.spec.block = 0 := by
            rcases hk with ⟨_, h⟩ | ⟨_, _, _, h, _⟩
            · exact h rfl
            · exact h
          have : encodePad K.spec d = encodeNopad K.spec d := by unfold encodePad; simp [hl]
          rw [← this, c1] at hpar; cases hpar

/-- The `=` of a text that the text validators accept all stand at its end. -/
theorem paddingAtEnd_of_accepts (K : Kind) (pad : TriAllow) (v : List UInt8) (h : Accepts K.spec pad v) : PaddingAtEnd v := by
  obtain ⟨_, body, k, rfl, hb, _⟩ := h
  intro a b hv x hx
  rcases List.append_eq_append_iff.1 hv with ⟨c, rfl, hc⟩ | ⟨c, rfl, hc⟩
  · have : x ∈ List.replicate k padByte := by rw [hc]; simp [hx]
    exact (List.mem_replicate.1 this).2
  · cases c with
    | nil =>
      have : x ∈ List.replicate k padByte := by rw [← List.nil_append (List.replicate k padByte), ← hc]; simp [hx]
      exact (List.mem_replicate.1 this).2
    | cons y c =>
      obtain ⟨rfl, _⟩ := List.cons.inj hc
      exact absurd (hb padByte (by simp)) K.matches.noPad

/-- C07, exactly where both accept: the texts that are the encoding of some bytes in a form that the option permits. `parse` alone
accepts several padded encodings in a row (`C06_language`), `validate` alone any symbols in the right number (`C01`). -/
theorem C07_both_partial (K : Kind) (pad : TriAllow) (v d : List UInt8) :
    decodedParse K.encoding pad v = .ok d ∧ decodedValidate K.variant pad v = .ok () ↔
      d ≠ [] ∧ (pad ≠ .disallow ∧ v = encodePad K.spec d ∨ pad ≠ .must ∧ v = encodeNopad K.spec d) := by
  constructor
  · rintro ⟨hp, hv⟩
    unfold decodedValidate at hv
    rw [check_ok_iff _ _ K.matches] at hv
    obtain ⟨hd, he⟩ := C06_canonical_partial K pad v d (paddingAtEnd_of_accepts K pad v hv) hp
    refine ⟨hd, ?_⟩
    split at he
    · rename_i hc
      exact .inl ⟨by rintro rfl; simp at hc, he⟩
    · rename_i hc
      exact .inr ⟨by rintro rfl; simp at hc, he⟩
  · rintro ⟨hd, h⟩
    obtain ⟨c1, c2, c3, c4⟩ := C05_decode_encode K d hd
    unfold decodedValidate
    rw [check_ok_iff _ _ K.matches]
    rcases h with ⟨hp, rfl⟩ | ⟨hp, rfl⟩
    · refine ⟨?_, accepts_encodePad K.codec K.tails pad hp d hd⟩
      cases pad
      · exact c2
      · exact c1
      · exact absurd rfl hp
    · refine ⟨?_, accepts_encodeNopad K.codec K.tails pad hp d hd⟩
      cases pad
      · exact c4
      · exact absurd rfl hp
      · exact c3

/-- A text that satisfies the hypotheses of the partial theorems. -/
example : PaddingAtEnd (ascii "QUE=") ∧ decodedParse Kind.base64.encoding .allow (ascii "QUE=") = .ok (ascii "AA") := by
  refine ⟨?_, by decide +kernel⟩
  intro a b h x hx
  rcases a with _ | ⟨_, _ | ⟨_, _ | ⟨_, _ | ⟨_, a⟩⟩⟩⟩ <;> simp [ascii, asc, padByte] at h
  · rw [h.2.2.2] at hx; simp at hx

example : decodedValidate Kind.base64.variant .allow (ascii "AB") = .ok () ∧
    decodedParse Kind.base64.encoding .allow (ascii "AB") = .err .decode := by decide +kernel

end Verif.Props.BaseN
