import Verif.Model.Basic

/-!
# Model of the base-N validators

`base64`, `base64_url`, `base32` (text kept as it is) and `base64_decoded`,
`base64_url_decoded`, `base32_decoded` (text decoded).  The handlers repeat the same template
with another alphabet, block size and set of padding positions; the model is one function
over that triple, with one instance per handler.
-/

namespace Verif.BaseN

/-- The errors of `Base64Error`, `Base64UrlError`, `Base32Error` (first three) and of the
`*DecodedError` enums (all four): `validators/src/errors/base64.rs`, `base64_decoded.rs`, ... -/
inductive BaseError where
  | invalid
  | paddingMust
  | paddingDisallow
  | decode
  deriving DecidableEq, Repr

/-- What differs between the handlers. -/
structure Variant where
  /-- the match arm of alphabet bytes -/
  sym : UInt8 → Bool
  /-- full block size -/
  block : Nat
  /-- the mask in `length & 0b11` / `length & 0b111` -/
  mask : Nat
  /-- the arm `2 | 3` / `2 | 4 | 5 | 7` of `match p` -/
  padAt : Nat → Bool

/-- `base64/mod.rs` L53-137 and `base64_decoded/mod.rs` L56-175. -/
def base64 : Variant where
  sym e := inRange 'A' 'Z' e || inRange 'a' 'z' e || inRange '0' '9' e || e == asc '+' || e == asc '/'
  block := 4
  mask := 0b11
  padAt p := p == 2 || p == 3

/-- `base64_url/mod.rs` L54-138 and `base64_url_decoded/mod.rs`. -/
def base64Url : Variant where
  sym e := inRange 'A' 'Z' e || inRange 'a' 'z' e || inRange '0' '9' e || e == asc '-' || e == asc '_'
  block := 4
  mask := 0b11
  padAt p := p == 2 || p == 3

/-- `base32/mod.rs` L53-137 and `base32_decoded/mod.rs`. -/
def base32 : Variant where
  sym e := inRange 'A' 'Z' e || inRange '2' '7' e
  block := 8
  mask := 0b111
  padAt p := p == 2 || p == 4 || p == 5 || p == 7

/-- The closing loop: `base64/mod.rs` L118-136 with `handle_padding` L53-77.
`rest` is `last_bytes[p..]`; reading past its end is a panic. -/
def lastLoop (B : Variant) (pad : TriAllow) (lastLength : Nat) : List UInt8 → Nat → Out BaseError Unit
  | rest, p =>
    if p = lastLength then .ok ()
    else match rest with
      | [] => .panic
      | e :: rest =>
        if B.sym e then lastLoop B pad lastLength rest (p + 1)
        else if e = asc '=' then
          match pad with
          | .disallow => .err .paddingDisallow
          | _ =>
            if B.padAt p then
              if lastLength ≠ B.block then .err .invalid
              else if rest.all (· == asc '=') then .ok ()
              else .err .invalid
            else .err .invalid
        else .err .invalid

/-- `v_parse_u8_slice`: `base64/mod.rs` L86-137, `base64_url/mod.rs` L87-138, `base32/mod.rs`
L86-137; also `v_validate_u8_slice` of the decoding handlers: `base64_decoded/mod.rs` L124-175
and the same lines of the other two. -/
def check (B : Variant) (pad : TriAllow) (v : List UInt8) : Out BaseError Unit :=
  let length := v.length
  if length = 0 then .err .invalid
  else
    let l := length &&& B.mask
    let lastLength := if l = 0 then B.block else l
    if pad = .must ∧ lastLength ≠ B.block then .err .paddingMust
    else if length > B.block then
      if (v.take (length - lastLength)).all B.sym then
        lastLoop B pad lastLength (v.drop (length - lastLength)) 0
      else .err .invalid
    else lastLoop B pad lastLength v 0

/-- `parse_u8_slice`: `base64/mod.rs` L184-190 (same lines in the two others). The wrapped `String` has exactly these bytes. -/
def parseU8Slice (B : Variant) (pad : TriAllow) (v : List UInt8) : Out BaseError (List UInt8) := do
  check B pad v
  return v

/-- `parse_vec_u8`: `base64/mod.rs` L175-181. -/
def parseVecU8 (B : Variant) (pad : TriAllow) (v : List UInt8) : Out BaseError (List UInt8) := do
  check B pad v
  return v

/-- `validate_u8_slice`: `base64/mod.rs` L193-197. -/
def validateU8Slice (B : Variant) (pad : TriAllow) (v : List UInt8) : Out BaseError Unit := do
  check B pad v
  return ()

/-- The bytes of a Rust `&str`, i.e. the UTF-8 encoding of its characters. -/
def strBytes (s : List Char) : List UInt8 := s.flatMap String.utf8EncodeChar

/-- `parse_string`: `base64/mod.rs` L146-152. -/
def parseString (B : Variant) (pad : TriAllow) (s : List Char) : Out BaseError (List Char) := do
  check B pad (strBytes s)
  return s

/-- `parse_str`: `base64/mod.rs` L155-161. -/
def parseStr (B : Variant) (pad : TriAllow) (s : List Char) : Out BaseError (List Char) := do
  check B pad (strBytes s)
  return s

/-- `validate_str`: `base64/mod.rs` L164-168. -/
def validateStr (B : Variant) (pad : TriAllow) (s : List Char) : Out BaseError Unit := do
  check B pad (strBytes s)
  return ()

/-! ## Decoding (`data_encoding`, outside `/repo`) -/

/-- A `data_encoding::Encoding` as used here: symbols carry `bit` bits, blocks have `block`
symbols, and the alphabet lists the symbols in order. -/
structure Encoding where
  bit : Nat
  block : Nat
  alphabet : List UInt8

/-- `data_encoding::BASE64` / `BASE64_NOPAD` (used in `base64_decoded/mod.rs` L82-102). -/
def enc64 : Encoding where
  bit := 6
  block := 4
  alphabet := ascii "ABCDEFGHIJKLMNOPQRSTUVWXYZabcdefghijklmnopqrstuvwxyz0123456789+/"

/-- `data_encoding::BASE64URL` / `BASE64URL_NOPAD` (used in `base64_url_decoded/mod.rs`). -/
def enc64Url : Encoding where
  bit := 6
  block := 4
  alphabet := ascii "ABCDEFGHIJKLMNOPQRSTUVWXYZabcdefghijklmnopqrstuvwxyz0123456789-_"

/-- `data_encoding::BASE32` / `BASE32_NOPAD` (used in `base32_decoded/mod.rs`). -/
def enc32 : Encoding where
  bit := 5
  block := 8
  alphabet := ascii "ABCDEFGHIJKLMNOPQRSTUVWXYZ234567"

/-- The `w` low bits of `x`, most significant first. -/
def bitsOf : Nat → Nat → List Bool
  | 0, _ => []
  | w + 1, x => x.testBit w :: bitsOf w x

/-- The number written by bits, most significant first. -/
def ofBits (l : List Bool) : Nat := l.foldl (fun acc b => 2 * acc + b.toNat) 0

/-- The first `n` groups of `w` elements. -/
def groups {α : Type} (w : Nat) : Nat → List α → List (List α)
  | 0, _ => []
  | n + 1, l => l.take w :: groups w n (l.drop w)

/-- Symbol to value; `none` for a byte outside the alphabet. -/
def Encoding.value (E : Encoding) (b : UInt8) : Option Nat := E.alphabet.idxOf? b

/-- The unpadded decoder (`BASE64_NOPAD.decode`): a length whose last symbol would carry no
whole byte is an error, every byte must be a symbol, and bits after the last whole byte must
be zero. -/
def Encoding.decodeNopad (E : Encoding) (v : List UInt8) : Option (List UInt8) :=
  if E.bit * v.length % 8 < E.bit then
    match v.mapM E.value with
    | none => none
    | some vals =>
      let bits := vals.flatMap (bitsOf E.bit)
      let n := bits.length / 8
      if (bits.drop (8 * n)).all (! ·) then
        some ((groups 8 n bits).map fun g => (ofBits g).toUInt8)
      else none
  else none

/-- One block of the padded decoder (`check_pad` followed by decoding of the unpadded part). -/
def Encoding.decodeBlock (E : Encoding) (blk : List UInt8) : Option (List UInt8) :=
  let count := (blk.reverse.takeWhile (· == asc '=')).length
  let len := blk.length - count
  if len > 0 ∧ E.bit * len % 8 < E.bit then E.decodeNopad (blk.take len) else none

/-- All blocks, one after the other. -/
def Encoding.decodeBlocks (E : Encoding) : Nat → List UInt8 → Option (List UInt8)
  | 0, _ => some []
  | n + 1, v =>
    match E.decodeBlock (v.take E.block) with
    | none => none
    | some d =>
      match E.decodeBlocks n (v.drop E.block) with
      | none => none
      | some r => some (d ++ r)

/-- The padded decoder (`BASE64.decode`): whole blocks only, each decoded on its own. -/
def Encoding.decodePad (E : Encoding) (v : List UInt8) : Option (List UInt8) :=
  if v.length % E.block = 0 then E.decodeBlocks (v.length / E.block) v else none

/-- `.map_err(|_| Decode)`: `base64_decoded/mod.rs` L86-99. -/
def orDecode (r : Option (List UInt8)) : Out BaseError (List UInt8) :=
  match r with
  | some d => .ok d
  | none => .err .decode

/-- `v_parse_u8_slice` of the decoding handlers: `base64_decoded/mod.rs` L82-117,
`base64_url_decoded/mod.rs` L82-117, `base32_decoded/mod.rs` L82-117. -/
def decodedParse (E : Encoding) (pad : TriAllow) (v : List UInt8) : Out BaseError (List UInt8) :=
  match v.getLast? with
  | none => .err .invalid
  | some last =>
    match pad with
    | .allow => if last = asc '=' then orDecode (E.decodePad v) else orDecode (E.decodeNopad v)
    | .must => orDecode (E.decodePad v)
    | .disallow => orDecode (E.decodeNopad v)

/-- `v_validate_u8_slice` of the decoding handlers: `base64_decoded/mod.rs` L124-175: the same
scanner as in the text validators. -/
def decodedValidate (B : Variant) (pad : TriAllow) (v : List UInt8) : Out BaseError Unit :=
  check B pad v

end Verif.BaseN
