import Verif.Model.Basic

/-!
# Specification of base-N texts

The accepted language of the text validators and the RFC 4648 encoder, written independently
of the scanner and of the decoder in the model.
-/

namespace Verif.Spec.BaseN

/-- A base-N notation: symbols in order, bits per symbol, symbols per block, and the numbers of
symbols with which an incomplete last block may stop before its padding. -/
structure Notation where
  alphabet : List UInt8
  bit : Nat
  block : Nat
  tails : List Nat

def base64 : Notation where
  alphabet := ascii "ABCDEFGHIJKLMNOPQRSTUVWXYZabcdefghijklmnopqrstuvwxyz0123456789+/"
  bit := 6
  block := 4
  tails := [2, 3]

def base64Url : Notation where
  alphabet := ascii "ABCDEFGHIJKLMNOPQRSTUVWXYZabcdefghijklmnopqrstuvwxyz0123456789-_"
  bit := 6
  block := 4
  tails := [2, 3]

def base32 : Notation where
  alphabet := ascii "ABCDEFGHIJKLMNOPQRSTUVWXYZ234567"
  bit := 5
  block := 8
  tails := [2, 4, 5, 7]

/-- The byte `=`. -/
def padByte : UInt8 := 61

/-- The language of the text validators: symbols, then perhaps padding that completes the last block. -/
def Accepts (L : Notation) (pad : TriAllow) (v : List UInt8) : Prop :=
  v ≠ [] ∧ ∃ (body : List UInt8) (k : Nat),
    v = body ++ List.replicate k padByte ∧
    (∀ b ∈ body, b ∈ L.alphabet) ∧
    ((k = 0 ∧ (pad = .must → v.length % L.block = 0)) ∨
     (0 < k ∧ k < L.block ∧ pad ≠ .disallow ∧ v.length % L.block = 0 ∧ body.length % L.block ∈ L.tails))

/-- The number whose digits in base `base` are `ds`, most significant first. -/
def number (base : Nat) (ds : List Nat) : Nat := ds.foldl (fun acc x => acc * base + x) 0

/-- RFC 4648 without padding: read the bytes as one big-endian number, append zero bits up to a
whole number of symbols, and write the number in base `2 ^ bit`. -/
def encodeNopad (L : Notation) (d : List UInt8) : List UInt8 :=
  let m := (8 * d.length + L.bit - 1) / L.bit
  let n := number 256 (d.map UInt8.toNat) * 2 ^ (L.bit * m - 8 * d.length)
  (List.range m).map fun j => L.alphabet.getD (n / 2 ^ (L.bit * (m - 1 - j)) % 2 ^ L.bit) 0

/-- RFC 4648 with padding. -/
def encodePad (L : Notation) (d : List UInt8) : List UInt8 :=
  let t := encodeNopad L d
  t ++ List.replicate ((L.block - t.length % L.block) % L.block) padByte

/-- `v` is one or more padded encodings, one after the other, of the parts of `d`. -/
def PaddedParts (L : Notation) (v d : List UInt8) : Prop :=
  ∃ ds : List (List UInt8), ds ≠ [] ∧ (∀ x ∈ ds, x ≠ []) ∧ v = ds.flatMap (encodePad L) ∧ d = ds.flatten

/-- The language of the decoding validators: `v` denotes the bytes `d`. -/
def Decodes (L : Notation) (pad : TriAllow) (v d : List UInt8) : Prop :=
  match pad with
  | .must => PaddedParts L v d
  | .disallow => d ≠ [] ∧ v = encodeNopad L d
  | .allow => if v.getLast? = some padByte then PaddedParts L v d else d ≠ [] ∧ v = encodeNopad L d

/-- The well known test vectors: this is the encoder one expects. -/
example : encodePad base64 (ascii "foobar") = ascii "Zm9vYmFy" ∧ encodePad base64 (ascii "foob") = ascii "Zm9vYg==" ∧
    encodePad base32 (ascii "fooba") = ascii "MZXW6YTB" ∧ encodePad base32 (ascii "foob") = ascii "MZXW6YQ=" ∧
    encodeNopad base64Url [255, 254, 255] = ascii "__7_" := by decide

end Verif.Spec.BaseN
