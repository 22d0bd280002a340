import Verif.Model.Base

/-!
# CBC mode and PKCS#7 padding, as in the standards

Independent of the code: the textbook definition of cipher block chaining over
an arbitrary block cipher (16-byte blocks) and of PKCS#7 padding.
-/

namespace Verif.Spec

open Verif

/-- Bytewise exclusive or. -/
def xorBytes (a b : Bytes) : Bytes := List.zipWith (· ^^^ ·) a b

/-- CBC encryption of the first `n` blocks of a message: each ciphertext block is
the encryption of the plaintext block xored with the previous ciphertext block.
Returns the ciphertext and the last chaining value. -/
def cbcEncBlocks (E : Bytes → Bytes) : Nat → Bytes → Bytes → Bytes × Bytes
  | 0, iv, _ => ([], iv)
  | n + 1, iv, m =>
    let c := E (xorBytes (m.take 16) iv)
    let r := cbcEncBlocks E n c (m.drop 16)
    (c ++ r.1, r.2)

/-- CBC decryption of the first `n` blocks. -/
def cbcDecBlocks (D : Bytes → Bytes) : Nat → Bytes → Bytes → Bytes × Bytes
  | 0, iv, _ => ([], iv)
  | n + 1, iv, m =>
    let p := xorBytes (D (m.take 16)) iv
    let r := cbcDecBlocks D n (m.take 16) (m.drop 16)
    (p ++ r.1, r.2)

/-- CBC encryption of all whole blocks of a message. -/
def cbcEnc (E : Bytes → Bytes) (iv m : Bytes) : Bytes × Bytes :=
  cbcEncBlocks E (m.length / 16) iv m

/-- CBC decryption of all whole blocks of a message. -/
def cbcDec (D : Bytes → Bytes) (iv m : Bytes) : Bytes × Bytes :=
  cbcDecBlocks D (m.length / 16) iv m

/-- PKCS#7 padding to a multiple of 16: `k` bytes of value `k`, `1 ≤ k ≤ 16`. -/
def pkcs7Pad (m : Bytes) : Bytes :=
  m ++ List.replicate (16 - m.length % 16) (UInt8.ofNat (16 - m.length % 16))

/-- A byte string is the PKCS#7 padding of `m`. -/
def IsPkcs7 (padded : Bytes) : Prop := ∃ m, padded = pkcs7Pad m

/-- A text without as many bytes at its end as its last byte says, if that is at most 16. -/
def stripped (p : Bytes) : Bytes :=
  let k := (p.getD (p.length - 1) 0).toNat
  p.take (p.length - if k ≤ 16 then k else 0)

/-- A block cipher on 16-byte blocks: decryption inverts encryption.  For AES this
is the only thing the theorems need. -/
structure BlockCipher (E D : Bytes → Bytes) : Prop where
  len_enc : ∀ b, b.length = 16 → (E b).length = 16
  len_dec : ∀ b, b.length = 16 → (D b).length = 16
  dec_enc : ∀ b, b.length = 16 → D (E b) = b

end Verif.Spec
