import Verif.Spec.Cbc
import Verif.Model.Object

/-!
# External functions

The functions of wolfCrypt the library calls, as parameters of the model.  What a
theorem assumes about them is a hypothesis of that theorem; the shapes of the
functions below are the part of wolfCrypt's interface the code relies on.
-/

namespace Verif

/-- AES block encryption and decryption per key (wolfCrypt's key schedule and block
function, `wc_AesSetKey`, `wc_AesEncrypt`, `wc_AesDecrypt`). -/
structure Aes where
  enc : Bytes → Bytes → Bytes
  dec : Bytes → Bytes → Bytes

/-- What the theorems assume of AES: for every key of a valid size it is a block
cipher. -/
def Aes.Lawful (a : Aes) : Prop :=
  ∀ k : Bytes, k.length = 16 ∨ k.length = 24 ∨ k.length = 32 → Spec.BlockCipher (a.enc k) (a.dec k)

/-- `wc_AesGcmSetKey`+`wc_AesGcmEncrypt` (key, iv, aad pointer, aad size, plaintext,
tag size): `none` when wolfCrypt refuses, else ciphertext and tag; and the same for
decryption (ciphertext, tag). The aad pointer and its size are separate because the
code frees the pointer but keeps the size (src/internal.c:8079-8082). -/
structure Gcm where
  enc : Bytes → Bytes → Option Bytes → Nat → Bytes → Nat → Option (Bytes × Bytes)
  dec : Bytes → Bytes → Option Bytes → Nat → Bytes → Bytes → Option Bytes

/-- What the theorems assume of AES-GCM: the ciphertext is as long as the plaintext,
the tag has the requested size, and decryption with the same parameters gives the
plaintext back. -/
def Gcm.Lawful (g : Gcm) : Prop :=
  ∀ key iv aad aadSz pt ct tag n, n ≤ 16 → g.enc key iv aad aadSz pt n = some (ct, tag) →
    ct.length = pt.length ∧ tag.length = n ∧ g.dec key iv aad aadSz ct tag = some pt

/-- HMAC of a message under a key (`wc_HmacSetKey`, `wc_HmacUpdate`,
`wc_HmacFinal`); `size` is `wc_HmacSizeByType`; `keyOk` says whether
`wc_HmacSetKey` accepts the key. -/
structure Mac where
  mac : HmacAlg → Bytes → Bytes → Bytes
  size : HmacAlg → Nat
  keyOk : HmacAlg → Bytes → Bool

/-- The digest has the advertised size, at most `WC_MAX_DIGEST_SIZE` (64). -/
def Mac.Lawful (m : Mac) : Prop :=
  ∀ a k d, (m.mac a k d).length = m.size a ∧ m.size a ≤ 64

/-- Hash functions of RSA-OAEP and RSA-PSS (`CKM_SHA1` … `CKM_SHA512`,
src/internal.c:4410-4437) and mask generation functions `CKG_MGF1_*`
(4447-4474). -/
inductive HashAlg where
  | sha1 | sha224 | sha256 | sha384 | sha512
  deriving DecidableEq, Repr

/-- The four directions of `wc_RsaFunction` and `wc_RsaDirect`. -/
inductive RsaOp where
  | publicEncrypt | publicDecrypt | privateEncrypt | privateDecrypt
  deriving DecidableEq, Repr

/-- Result of `wc_RsaPSS_Verify_ex`: the recovered encoded message, `BAD_PADDING_E`,
or another error. -/
inductive PssRes where
  | msg (m : Bytes) | badPadding | error
  deriving DecidableEq, Repr

/-- wolfCrypt's RSA. The arguments called `rnd` stand for the random bytes drawn in
the call. `none` is a negative return value. -/
structure Rsa where
  /-- `wc_RsaFunction`, `wc_RsaDirect` -/
  raw : RsaOp → RsaKey → Bytes → Nat → Option Bytes
  /-- `wc_RsaPublicEncrypt_ex` / `wc_RsaPrivateDecrypt_ex` with PKCS#1 v1.5 padding -/
  encPkcs : RsaKey → Bytes → Nat → Option Bytes
  decPkcs : RsaKey → Bytes → Option Bytes
  /-- the same with OAEP padding: hash, mgf, label pointer, label size -/
  encOaep : RsaKey → HashAlg → HashAlg → Option Bytes → Nat → Bytes → Nat → Option Bytes
  decOaep : RsaKey → HashAlg → HashAlg → Option Bytes → Nat → Bytes → Option Bytes
  /-- `wc_RsaSSL_Sign`, `wc_RsaSSL_Verify` -/
  signPkcs : RsaKey → Bytes → Nat → Option Bytes
  verifyPkcs : RsaKey → Bytes → Option Bytes
  /-- `wc_RsaPSS_Sign_ex`, `wc_RsaPSS_Verify_ex` (hash, mgf, salt length) -/
  signPss : RsaKey → HashAlg → HashAlg → Int → Bytes → Nat → Option Bytes
  verifyPss : RsaKey → HashAlg → HashAlg → Int → Bytes → PssRes
  /-- `wc_RsaPSS_CheckPadding_ex` (digest, encoded message): `.msg` means 0 -/
  checkPss : HashAlg → Int → Bytes → Option Bytes → PssRes

/-- Sizes of RSA results: encryption and signing give as many bytes as the modulus
has, decryption and recovery at most that many. -/
structure Rsa.Lawful (r : Rsa) : Prop where
  raw_len : ∀ op k d rnd o, r.raw op k d rnd = some o → o.length = k.keyLen
  encPkcs_len : ∀ k d rnd o, r.encPkcs k d rnd = some o → o.length = k.keyLen
  decPkcs_len : ∀ k d o, r.decPkcs k d = some o → o.length ≤ k.keyLen
  encOaep_len : ∀ k h m l n d rnd o, r.encOaep k h m l n d rnd = some o → o.length = k.keyLen
  decOaep_len : ∀ k h m l n d o, r.decOaep k h m l n d = some o → o.length ≤ k.keyLen
  signPkcs_len : ∀ k d rnd o, r.signPkcs k d rnd = some o → o.length = k.keyLen
  signPss_len : ∀ k h m n d rnd o, r.signPss k h m n d rnd = some o → o.length = k.keyLen

/-- wolfCrypt's ECDSA (`wc_ecc_sign_hash`, `wc_ecc_verify_hash`): signatures are DER
encoded. -/
structure Ecdsa where
  sign : EcKey → Bytes → Nat → Option Bytes
  verify : EcKey → Bytes → Bytes → Option Bool

/-- All external cryptography used by the operations of a session. -/
structure Crypto where
  aes : Aes
  gcm : Gcm
  mac : Mac
  rsa : Rsa
  ecdsa : Ecdsa

end Verif
