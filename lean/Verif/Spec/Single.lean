import Verif.Spec.Isolated
import Verif.Model.Op

/-!
# What a message is encrypted and decrypted to
-/

namespace Verif

/-- The ciphertext of `d` for the key `o`, with the mechanism and the parameter of the Init, in terms of what wolfCrypt
computes (`rnd`: the random bytes of the padding).  AES-GCM: the ciphertext followed by the tag. -/
def enciphered (x : Crypto) (o : Obj) (m : Mech) (p : MechParam) (d : Bytes) (rnd : Nat) : Option Bytes :=
  match m, p with
  | .rsaX509, _ => x.rsa.raw .publicEncrypt o.rsa d rnd
  | .rsaPkcs, _ => x.rsa.encPkcs o.rsa d rnd
  | .rsaOaep, .oaep (some hs) (some mgf) _ label => x.rsa.encOaep o.rsa hs mgf label (label.getD []).length d rnd
  | .aesGcm, .gcm iv aad t => (x.gcm.enc o.symm iv aad (aad.getD []).length d (t / 8)).map fun r => r.1 ++ r.2
  | _, _ => none

/-- The plaintext of `d`; AES-GCM: only if the tag at the end of `d` is right. -/
def deciphered (x : Crypto) (o : Obj) (m : Mech) (p : MechParam) (d : Bytes) (rnd : Nat) : Option Bytes :=
  match m, p with
  | .rsaX509, _ => x.rsa.raw .privateDecrypt o.rsa d rnd
  | .rsaPkcs, _ => x.rsa.decPkcs o.rsa d
  | .rsaOaep, .oaep (some hs) (some mgf) _ label => x.rsa.decOaep o.rsa hs mgf label (label.getD []).length d
  | .aesGcm, .gcm iv aad t =>
    if t / 8 ≤ d.length then
      x.gcm.dec o.symm iv aad (aad.getD []).length (d.take (d.length - t / 8)) (d.drop (d.length - t / 8))
    else none
  | _, _ => none

/-- Room for the result: the length of the RSA modulus; for AES-GCM the data and a tag, in 32 bits. -/
def OutRoom (o : Obj) (m : Mech) (d : Bytes) (n : Nat) : Prop :=
  match m with
  | .aesGcm => d.length + 16 ≤ n ∧ n < 2 ^ 32
  | _ => o.rsa.keyLen ≤ n

/-- The tag has at most 128 bits (larger numbers are not all refused, `c83_violated`). -/
def TagOk : MechParam → Prop
  | .gcm _ _ t => t ≤ 128
  | _ => True

end Verif
