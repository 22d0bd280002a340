import Verif.Model.Ext
import Verif.Spec.Der

/-!
# Matching keys

What it means for wolfCrypt that two keys belong together.
-/

namespace Verif

/-- `priv` and `pub` are the two halves of an RSA key pair: what is made with one is
undone with the other. -/
structure RsaPair (r : Rsa) (priv pub : RsaKey) : Prop where
  size : pub.keyLen = priv.keyLen
  rawSign : ∀ d rnd sg, d.length = priv.keyLen → r.raw .privateEncrypt priv d rnd = some sg →
    r.raw .publicDecrypt pub sg 0 = some d
  rawEnc : ∀ d rnd rnd' c, d.length = priv.keyLen → r.raw .publicEncrypt pub d rnd = some c →
    r.raw .privateDecrypt priv c rnd' = some d
  pkcsSign : ∀ d rnd sg, r.signPkcs priv d rnd = some sg → r.verifyPkcs pub sg = some d
  pkcsEnc : ∀ d rnd c, r.encPkcs pub d rnd = some c → r.decPkcs priv c = some d
  oaep : ∀ h m lab n d rnd c, r.encOaep pub h m lab n d rnd = some c → r.decOaep priv h m lab n c = some d
  pss : ∀ h m n d rnd sg, r.signPss priv h m n d rnd = some sg →
    ∃ em t, r.verifyPss pub h m n sg = .msg em ∧ r.checkPss h n d (some em) = .msg t

/-- `priv` and `pub` are the two halves of an EC key pair on the curve `c`: signatures
are DER encoded pairs of numbers that fit the curve, and verify in that encoding. -/
structure EcPair (x : Ecdsa) (priv pub : EcKey) (c : Curve) : Prop where
  priv_curve : priv.dp = some c
  pub_curve : pub.dp = some c
  size : 0 < c.size ∧ c.size ≤ 124
  sign : ∀ d rnd der, x.sign priv d rnd = some der → ∃ r s,
    Spec.IsDerSig r s der ∧ r < 256 ^ c.size ∧ s < 256 ^ c.size ∧
    ∀ der', Spec.IsDerSig r s der' → x.verify pub der' d = some true

/-- The key `pub` checks the signatures of the key `priv` under the mechanism `m`. -/
def KeyPair (x : Crypto) (m : Mech) (priv pub : Obj) : Prop :=
  match m with
  | .rsaX509 | .rsaPkcs | .rsaPss | .rsaOaep => RsaPair x.rsa priv.rsa pub.rsa
  | .ecdsa => ∃ c, EcPair x.ecdsa priv.ec pub.ec c
  | .hmac _ => priv.symm = pub.symm ∧ x.mac.Lawful
  | _ => False

end Verif
