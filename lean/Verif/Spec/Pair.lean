import Verif.Spec.SignVerify
import Verif.Spec.Usage

/-!
# The two keys of a generated pair
-/

namespace Verif

/-- The exponent's big-endian bytes read the same in both directions and it is a positive
`long` (3, 17, 257, 65537, ...). -/
def PlainExponent (x : Nat) : Prop := (mpBytes x).reverse = mpBytes x ∧ x < 2 ^ 63

/-- The public and the private key object that `C_GenerateKeyPair` with this mechanism
makes belong together.
RSA and EC: the public key verifies what the private key signs, and the private key
decrypts what is encrypted with the public key (for RSA, if the exponent is plain).
DH: the same prime and base, and the public value is the base to the power of the private
value. -/
def BelongTogether (e : Env) (m : Mech) (pub priv : Obj) : Prop :=
  match m with
  | .rsaKeyPairGen => PlainExponent pub.rsa.e → RsaPair e.crypto.rsa priv.rsa pub.rsa
  | .ecKeyPairGen => ∃ c, EcPair e.crypto.ecdsa priv.ec pub.ec c
  | .dhKeyPairGen => pub.dh.p = priv.dh.p ∧ pub.dh.g = priv.dh.g ∧
      ofBytes pub.dh.key = priv.dh.g ^ ofBytes priv.dh.key % priv.dh.p
  | _ => False

/-- What is assumed of wolfCrypt's key generation: what it generates is a pair. -/
structure GenLawful (e : Env) : Prop where
  /-- `wc_MakeRsaKey`: the exponent asked for, and modulus and exponent are a public key -/
  rsa : ∀ n bits x k, e.rsaGen n bits x = some k → (k.e : Int) = x ∧
    ∀ pub : RsaKey, pub.n = k.n → pub.e = k.e → RsaPair e.crypto.rsa k pub
  /-- `wc_ecc_make_key_ex`: curve and point are a public key -/
  ec : ∀ n c k, e.ecGen n c = some k → ∀ pub : EcKey, pub.dp = some c → pub.x = k.x → pub.y = k.y →
    EcPair e.crypto.ecdsa { k with dp := some c, typ := .priv } pub c
  /-- `wc_DhGenerateKeyPair` -/
  dh : ∀ n p g x y, e.dhGen n p g = some (x, y) → ofBytes y = g ^ ofBytes x % p

/-- `C_GenerateKeyPair` with valid pointers. -/
def pairCall (h : Nat) (m : Mech) (p : MechParam) (tp tq : List Entry) : Call :=
  .sess h (.genPair (some (m, p)) (some tp) (some tq) true)

end Verif
