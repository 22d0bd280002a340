import Verif.Spec.Isolated
import Verif.Spec.Der
import Verif.Model.Op

/-!
# What a message is signed with
-/

namespace Verif

/-- `sig` is the signature of `d` made with the key `o`, the mechanism and the parameter given, in terms of what wolfCrypt
computes (`rnd`: its random bytes).  Raw RSA: of the data with zero bytes in front up to the length of the modulus.
ECDSA: the two numbers of wolfCrypt's signature, each in as many bytes as the curve has.  HMAC: the MAC of the data. -/
def SignedWith (x : Crypto) (o : Obj) (m : Mech) (p : MechParam) (d : Bytes) (rnd : Nat) (sig : Bytes) : Prop :=
  match m, p with
  | .rsaPkcs, _ => x.rsa.signPkcs o.rsa d rnd = some sig
  | .rsaPss, .pss (some hs) (some mgf) n => x.rsa.signPss o.rsa hs mgf (toInt32 n) d rnd = some sig
  | .rsaX509, _ => x.rsa.raw .privateEncrypt o.rsa (List.replicate (o.rsa.keyLen - d.length) 0 ++ d) rnd = some sig
  | .ecdsa, _ => ∃ c der r t, o.ec.dp = some c ∧ x.ecdsa.sign o.ec d rnd = some der ∧ Spec.IsDerSig r t der ∧
      sig = Spec.toBE c.size r ++ Spec.toBE c.size t
  | .hmac a, _ => sig = x.mac.mac a o.symm d
  | _, _ => False

/-- Room for the signature. -/
def SigRoom (x : Crypto) (o : Obj) (m : Mech) (n : Nat) : Prop :=
  match m with
  | .ecdsa => ∀ c, o.ec.dp = some c → 2 * c.size ≤ n
  | .hmac a => x.mac.size a ≤ n
  | _ => o.rsa.keyLen ≤ n

/-- What is assumed of wolfCrypt's ECDSA: a signature is the DER encoding of two numbers below the size of the curve. -/
def EcSigns (x : Ecdsa) : Prop :=
  ∀ k c d rnd der, k.dp = some c → x.sign k d rnd = some der →
    ∃ r t, r < 256 ^ c.size ∧ t < 256 ^ c.size ∧ Spec.IsDerSig r t der

/-- A call that may come between `C_SignInit` and `C_Sign`: one that leaves the key and the operation alone, or, unless
the mechanism is an HMAC, another `C_Sign`. -/
def SignsMore (h k : Nat) (m : Mech) (c : Call) : Prop :=
  Bystander h k c ∨ ((∀ a, m ≠ .hmac a) ∧ ∃ d ob rnd, c = .sess h (.crypt (.sign d ob rnd)))

end Verif
