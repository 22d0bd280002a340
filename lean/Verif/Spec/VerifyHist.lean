import Verif.Spec.Isolated
import Verif.Spec.Der
import Verif.Model.Op

/-!
# Correct signatures
-/

namespace Verif

/-- `sig` is a correct signature of `d` for the key `o`, with the mechanism and the parameter given, in terms of what
wolfCrypt computes: for RSA PKCS#1 the signature opens to the data; for PSS it opens to an encoded message that passes
the check for the digest; for raw RSA it opens to the data; for ECDSA the two halves are numbers that wolfCrypt accepts;
an HMAC is recomputed. -/
def RightSig (x : Crypto) (o : Obj) (m : Mech) (p : MechParam) (d sig : Bytes) : Prop :=
  match m, p with
  | .rsaPkcs, _ => x.rsa.verifyPkcs o.rsa sig = some d
  | .rsaPss, .pss (some hs) (some mgf) n => ∃ em r, x.rsa.verifyPss o.rsa hs mgf (toInt32 n) sig = .msg em ∧
      x.rsa.checkPss hs (toInt32 n) d (some em) = .msg r
  | .rsaX509, _ => x.rsa.raw .publicDecrypt o.rsa sig 0 = some d
  | .ecdsa, _ => ∃ c, o.ec.dp = some c ∧ sig.length = 2 * c.size ∧
      ∃ der, Spec.IsDerSig (Spec.fromBE (sig.take c.size)) (Spec.fromBE (sig.drop c.size)) der ∧
        x.ecdsa.verify o.ec der d = some true
  | .hmac a, _ => sig = x.mac.mac a o.symm d
  | _, _ => False

/-- The cases in which the code's answer is right: raw RSA with data of the key's length (C51), and curves of a size
that wolfCrypt has. -/
def Judged (o : Obj) (m : Mech) (d : Bytes) : Prop :=
  match m with
  | .rsaX509 => d.length = o.rsa.keyLen ∧ o.rsa.keyLen < 2 ^ 31
  | .ecdsa => ∀ c, o.ec.dp = some c → 0 < c.size ∧ c.size ≤ 124
  | _ => True

/-- A call that may come between `C_VerifyInit` and `C_Verify`: one that leaves the key and the operation alone, or,
unless the mechanism is an HMAC, another `C_Verify`. -/
def VerifiesMore (h k : Nat) (m : Mech) (c : Call) : Prop :=
  Bystander h k c ∨ ((∀ a, m ≠ .hmac a) ∧ ∃ d sig, c = .sess h (.crypt (.verify d sig)))

end Verif
