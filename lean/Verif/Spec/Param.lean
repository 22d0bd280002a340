import Verif.Model.Op

/-!
# Mechanism parameters
-/

namespace Verif

/-- The parameter is one the mechanism may be used with: none at all for plain RSA,
PKCS#1, ECDSA and HMAC; known algorithms for OAEP and PSS, a label given by the caller for
OAEP and a salt of at most 62 bytes for PSS; 16 bytes for CBC; an IV of at most 16 bytes and
a tag of at most 128 bits for GCM. -/
def ParamOk : Mech → MechParam → Prop
  | .rsaX509, p | .rsaPkcs, p | .ecdsa, p | .hmac _, p => p = .null 0
  | .rsaOaep, .oaep (some _) (some _) src _ => src = true
  | .rsaPss, .pss (some _) (some _) salt => salt ≤ 62
  | .aesCbc, .raw iv | .aesCbcPad, .raw iv => iv.length = 16
  | .aesGcm, .gcm iv _ tagBits => iv.length ≤ 16 ∧ tagBits ≤ 128
  | _, _ => False

/-- Salt length and tag bits are below 2^31. -/
def SmallNumbers : MechParam → Prop
  | .pss _ _ salt => salt < 2 ^ 31
  | .gcm _ _ tagBits => tagBits < 2 ^ 31
  | _ => True

/-- The refusals of an Init that has already written to the session: of OAEP and PSS because of a function
that is not known or the length of the salt, of HMAC and CBC because of the length of the key. -/
def RefusedLate : Mech → MechParam → RV → Prop
  | .rsaOaep, .oaep .., rv | .rsaPss, .pss .., rv => rv = .mechanismParamInvalid
  | .hmac _, _, rv | .aesCbc, _, rv | .aesCbcPad, _, rv => rv = .functionFailed
  | _, _, _ => False

end Verif
