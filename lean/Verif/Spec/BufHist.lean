import Verif.Spec.Ops
import Verif.Model.Op

/-!
# Calls that do not keep to the output buffer
-/

namespace Verif

/-- The data calls with which the code does not keep to the output buffer: those of AES-CBC-PAD
other than Update, and `C_Encrypt` with AES-CBC of data that is not a whole number of blocks. -/
def DataCall.Unchecked (m : Mech) : DataCall → Prop
  | .encrypt d _ _ => m = .aesCbcPad ∨ ∃ d', d = some d' ∧ d'.length % 16 ≠ 0
  | .decrypt .. | .encryptFinal _ | .decryptFinal _ => m = .aesCbcPad
  | _ => False

/-- What wolfCrypt is relied on for: the lengths of what it computes.  AES-GCM refuses tags of more than
a block. -/
structure OutLens (x : Crypto) : Prop where
  rsa : x.rsa.Lawful
  mac : x.mac.Lawful
  gcmEnc : ∀ key iv aad aadSz pt n ct tag, x.gcm.enc key iv aad aadSz pt n = some (ct, tag) →
    n ≤ 16 ∧ ct.length = pt.length ∧ tag.length = n
  gcmDec : ∀ key iv aad aadSz ct tag pt, x.gcm.dec key iv aad aadSz ct tag = some pt → pt.length = ct.length

/-- AES-GCM data of less than 4 GB: lengths are computed in 32 bits. -/
def DataCall.Short (st : OpSt) : DataCall → Prop
  | .encrypt (some d) _ _ => st.mech = .aesGcm → d.length + 16 < 2 ^ 32
  | .decrypt (some d) _ _ => st.mech = .aesGcm → d.length < 2 ^ 32
  | .decryptFinal _ => st.mech = .aesGcm → st.gcm.enc.length < 2 ^ 32
  | _ => True

end Verif
