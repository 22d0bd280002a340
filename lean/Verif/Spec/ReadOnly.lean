import Verif.Spec.Objs
import Verif.Spec.Attr
/-!
# What a read-only session must leave alone
-/
namespace Verif

/-- The same object, up to its key value being present in the clear or only encrypted,
which is what logging in and out changes. -/
def SameObject (o o' : Obj) : Prop :=
  o' = { o with data := o'.data, encoded := o'.encoded, keyData := o'.keyData }

/-- The PINs are the same: salts and hashes of both, and the salt of the storage key. -/
def SamePins (l l' : Lib) : Prop :=
  l'.token.so.pin = l.token.so.pin ∧ l'.token.so.seed = l.token.so.seed ∧
  l'.token.user.pin = l.token.user.pin ∧ l'.token.user.seed = l.token.user.seed ∧
  l'.token.seed = l.token.seed

/-- `C_Login`, `C_Logout` and `C_CloseSession` (which logs out when it closes the last
session). -/
def SessCall.logsInOut : SessCall → Bool
  | .login .. | .logout | .close => true
  | _ => false

end Verif
