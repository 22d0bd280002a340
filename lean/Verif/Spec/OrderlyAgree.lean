import Verif.Spec.Derive
import Verif.Spec.Orderly

/-!
# Key agreement with a key of the token, by an orderly application (for C142)
-/

namespace Verif

/-- The party generates a pair with the private key on the token, keeps to the rules of C125, does
not destroy the private key, and derives a key with the mechanism `m` when the user is logged in. -/
structure Party.Orders (e : Env) (p : Party) (m : DeriveMech) : Prop extends p.Does e m where
  onToken : handleOnToken p.priv = true
  user : UserIn e (run e p.lib p.generated) p.h
  ordered : Ordered e p.lib (p.generated ++ p.between)
  clock : ClockWithin (2 ^ 62) ((p.generated ++ p.between).map .call)
  kept : NotDestroyed p.priv p.between
  userThen : UserIn e (run e p.lib (p.generated ++ p.between)) p.h'

/-- The pair is on the curve named by `params`, with the point `mine`; a key is derived with the
point `theirs`. -/
structure Party.EcOrders (e : Env) (p : Party) (params mine theirs : Bytes) : Prop
    extends p.Orders e (.ecdh (some (true, some theirs))), p.OnCurve e params mine

end Verif
