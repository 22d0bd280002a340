import Verif.Spec.Derive

/-!
# Where a key says it comes from

CKA_LOCAL is CK_TRUE for a key that was generated on the token, and then
CKA_KEY_GEN_MECHANISM names the mechanism; for all other keys CKA_LOCAL is CK_FALSE and
CKA_KEY_GEN_MECHANISM is CK_UNAVAILABLE_INFORMATION.
-/

namespace Verif

/-- Reading CKA_LOCAL of the object with handle `k` gives CK_TRUE. -/
def SaysLocal (e : Env) (l : Lib) (h k : Nat) : Prop := Shows e l h k .local' [1]

/-- Reading CKA_LOCAL of the object with handle `k` gives CK_FALSE. -/
def SaysNotLocal (e : Env) (l : Lib) (h k : Nat) : Prop := Shows e l h k .local' [0]

/-- Reading CKA_KEY_GEN_MECHANISM of the object with handle `k` gives the number `n`, as the
eight bytes of a `CK_ULONG`. -/
def SaysMadeBy (e : Env) (l : Lib) (h k n : Nat) : Prop := Shows e l h k .keyGenMech (leBytes 8 n)

/-- One of the calls `cs`, made one after the other from `l₀` on, is a `C_GenerateKeyPair`
with mechanism `m` that succeeds with the answer `r`. -/
def Generates (e : Env) (l₀ : Lib) (cs : List Call) (m : Mech) (r : Resp) : Prop :=
  ∃ before h p tp tq after, cs = before ++ pairCall h m p tp tq :: after ∧
    answer e (run e l₀ before) (pairCall h m p tp tq) = r ∧ r.rv = .ok

end Verif
