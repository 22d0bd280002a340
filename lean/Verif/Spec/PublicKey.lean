import Verif.Spec.Restart

/-!
# Calls that leave a public key of the token alone
-/

namespace Verif

/-- A public key: of RSA, of an elliptic curve, or of DH. -/
def Obj.IsPublicKey (o : Obj) : Prop :=
  o.IsKey ∧ o.cls = CKO_PUBLIC_KEY ∧ (o.typ = CKK_RSA ∨ o.typ = CKK_EC ∨ o.typ = CKK_DH)

/-- A call in the state `l` that leaves the token's object with the handle `k` alone: any call of
anybody, with any PIN, except the last `C_Finalize`, `C_InitToken`, and changing or destroying
the object. -/
def Passes (k : Nat) (l : Lib) : Call → Prop
  | .cInit => True
  | .cFinal => l.count ≠ 1
  | .slot _ c =>
    match c with
    | .initToken .. => False
    | _ => True
  | .sess _ c =>
    match c with
    | .setAttr i _ | .destroy i => i ≠ k
    | _ => True

/-- Every call of a history is such a call in the state in which it is made. -/
def Passed (e : Env) (k : Nat) : Lib → List Call → Prop
  | _, [] => True
  | l, c :: cs => Passes k l c ∧ Passed e k (step e l c).1 cs

end Verif
