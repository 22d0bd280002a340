import Verif.Spec.Usage
import Verif.Spec.Attr

/-!
# Copies of objects
-/

namespace Verif

/-- `C_CopyObject` with valid pointers. -/
def copyCall (h k : Nat) (t : List Entry) : Call := .sess h (.copy k (some t) true)

/-- The template names the attribute. -/
def NamesAttr (t : List Entry) (a : CKA) : Prop := ∃ en ∈ t, en.typ = a

instance (t : List Entry) (a : CKA) : Decidable (NamesAttr t a) := by unfold NamesAttr; infer_instance

/-- The attributes that a copy takes from the original when the template names them:
class, label, identifier and the usages (`CKA_WRAP` if `CKA_UNWRAP` is not named, which
is stored in the same bit). -/
def Carried (t : List Entry) (a : CKA) : Prop :=
  NamesAttr t a ∧ (a ∈ [CKA.cls, .label, .id, .encrypt, .decrypt, .sign, .signRecover, .verify, .verifyRecover, .derive] ∨
    (a = .wrap ∧ ¬ NamesAttr t .unwrap))

/-- The two answers to a request for one attribute are the same, whatever the buffer. -/
def SameRead (e : Env) (l : Lib) (h k : Nat) (l' : Lib) (k' : Nat) (a : CKA) : Prop :=
  ∀ mem len, answer e l' (readCall h k' [{ typ := a, mem, len }]) = answer e l (readCall h k [{ typ := a, mem, len }])

end Verif
