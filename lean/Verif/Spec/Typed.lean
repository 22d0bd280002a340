import Verif.Spec.Usage

/-!
# Kinds of objects

What an object holds fits what it is called: the value of a certificate belongs to an
object of class `CKO_CERTIFICATE`, an RSA, EC or DH key to a key object of that type, any
other key to a key object of another type. An object that holds nothing fits any name.
-/

namespace Verif

/-- The value an object holds is of the kind its class and type say. -/
def Obj.Typed (o : Obj) : Prop :=
  match o.data with
  | .none => True
  | .cert _ _ => o.cls = CKO_CERTIFICATE
  | .rsa _ => o.cls ≠ CKO_CERTIFICATE ∧ o.typ = CKK_RSA
  | .ec _ => o.cls ≠ CKO_CERTIFICATE ∧ o.typ = CKK_EC
  | .dh _ => o.cls ≠ CKO_CERTIFICATE ∧ o.typ = CKK_DH
  | .symm _ => o.cls ≠ CKO_CERTIFICATE ∧ o.typ ≠ CKK_RSA ∧ o.typ ≠ CKK_EC ∧ o.typ ≠ CKK_DH

end Verif
