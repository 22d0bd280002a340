import Verif.Spec.Isolated
import Verif.Spec.ConcSet
import Verif.Spec.Attr

/-!
# What an attribute was last set to
-/

namespace Verif

/-- The attributes that set the attribute `a`: the attribute itself, and where the code
gives two attributes one bit the other one, too. -/
def tied : CKA → List CKA
  | .wrap => [.wrap, .unwrap]
  | .trusted => [.trusted, .encrypt]
  | a => [a]

/-- The call does not end the library, the session `h` or the object `k`, and sets none of
the attributes `as` of the object. Logging in and out is allowed, and so are all changes to
other attributes of the object. -/
def Retains (as : List CKA) (h k : Nat) : Call → Prop
  | .cInit => True
  | .cFinal => False
  | .slot _ c =>
    match c with
    | .tokenInfo .. | .openSession .. => True
    | .initToken .. => handleOnToken k = false
    | .closeAll => False
  | .sess j c =>
    match c with
    | .close => j ≠ h
    | .destroy i => i ≠ k
    | .setAttr i t => i = k → ∀ en ∈ t.getD [], en.typ ∉ as
    | _ => True

/-- What is read of an attribute that was set to `v`: labels, identifiers, classes and dates
as they are, usage flags as truth values. `none` for attributes that the library does not
give back (a date that begins with a zero byte, `CKA_UNWRAP`, the protection flags: see C28
and C29) and for key material. -/
def reading (a : CKA) (v : Bytes) : Option Bytes :=
  match a with
  | .label | .id | .cls => some v
  | .startDate | .endDate => if v.headD 0 = 0 then none else some v
  | .encrypt | .decrypt | .sign | .signRecover | .verify | .verifyRecover | .derive =>
    some (if v.headD 0 = 0 then [0] else [1])
  | _ => none

end Verif
