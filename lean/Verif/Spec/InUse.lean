import Verif.Spec.Objs
/-!
# Keys that sessions work with
-/
namespace Verif

/-- Some open session was last initialised with the object of identity `u` (`C_EncryptInit`,
`C_SignInit`, …, also `C_WrapKey` and `C_UnwrapKey`). -/
def InUse (l : Lib) (u : Nat) : Prop := ∃ h s, getSession l h = some s ∧ s.curr = some u

/-- The object session `h` was last initialised with, if any, exists: it belongs to the
session or to the token. -/
def KeyAlive (l : Lib) (h : Nat) : Prop :=
  ∀ s, getSession l h = some s → ∀ u, s.curr = some u →
    ∃ o ∈ sessObjs l h ++ tokenObjs l, o.uid = u

/-- A call that destroys no key in use: `C_DestroyObject` only of objects no session was
last initialised with, `C_InitToken` only when no session is open. -/
def Call.Careful (l : Lib) : Call → Prop
  | .sess h (.destroy k) => ∀ s o, getSession l h = some s → findObj l s k = some o → ¬ InUse l o.uid
  | .slot _ (.initToken ..) => ∀ h, getSession l h = none
  | _ => True

/-- A history of such calls. -/
def Careful (e : Env) (l : Lib) : List Call → Prop
  | [] => True
  | c :: cs => c.Careful l ∧ Careful e (step e l c).1 cs

end Verif
