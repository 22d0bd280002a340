import Verif.Spec.Lives

/-!
# A token that is initialised again
-/

namespace Verif

/-- What the callers are told over the lives of several processes. -/
def heard (e : Env) : Lib → List Event → List Resp
  | _, [] => []
  | l, .call c :: vs => answer e l c :: heard e (step e l c).1 vs
  | l, .killed :: vs => heard e (Event.killed.next e l) vs

/-- The same process with a token nobody has ever used, in an empty directory. -/
def brandNew (l : Lib) : Lib := { l with token := {}, disk := fun _ => none }

/-- `C_InitToken` on the slot. -/
def initTokenCall (pin label : Bytes) : Call := .slot 1 (.initToken (some pin) (some label))

end Verif
