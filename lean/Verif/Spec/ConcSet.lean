import Verif.Model.ConcSet
import Verif.Spec.Isolated
import Verif.Spec.Objs

/-!
# Attribute changes made while other threads look, as a caller understands it
-/

namespace Verif

/-- The object whose attributes the call changes that a thread is inside. -/
def Sa.changes : Sa → Option Nat
  | .found _ k _ _ | .setting _ k _ _ => some k
  | _ => none

/-- No thread is inside `C_SetAttributeValue`. -/
def Stc.Still (s : Stc) : Prop := ∀ u, (s.sa u).changes = none

/-- An event at which nobody interferes with the call that thread `t` is inside, in session `h`,
changing attributes of the object of handle `k`: whole calls leave the object and the session
alone (`Spares`, Spec/Isolated.lean), no other change of its attributes begins, and the thread
itself makes no other call.  Reading the object, and changing other ones, is free to all other
threads. -/
def LetsBe (t h k : Nat) : TEv → Prop
  | .call c => Spares h k c
  | .setAttr u _ k' _ => u ≠ t ∧ k' ≠ k
  | .getAttr u _ _ _ => u ≠ t
  | .go _ => True

/-- The whole call made at an event. -/
def TEv.whole : TEv → List Call
  | .call c => [c]
  | _ => []

/-- `C_SetAttributeValue` as one call. -/
def setCall (h k : Nat) (t : List Entry) : Call := .sess h (.setAttr k (some t))

end Verif
