import Verif.Spec.Conc

/-!
# Logging in while sessions are closed
-/

namespace Verif

/-- Whenever something happens while a thread is inside `C_Login`, a session is open before. -/
def OpenMeanwhile (e : Env) : Conc → List Ev → Prop
  | _, [] => True
  | s, v :: vs => (s.Quiet ∨ ∃ h, IsOpen e s.lib h) ∧ OpenMeanwhile e (s.step e v).1 vs

/-- `C_CloseAllSessions` is not called (by C06 it leaves the login as it is). -/
def NeverCloseAll (vs : List Ev) : Prop := ∀ i, Ev.call (.slot i .closeAll) ∉ vs

end Verif
