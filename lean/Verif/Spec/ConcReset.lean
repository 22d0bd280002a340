import Verif.Model.ConcReset
import Verif.Spec.Objs

/-!
# `C_InitToken` called by several threads, as a caller understands it
-/

namespace Verif

/-- No thread is inside `C_InitToken`. -/
def Tkc.Quiet (s : Tkc) : Prop := ∀ t, s.pc t = .idle

/-- Calls other threads may make during a `C_InitToken`: calls on sessions, and `C_CloseAllSessions`. -/
def ForOthers : Call → Prop
  | .slot _ .closeAll | .sess _ _ => True
  | _ => False

/-- Whether the token was initialised when the last `C_InitToken` began. -/
def Tkc.initAfter (s : Tkc) (b : Bool) : TkEv → Bool
  | .init _ _ _ => s.lib.token.init
  | _ => b

/-- At this event the rule is kept: during a `C_InitToken` no other `C_InitToken` begins, nobody opens a
session, initialises or finalizes the library or asks for the description of the token; and if the token was not
initialised when the `C_InitToken` began (`b`), nobody uses a session either. -/
def Tkc.AloneAt (s : Tkc) (b : Bool) : TkEv → Prop
  | .call c => s.Quiet ∨ ForOthers c ∧ (b = false → ∀ h sc, c ≠ .sess h sc)
  | .init _ _ _ => s.Quiet
  | .go _ => True

/-- So it is at every event of the schedule. -/
def Tkc.Alone (e : Env) : Tkc → Bool → List TkEv → Prop
  | _, _, [] => True
  | s, b, v :: vs => s.AloneAt b v ∧ Tkc.Alone e (s.step e v).1 (s.initAfter b v) vs

end Verif
