import Verif.Model.ConcInit
import Verif.Spec.Objs

/-!
# The library initialised and finalized by several threads, as a caller understands it
-/

namespace Verif

/-- No thread is inside `C_Initialize` or `C_Finalize`. -/
def Ilc.Quiet (s : Ilc) : Prop := ∀ t, s.pc t = .idle

/-- How often the library is held: a `C_Initialize` that returns takes a hold, a `C_Finalize` gives one
up when it is called. -/
def Ilc.holdAfter (s : Ilc) (h : Int) : IEv → Int
  | .call _ => h
  | .init _ => h
  | .final t => if s.pc t = .idle then h - 1 else h
  | .go t => if s.pc t = .counting then h + 1 else h

/-- At this event, with `h` holds on the library, the rule is kept: while nobody holds the library no call
overlaps a `C_Initialize` or `C_Finalize`, and the last hold is given up while no thread is
inside one. -/
def Ilc.AloneAt (s : Ilc) (h : Int) : IEv → Prop
  | .call c => c ≠ .cInit ∧ c ≠ .cFinal ∧ (h ≤ 0 → s.Quiet)
  | .init _ => h ≤ 0 → s.Quiet
  | .final _ => h ≤ 1 → s.Quiet
  | .go _ => True

/-- So it is at every event of the schedule. -/
def Ilc.Alone (e : Env) : Ilc → Int → List IEv → Prop
  | _, _, [] => True
  | s, h, v :: vs => s.AloneAt h v ∧ Ilc.Alone e (s.step e v).1 (s.holdAfter h v) vs

end Verif
