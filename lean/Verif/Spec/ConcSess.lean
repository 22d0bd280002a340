import Verif.Model.ConcSess

/-!
# Sessions opened and closed by several threads, as a caller understands it
-/

namespace Verif

/-- No thread is inside `C_CloseSession`. -/
def Ssc.Quiet (s : Ssc) : Prop := ∀ t, s.sc t = .idle

/-- The event is a call of `C_CloseSession` for session `h`, whole or in parts, or one that
closes all sessions. -/
def Closes (h : Nat) : SEv → Prop
  | .call c => c = closeCall h ∨ c = closeAllCall ∨ c = .cFinal
  | .close _ k => k = h
  | .go _ => False

/-- At this event nobody closes a session that another thread is closing, and nobody calls
`C_Finalize` while a thread is inside `C_CloseSession`. -/
def Ssc.ApartAt (s : Ssc) (v : SEv) : Prop :=
  (∀ t h, s.sc t = .found h → ¬ Closes h v) ∧ (v = .call .cFinal → s.Quiet)

/-- So it is at every event of the schedule. -/
def Ssc.Apart (e : Env) : Ssc → List SEv → Prop
  | _, [] => True
  | s, v :: vs => s.ApartAt v ∧ Ssc.Apart e (s.step e v).1 vs

/-- The schedule has no `C_CloseAllSessions` (see C06). -/
def NoCloseAll (vs : List SEv) : Prop := ∀ i, SEv.call (.slot i .closeAll) ∉ vs

end Verif
