import Verif.Model.ConcObj
import Verif.Spec.Objs

/-!
# Token objects used by several threads, as a caller understands it
-/

namespace Verif

/-- The session and the object that the call a thread is inside names. -/
def Oc.names : Oc → Option Nat
  | .idle => none
  | .found _ k _ | .unlinked k _ | .reading _ k _ _ _ => some k

/-- The object that the call a thread is inside destroys. -/
def Oc.destroys : Oc → Option Nat
  | .found _ k _ | .unlinked k _ => some k
  | _ => none

/-- The thread is inside a call made in session `h` that names object `k`, and is not about to
return. -/
def Oc.Uses (h k : Nat) : Oc → Prop
  | .found h' k' _ | .reading h' k' _ _ _ => h' = h ∧ k' = k
  | _ => False

/-- A call that neither closes session `h` nor takes away the token object `k`: not
`C_Finalize`, `C_InitToken` or `C_CloseAllSessions`, not `C_CloseSession` of `h`, not
`C_DestroyObject` of `k`. -/
def LeavesBe (h k : Nat) : Call → Prop
  | .cFinal | .slot _ (.initToken ..) | .slot _ .closeAll => False
  | .sess j .close => j ≠ h
  | .sess _ (.destroy i) => i ≠ k
  | _ => True

/-- At this event no object is taken away, and no session closed, that another thread is using:
while a thread is inside a call, no other one destroys its object or closes its session, and
none begins to use an object that it destroys. -/
def Obc.ApartAt (s : Obc) : OEv → Prop
  | .call c => ∀ t h k, (s.oc t).Uses h k → LeavesBe h k c
  | .destroy t _ k => ∀ u, u ≠ t → (s.oc u).names ≠ some k
  | .getAttr t _ k _ => ∀ u, u ≠ t → (s.oc u).destroys ≠ some k
  | .go _ => True

/-- So it is at every event of the schedule. -/
def Obc.Apart (e : Env) : Obc → List OEv → Prop
  | _, [] => True
  | s, v :: vs => s.ApartAt v ∧ Obc.Apart e (s.step e v).1 vs

/-- The call made in one go at an event. -/
def OEv.whole : OEv → Option Call
  | .call c => some c
  | _ => none

/-- No thread is inside `C_DestroyObject` or `C_GetAttributeValue`. -/
def Obc.Quiet (s : Obc) : Prop := s.removed = [] ∧ ∀ t, s.oc t = .idle

/-- The whole call that takes effect at this event, with its answer: a call made in one go is
itself; a `C_DestroyObject` in parts takes effect when the object is taken from the list (its
answer is CKR_OK, given one event later); a `C_GetAttributeValue` in parts counts as one call
for each attribute, at the event at which it is read. -/
def Obc.effect (e : Env) (s : Obc) : OEv → Option (Call × Resp)
  | .call c => (s.step e (.call c)).2.map fun r => (c, r)
  | .destroy t h k => (s.step e (.destroy t h k)).2.map fun r => (.sess h (.destroy k), r)
  | .getAttr t h k tmpl => (s.step e (.getAttr t h k tmpl)).2.map fun r => (.sess h (.getAttr k (some tmpl)), r)
  | .go t =>
    if s.lib.bad then none
    else match s.oc t with
      | .found h k _ => some (.sess h (.destroy k), { rv := .ok })
      | .reading h k uid _ (en :: _) =>
        (readPart e s.lib s.removed uid en).map fun r =>
          (.sess h (.getAttr k (some [en])), { rv := r.1, tmpl := some [r.2] })
      | _ => none

/-- The whole calls of a schedule in the order in which they take effect, with their answers. -/
def Obc.history (e : Env) : Obc → List OEv → List (Call × Resp)
  | _, [] => []
  | s, v :: vs => (s.effect e v).toList ++ Obc.history e (s.step e v).1 vs

end Verif
