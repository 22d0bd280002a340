import Verif.Model.ConcMake
import Verif.Spec.Objs

/-!
# Objects made by several threads, as a caller understands it
-/

namespace Verif

/-- The session in which the `C_CreateObject` is made that a thread is inside. -/
def Mc.session : Mc → Option Nat
  | .idle => none
  | .built h .. | .chosen h .. | .linked h .. => some h

/-- The thread is making an object of session `h` itself, not one of the token. -/
def Mc.FillsSession (h : Nat) : Mc → Prop
  | .idle => False
  | .built h' on _ _ => h' = h ∧ on = 0
  | .chosen h' .. => h' = h
  | .linked h' on _ _ => h' = h ∧ on = 0

/-- The handle of the object that a thread has just made and not yet told. -/
def Mc.fresh : Mc → Option Nat
  | .linked _ _ k _ => some k
  | _ => none

/-- A call that does not disturb a thread that is at `p` inside a `C_CreateObject` in session
`h`: it does not close the session, nor destroy the object just made; if the object is one of the session, it is
not a call in that session at all. -/
def Mc.Undisturbed (p : Mc) (h : Nat) (c : Call) : Prop :=
  (match c with
    | .cFinal | .slot _ (.initToken ..) | .slot _ .closeAll => False
    | .sess j .close => j ≠ h
    | .sess _ (.destroy i) => p.fresh ≠ some i
    | _ => True) ∧
  (p.FillsSession h → ∀ sc, c ≠ .sess h sc)

/-- At this event no thread is disturbed: whole calls leave the sessions and the objects of the
threads inside `C_CreateObject` alone, and no two threads make objects of the same session at
the same time.  Threads that make objects of the token need no care. -/
def Mkc.ApartAt (s : Mkc) : MEv → Prop
  | .call c => ∀ t h, (s.mc t).session = some h → (s.mc t).Undisturbed h c
  | .create t h tmpl => (∀ u, u ≠ t → (s.mc u).FillsSession h → ForToken tmpl) 
  | .go _ => True

/-- So it is at every event of the schedule. -/
def Mkc.Apart (e : Env) : Mkc → List MEv → Prop
  | _, [] => True
  | s, v :: vs => s.ApartAt v ∧ Mkc.Apart e (s.step e v).1 vs

/-- No thread is inside `C_CreateObject`. -/
def Mkc.Quiet (s : Mkc) : Prop := ∀ t, s.mc t = .idle

/-- The answer that a thread at `p` has got, `r`, or will get when it has read the handle. -/
def Mc.outcome (p : Mc) (r : Option Resp) : Option Resp :=
  match p with
  | .linked _ _ k _ => some { rv := .ok, handle := some k }
  | _ => r

/-- The whole call that takes effect at this event, with its answer: a call made in one go is
itself; a `C_CreateObject` in parts takes effect when the object is linked or refused (the
answer of the former is given one event later). -/
def Mkc.effect (e : Env) (s : Mkc) : MEv → Option (Call × Resp)
  | .call c => (s.step e (.call c)).2.map fun r => (c, r)
  | .create t h tmpl => (s.step e (.create t h tmpl)).2.map fun r => (.sess h (.create (some tmpl) true), r)
  | .go t =>
    if s.lib.bad then none
    else match s.mc t with
      | .built h _ tmpl _ | .chosen h tmpl _ _ =>
        (((s.step e (.go t)).1.mc t).outcome (s.step e (.go t)).2).map fun r => (.sess h (.create (some tmpl) true), r)
      | _ => none

/-- The whole calls of a schedule in the order in which they take effect, with their answers. -/
def Mkc.history (e : Env) : Mkc → List MEv → List (Call × Resp)
  | _, [] => []
  | s, v :: vs => (s.effect e v).toList ++ Mkc.history e (s.step e v).1 vs

end Verif
