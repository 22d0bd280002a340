import Verif.Spec.KeyKept
import Verif.Spec.Lives

/-!
# Keys of the token when the process ends at any moment between two calls
-/

namespace Verif

/-- The token's file in the directory holds the present label, PINs, seeds and number of
objects; the counts of failed logins may be older. -/
def RecordOnDisk (t : Token) (d : Disk) : Prop :=
  ∃ r : TokenRec, r.Fits ∧ d (.token, 0) = some (wrToken r) ∧ r.label = t.label ∧ r.seed = t.seed ∧
    r.types = t.objs.map (·.typ) ∧ (r.so.pin = t.so.pin ∧ r.so.seed = t.so.seed) ∧
    (r.user.pin = t.user.pin ∧ r.user.seed = t.user.seed)

/-- The directory holds the token as it is, with the keys under the present PIN. -/
structure Settled (e : Env) (l : Lib) : Prop where
  writable : Writable e l
  objects : ObjectsOnDisk e l l.disk
  record : RecordOnDisk l.token l.disk

/-- A call in the state `l` after which the process may end at any time without the key with
the handle `k` being lost: it does not destroy that object, changes no attribute of a token
object, does not initialise the token nor set the user's PIN; and if it makes an object on the
token, the user is logged in and the object is a key that can be written. -/
def Gentle (e : Env) (k : Nat) (l : Lib) (c : Call) : Prop :=
  match c with
  | .cInit | .cFinal => True
  | .slot _ c =>
    match c with
    | .initToken .. => False
    | _ => True
  | .sess h c =>
    match c with
    | .destroy i => i ≠ k
    | .setAttr i _ => handleOnToken i = false
    | .initPin _ => l.token.login ≠ .so
    | .setPin .. => l.token.login = .so
    | c => c.creates ≠ [] →
      tokenObjs (step e l (.sess h c)).1 = tokenObjs l ∨ (l.token.login = .user ∧ Writable e (step e l (.sess h c)).1)

/-- Calls and ends of processes.  The calls are gentle, and the counts and times of failed
logins fit their C types; of the moments at which a process ends nothing is asked. -/
def GentleLife (e : Env) (k : Nat) : Lib → List Event → Prop
  | _, [] => True
  | l, .call c :: vs => (0 < l.count → l.token.toRec.Fits) ∧ Gentle e k l c ∧ GentleLife e k (step e l c).1 vs
  | l, .killed :: vs => GentleLife e k (Event.killed.next e l) vs

/-- The calls among the events. -/
def callsOf : List Event → List Call
  | [] => []
  | .call c :: vs => c :: callsOf vs
  | .killed :: vs => callsOf vs

end Verif
