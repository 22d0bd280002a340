import Verif.Spec.Pin

/-!
# Token objects used by several threads (src/crypto.c:863-885, 944-987)

`C_DestroyObject` and `C_GetAttributeValue` look the object up holding the lock of the token
and go on with a pointer to it after giving the lock back: the one takes the object from
the list in a second critical section and frees it outside any, the other reads each
attribute in a critical section of its own.  Here these two calls are split at these places.

Simplifications: all other calls are made in one go, and so are these two for session
objects; what a thread does between taking the lock and giving it back is one step (by C41
the lock excludes).
-/

namespace Verif

/-- Where a thread stands in `C_DestroyObject` or `C_GetAttributeValue`.  A pointer to an
object is the object's identity `uid`. -/
inductive Oc where
  /-- not in one of them -/
  | idle
  /-- `C_DestroyObject`: object `k` found (src/crypto.c:880), before
  `WP11_Session_RemoveObject` -/
  | found (h k uid : Nat)
  /-- taken from the list (src/internal.c:4705-4743), before `WP11_Object_Free` -/
  | unlinked (k uid : Nat)
  /-- `C_GetAttributeValue`: object found, template checked; the attributes read so far and
  those to come (src/crypto.c:971-984) -/
  | reading (h k uid : Nat) (done rest : List Entry)
  deriving DecidableEq

/-- The library, the objects that are taken from the list and not yet freed, and the
threads. -/
structure Obc where
  lib : Lib
  removed : List Obj := []
  oc : Nat → Oc := fun _ => .idle

/-- Something happens. -/
inductive OEv where
  /-- a thread makes a whole call -/
  | call (c : Call)
  /-- thread `t` calls `C_DestroyObject` and the object is looked up -/
  | destroy (t h k : Nat)
  /-- thread `t` calls `C_GetAttributeValue` with a template and the object is looked up -/
  | getAttr (t h k : Nat) (tmpl : List Entry)
  /-- thread `t` does the next part of its call -/
  | go (t : Nat)

/-- `WP11_Session_Get` and `WP11_Object_Find` in an initialised library (src/crypto.c:873-882,
955-964; src/internal.c:5445-5478). -/
def located (l : Lib) (h k : Nat) : Option (Session × Obj) :=
  if l.count ≤ 0 then none
  else (getSession l h).bind fun s => (findObj l s k).map fun o => (s, o)

/-- A call made in one go (an error, or a session object). -/
def inOneGo (e : Env) (l : Lib) (c : Call) : Lib × Oc × Option Resp :=
  ((step e l c).1, .idle, some (step e l c).2)

/-- `C_DestroyObject` up to and including the look-up (src/crypto.c:870-882). -/
def beginDestroy (e : Env) (l : Lib) (h k : Nat) : Lib × Oc × Option Resp :=
  match located l h k with
  | some (s, o) =>
    if s.use = .rw ∧ handleOnToken k = true then (l, .found h k o.uid, none)
    else inOneGo e l (.sess h (.destroy k))
  | none => inOneGo e l (.sess h (.destroy k))

/-- `C_GetAttributeValue` up to and including the check of the template
(src/crypto.c:955-969). -/
def beginGet (e : Env) (l : Lib) (h k : Nat) (t : List Entry) : Lib × Oc × Option Resp :=
  match located l h k with
  | some (_, o) =>
    if handleOnToken k = true ∧ checkAttributes false t = .ok ∧ t ≠ [] then
      (l, .reading h k o.uid [] t, none)
    else inOneGo e l (.sess h (.getAttr k (some t)))
  | none => inOneGo e l (.sess h (.getAttr k (some t)))

/-- `WP11_Object_GetAttr` through a pointer (src/internal.c:5906-6073): `none` if the object has been freed. -/
def readPart (e : Env) (l : Lib) (removed : List Obj) (uid : Nat) (en : Entry) : Option (RV × Entry) :=
  ((l.token.objs ++ removed).find? fun o => o.uid == uid).map fun o => getEntry e.key o en

/-- The next part of a thread's call: the library, the objects not yet freed, where the
thread stands then, and the answer if the call returns.  Freed memory being used is
undefined behaviour; so is removing an object that is not on the list any more (the number
of objects goes wrong and the object is freed a second time). -/
def proceed (e : Env) (l : Lib) (removed : List Obj) : Oc → Lib × List Obj × Oc × Option Resp
  | .idle => (l, removed, .idle, none)
  | .found h k uid =>
    match l.sessions.find? (fun s => s.handle == h), l.token.objs.find? (fun o => o.uid == uid) with
    | some _, some o =>
      if o.onToken then (removeToken e l o, o :: removed, .unlinked k uid, none)
      else ({ l with bad := true }, removed, .idle, some { rv := .ok })
    | _, _ => ({ l with bad := true }, removed, .idle, some { rv := .ub })
  | .unlinked _ uid => (l, removed.filter fun o => o.uid != uid, .idle, some { rv := .ok })
  | .reading _ _ _ done [] => (l, removed, .idle, some { rv := .ok, tmpl := some done })
  | .reading h k uid done (en :: rest) =>
    match readPart e l removed uid en with
    | none => ({ l with bad := true }, removed, .idle, some { rv := .ub })
    | some (.ok, x) =>
      if rest = [] then (l, removed, .idle, some { rv := .ok, tmpl := some (done ++ [x]) })
      else (l, removed, .reading h k uid (done ++ [x]) rest, none)
    | some (rv, x) =>
      ({ l with bad := l.bad || decide (rv = .ub) }, removed, .idle, some { rv, tmpl := some (done ++ x :: rest) })

/-- Thread `t` stands at `p`. -/
def Obc.at (s : Obc) (t : Nat) (p : Oc) : Obc := { s with oc := fun u => if u = t then p else s.oc u }

/-- One event (`C_DestroyObject`, src/crypto.c:863-885, and `C_GetAttributeValue`,
src/crypto.c:944-987, in parts; other calls whole), and the answer to a thread, if any.  A
thread inside a call cannot make another one. -/
def Obc.step (e : Env) (s : Obc) : OEv → Obc × Option Resp
  | .call c => ({ s with lib := (Verif.step e s.lib c).1 }, some (Verif.step e s.lib c).2)
  | .destroy t h k =>
    if s.lib.bad then (s, some { rv := .ub })
    else if s.oc t = .idle then
      ({ s with lib := (beginDestroy e s.lib h k).1 }.at t (beginDestroy e s.lib h k).2.1,
        (beginDestroy e s.lib h k).2.2)
    else (s, none)
  | .getAttr t h k tmpl =>
    if s.lib.bad then (s, some { rv := .ub })
    else if s.oc t = .idle then
      ({ s with lib := (beginGet e s.lib h k tmpl).1 }.at t (beginGet e s.lib h k tmpl).2.1,
        (beginGet e s.lib h k tmpl).2.2)
    else (s, none)
  | .go t =>
    if s.lib.bad then (s, none)
    else
      let r := proceed e s.lib s.removed (s.oc t)
      ({ s with lib := r.1, removed := r.2.1 }.at t r.2.2.1, r.2.2.2)

/-- The state after a schedule. -/
def Obc.run (e : Env) (s : Obc) : List OEv → Obc
  | [] => s
  | v :: vs => Obc.run e (s.step e v).1 vs

/-- The answers given in a schedule, in order. -/
def Obc.returns (e : Env) (s : Obc) : List OEv → List Resp
  | [] => []
  | v :: vs => (s.step e v).2.toList ++ Obc.returns e (s.step e v).1 vs

end Verif
