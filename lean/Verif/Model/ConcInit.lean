import Verif.Spec.Api

/-!
# `C_Initialize` and `C_Finalize` called by several threads (src/internal.c:3443-3495)

`WP11_Library_Init` tests the count without holding a lock, sets the library up when it is 0 and
only then takes the lock to count.  `WP11_Library_Final` counts holding the lock, and when the
count has become 0 stores and frees everything after giving the lock back.  Here both are split at
these places; between two parts of them other threads may do anything.

Simplifications: all other calls are made in one go (their parts are in `Model/Conc.lean`,
`Model/ConcObj.lean`, `Model/ConcPin.lean` and `Model/ConcSess.lean`); what a thread does between taking
the lock and giving it back is one step (by C41 the lock excludes); the set-up of the lock and of
the random generator (src/internal.c:3449-3451) does not fail and has no effect of its own, nor has
freeing them (src/internal.c:3492-3493); as everywhere in the model the load of the slot succeeds.
-/

namespace Verif

/-- Where a thread stands in `C_Initialize` or `C_Finalize`. -/
inductive Ic where
  /-- in neither -/
  | idle
  /-- in `C_Initialize`, before the test of the count (src/internal.c:3448) -/
  | entered
  /-- the count was seen to be 0; before `wp11_Slot_Init` (src/internal.c:3452-3454) -/
  | fresh
  /-- before `wp11_Slot_Load` (src/internal.c:3456-3458) -/
  | loading
  /-- before the count goes up (src/internal.c:3461-3465) -/
  | counting
  /-- in `C_Finalize`, before the count goes down (src/internal.c:3479-3481) -/
  | leaving
  /-- the count went down to 0; before `wp11_Slot_Store` (src/internal.c:3485-3486) -/
  | storing
  /-- before `wp11_Slot_Final` (src/internal.c:3489-3490) -/
  | freeing
  deriving DecidableEq

/-- The library and its threads, any number of them. -/
structure Ilc where
  lib : Lib
  pc : Nat → Ic := fun _ => .idle

/-- Something happens. -/
inductive IEv where
  /-- a thread makes a whole call -/
  | call (c : Call)
  /-- thread `t` calls `C_Initialize` -/
  | init (t : Nat)
  /-- thread `t` calls `C_Finalize` -/
  | final (t : Nat)
  /-- thread `t` does the next part of its `C_Initialize` or `C_Finalize` -/
  | go (t : Nat)

/-- The library changes to `l` and thread `t` stands at `p`. -/
def Ilc.at (s : Ilc) (l : Lib) (t : Nat) (p : Ic) : Ilc :=
  { lib := l, pc := fun u => if u = t then p else s.pc u }

/-- The next part of a `C_Initialize` or `C_Finalize` (src/internal.c:3443-3495): the library, where the
thread stands then, and the call that has returned, if any. -/
def Ic.part (e : Env) (l : Lib) : Ic → Lib × Ic × Option Call
  | .idle => (l, .idle, none)
  | .entered => if l.count = 0 then (l, .fresh, none) else (l, .counting, none)
  | .fresh => ({ l with sessions := addSession (addSession []), token := {} }, .loading, none)
  | .loading =>
    let t := loadToken e.store l.disk l.uid
    ({ l with token := t, uid := l.uid + t.objs.length }, .counting, none)
  | .counting => ({ l with count := l.count + 1 }, .idle, some .cInit)
  | .leaving =>
    if l.count - 1 = 0 then ({ l with count := l.count - 1 }, .storing, none)
    else ({ l with count := l.count - 1 }, .idle, some .cFinal)
  | .storing => ((Lib.store e l).1, .freeing, none)
  | .freeing => ({ l with sessions := [], token := {} }, .idle, some .cFinal)

/-- The call a thread is in. -/
def Ic.call : Ic → Call
  | .idle | .entered | .fresh | .loading | .counting => .cInit
  | .leaving | .storing | .freeing => .cFinal

/-- One event, and the call that has returned with its answer, if any (`C_Initialize`,
`C_Finalize`, src/wolfpkcs11.c:127-150, in parts; other calls whole).  A thread inside a call cannot make another
one.  After undefined behaviour a call answers `ub`, as in `step`. -/
def Ilc.step (e : Env) (s : Ilc) : IEv → Ilc × Option (Call × Resp)
  | .call c => ({ s with lib := (Verif.step e s.lib c).1 }, some (c, (Verif.step e s.lib c).2))
  | .init t => (if s.pc t = .idle then s.at s.lib t .entered else s, none)
  | .final t => (if s.pc t = .idle then s.at s.lib t .leaving else s, none)
  | .go t =>
    if s.pc t = .idle then (s, none)
    else if s.lib.bad then (s.at s.lib t .idle, some ((s.pc t).call, { rv := .ub }))
    else
      let r := (s.pc t).part e s.lib
      (s.at r.1 t r.2.1, r.2.2.map fun c => (c, { rv := .ok }))

/-- The state after a schedule. -/
def Ilc.run (e : Env) (s : Ilc) : List IEv → Ilc
  | [] => s
  | v :: vs => Ilc.run e (s.step e v).1 vs

/-- The calls that returned in a schedule, in the order in which they did, with their answers. -/
def Ilc.returned (e : Env) (s : Ilc) : List IEv → List (Call × Resp)
  | [] => []
  | v :: vs => (s.step e v).2.toList ++ Ilc.returned e (s.step e v).1 vs

end Verif
