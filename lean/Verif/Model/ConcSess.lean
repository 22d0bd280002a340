import Verif.Spec.Api

/-!
# Sessions opened and closed by several threads (src/slot.c:721-768, src/internal.c:3596-3681)

`C_OpenSession` is one critical section.  `C_CloseSession` is not: the session is looked up
holding the lock of the slot (`WP11_Session_Get`), then finalized or freed through the pointer
in a second critical section, then the list is searched for sessions in use in a third, and
if there is none `WP11_Slot_Logout` takes the lock once more.  Here `C_CloseSession` is split at
these places; between two parts of it other threads may do anything.

Simplifications: all other calls are made in one go (logins in parts are in `Model/Conc.lean`);
what a thread does between taking the lock and giving it back is one step (by C41 the lock
excludes).
-/

namespace Verif

/-- Where a thread stands in `C_CloseSession`. -/
inductive Sc where
  /-- not in it -/
  | idle
  /-- `WP11_Session_Get` has found session `h` (src/slot.c:761), before the critical section
  of src/internal.c:3658-3669 -/
  | found (h : Nat)
  /-- the pointer to the session or the lock of the slot is no longer valid -/
  | dangling
  /-- the session is finalized or freed (src/internal.c:3658-3669), before the search for sessions in
  use -/
  | finalized
  /-- no session in use was seen (src/internal.c:3671-3678), before `WP11_Slot_Logout` -/
  | leaving
  deriving DecidableEq

/-- The library and its threads, any number of them. -/
structure Ssc where
  lib : Lib
  sc : Nat → Sc := fun _ => .idle

/-- Something happens. -/
inductive SEv where
  /-- a thread makes a whole call -/
  | call (c : Call)
  /-- thread `t` calls `C_CloseSession` and the session is looked up -/
  | close (t h : Nat)
  /-- thread `t` does the next part of its `C_CloseSession` -/
  | go (t : Nat)

/-- What a thread's pointers are worth after the library has changed to `l`: the memory of a
session that is no longer in the list is freed (src/internal.c:3262, 3271), and
`C_Finalize` frees all sessions and the lock (src/internal.c:3352-3359). -/
def Sc.after (l : Lib) : Sc → Sc
  | .idle => .idle
  | .found h => if 0 < l.count ∧ (l.sessions.any fun s => s.handle == h) then .found h else .dangling
  | p => if 0 < l.count then p else .dangling

/-- The library changes. -/
def Ssc.put (s : Ssc) (l : Lib) : Ssc := { lib := l, sc := fun t => (s.sc t).after l }

/-- Thread `t` stands at `p`. -/
def Ssc.at (s : Ssc) (t : Nat) (p : Sc) : Ssc := { s with sc := fun u => if u = t then p else s.sc u }

/-- `C_CloseSession` up to and including the look-up (src/slot.c:759-762). -/
def beginClose (l : Lib) (h : Nat) : Sc × Option Resp :=
  if l.count ≤ 0 then (.idle, some { rv := .cryptokiNotInitialized })
  else
    match getSession l h with
    | none => (.idle, some { rv := .sessionHandleInvalid })
    | some _ => (.found h, none)

/-- One event (`C_CloseSession`, src/slot.c:754-768 with src/internal.c:3652-3681, in parts; other
calls whole), and the answer to a thread, if any. A thread inside a call cannot make another one. -/
def Ssc.step (e : Env) (s : Ssc) : SEv → Ssc × Option Resp
  | .call c => (s.put (Verif.step e s.lib c).1, some (Verif.step e s.lib c).2)
  | .close t h =>
    if s.lib.bad then (s, some { rv := .ub })
    else if s.sc t = .idle then (s.at t (beginClose s.lib h).1, (beginClose s.lib h).2)
    else (s, none)
  | .go t =>
    if s.lib.bad then (s, none)
    else
      match s.sc t with
      | .idle => (s, none)
      | .found h => ((s.put { s.lib with sessions := closeOne s.lib.sessions h }).at t .finalized, none)
      | .dangling => ((s.put { s.lib with bad := true }).at t .idle, some { rv := .ub })
      | .finalized =>
        if anyInUse s.lib.sessions then (s.at t .idle, some { rv := .ok }) else (s.at t .leaving, none)
      | .leaving => ((s.put (logout e s.lib)).at t .idle, some { rv := .ok })

/-- The state after a schedule. -/
def Ssc.run (e : Env) (s : Ssc) : List SEv → Ssc
  | [] => s
  | v :: vs => Ssc.run e (s.step e v).1 vs

/-- The answers given in a schedule, in order. -/
def Ssc.returns (e : Env) (s : Ssc) : List SEv → List Resp
  | [] => []
  | v :: vs => (s.step e v).2.toList ++ Ssc.returns e (s.step e v).1 vs

end Verif
