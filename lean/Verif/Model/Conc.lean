import Verif.Spec.Pin

/-!
# Logins of several threads (src/slot.c:912-958, src/internal.c:3808-4061)

`C_Login` is not one critical section: the lock of the slot is taken and given back
several times, and the hash of the PIN is computed outside it.  Here a login is split at
these places; between two parts of one thread's login other threads may do anything.

Simplifications: all other calls are made in one go; what a thread does between taking
the lock and giving it back is one step (by C41 the lock excludes; the reset of the
counter of the security officer in src/internal.c:3914 is done holding it for
reading only); an unlocked computation reads the token at one moment.
-/

namespace Verif

/-- Where a thread stands in `C_Login`. -/
inductive Pc where
  /-- not in `C_Login` -/
  | idle
  /-- the arguments are checked (src/slot.c:919-927), before the first critical section of
  `WP11_Slot_SOLogin`, `WP11_Slot_UserLogin` -/
  | called (w : Who) (pin : Bytes) (now : Int)
  /-- past src/internal.c:3929 or 4011, before `WP11_Slot_CheckSOPin`, `_CheckUserPin` -/
  | admitted (w : Who) (pin : Bytes) (now : Int)
  /-- a PIN is set (src/internal.c:3814-3819, 3851-3857); before the hash is computed -/
  | hashing (w : Who) (pin : Bytes) (now : Int)
  /-- the hash is computed, before the comparison -/
  | comparing (w : Who) (pin : Bytes) (now : Int) (hash : Bytes)
  /-- compared, before the counters are changed -/
  | checked (w : Who) (pin : Bytes) (now : Int) (ok : Bool)
  /-- only the user: the storage key is computed (src/internal.c:4016-4019) -/
  | keyed (now : Int)
  /-- counters cleared, before the login state is set -/
  | entering (w : Who)
  deriving DecidableEq, Repr

/-- Assignment to the counters of an account (src/internal.c:3914, 3935-3949, 4004,
4023-4041). -/
def setAcct (l : Lib) (w : Who) (a : Account) : Lib :=
  match w with
  | .so => { l with token := { l.token with so := a } }
  | .user => { l with token := { l.token with user := a } }

/-- The login state set at the end (src/internal.c:3953-3957, 4053-4057). -/
def Who.login : Who → Login
  | .so => .so
  | .user => .user

/-- The first critical section (src/internal.c:3899-3929 for the security officer,
3989-4011 for the user). -/
def admit (l : Lib) (w : Who) (pin : Bytes) (now : Int) : Lib × Pc × Option RV :=
  if l.token.login ≠ .pub then (l, .idle, some .userAlreadyLoggedIn)
  else
    match lockCheck (w.acct l.token) now with
    | none => (l, .idle, some .pinIncorrect)
    | some a =>
      if w = .so ∧ l.sessions.any (fun s => s.use == .ro) then
        (setAcct l w a, .idle, some .sessionReadOnlyExists)
      else (setAcct l w a, .admitted w pin now, none)

/-- The user's critical section after the right PIN (src/internal.c:4033-4050): the
counters are cleared and the objects decoded with the storage key the token has now. -/
def unlockObjs (e : Env) (l : Lib) : Lib × Pc × Option RV :=
  let r := decodeAll e.store l.token.key l.token.objs
  let l1 := { l with token := { l.token with user := succeeded l.token.user, objs := r.2 } }
  match r.1 with
  | .ok => (l1, .entering .user, none)
  | .ub => ({ l1 with bad := true }, .idle, some .ub)
  | _ => (l1, .idle, some .pinIncorrect)

/-- The next part of a thread's login: the library, where the thread stands then, and the
status if `C_Login` returns (src/internal.c:3808-4061). -/
def advance (e : Env) (l : Lib) : Pc → Lib × Pc × Option RV
  | .idle => (l, .idle, none)
  | .called w pin now => admit l w pin now
  | .admitted w pin now =>
    if l.token.init = false ∨ (w.acct l.token).pin = [] then (l, .idle, some .userPinNotInitialized)
    else (l, .hashing w pin now, none)
  | .hashing w pin now => (l, .comparing w pin now (e.store.hash pin (w.acct l.token).seed), none)
  | .comparing w pin now h =>
    (l, .checked w pin now (decide (h.take (w.acct l.token).pin.length = (w.acct l.token).pin)), none)
  | .checked w _ now false =>
    (setAcct l w (failed (w.acct l.token) now w.penalty), .idle, some .pinIncorrect)
  | .checked .so _ _ true => (setAcct l .so (succeeded l.token.so), .entering .so, none)
  | .checked .user pin now true =>
    ({ l with token := { l.token with key := e.store.hash pin l.token.seed } }, .keyed now, none)
  | .keyed _ => unlockObjs e l
  | .entering w => ({ l with token := { l.token with login := w.login } }, .idle, some .ok)

/-- The library and its threads, any number of them. -/
structure Conc where
  lib : Lib
  pc : Nat → Pc := fun _ => .idle

/-- Something happens. -/
inductive Ev where
  /-- a thread makes a whole call -/
  | call (c : Call)
  /-- thread `t` calls `C_Login` on session `h` and its arguments are checked -/
  | login (t h : Nat) (w : Who) (pin : Bytes) (now : Int)
  /-- thread `t` does the next part of its login -/
  | go (t : Nat)

/-- Thread `t` stands at `p`. -/
def Conc.at (s : Conc) (t : Nat) (p : Pc) : Conc := { s with pc := fun u => if u = t then p else s.pc u }

/-- The checks of the arguments in `C_Login` (src/slot.c:919-927). -/
def beginLogin (l : Lib) (h : Nat) (w : Who) (pin : Bytes) (now : Int) : Pc × Option RV :=
  if l.count ≤ 0 then (.idle, some .cryptokiNotInitialized)
  else if (getSession l h).isNone then (.idle, some .sessionHandleInvalid)
  else if !pinLenOk pin then (.idle, some .pinIncorrect)
  else (.called w pin now, none)

/-- One event (`C_Login`, src/slot.c:912-958, in parts; other calls whole), and the status
returned to a thread, if any.  A thread in `C_Login` cannot call it again before it
returns. -/
def Conc.step (e : Env) (s : Conc) : Ev → Conc × Option RV
  | .call c => ({ s with lib := (Verif.step e s.lib c).1 }, some (Verif.step e s.lib c).2.rv)
  | .login t h w pin now =>
    if s.lib.bad then (s, some .ub)
    else if s.pc t = .idle then
      (s.at t (beginLogin s.lib h w pin now).1, (beginLogin s.lib h w pin now).2)
    else (s, none)
  | .go t =>
    if s.lib.bad then (s, none)
    else
      let r := advance e s.lib (s.pc t)
      ({ s with lib := r.1 }.at t r.2.1, r.2.2)

/-- The state after a schedule. -/
def Conc.run (e : Env) (s : Conc) : List Ev → Conc
  | [] => s
  | v :: vs => Conc.run e (s.step e v).1 vs

/-- The statuses returned in a schedule, in order. -/
def Conc.returns (e : Env) (s : Conc) : List Ev → List RV
  | [] => []
  | v :: vs => (s.step e v).2.toList ++ Conc.returns e (s.step e v).1 vs

end Verif
