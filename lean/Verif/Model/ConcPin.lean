import Verif.Model.Conc

/-!
# PIN changes of several threads (src/slot.c:602-698, src/internal.c:3808-3870, 4073-4155)

`C_SetPIN` and `C_InitPIN` are not one critical section either: the state of the session,
the old PIN, the new seed and the new length are looked at or written in separate ones, and
the hash of the new PIN is computed outside the lock, from the seed the token has then,
straight into the token.  Here these calls are split at these places; logins are split as
in Model/Conc.

Simplifications: as in Model/Conc; an unlocked computation of a hash reads the seed at one
moment and writes the hash at one later moment; the random numbers of a thread's two seeds
are drawn in one go (the lock of the generator is held).
-/

namespace Verif

/-- Where a thread stands in `C_SetPIN` or `C_InitPIN`. -/
inductive Sp where
  /-- not in one of them -/
  | idle
  /-- `C_SetPIN`: arguments and session checked (src/slot.c:656-671), before
  `WP11_Slot_CheckSOPin`, `_CheckUserPin` -/
  | old (w : Who) (old new : Bytes)
  /-- a PIN is set (src/internal.c:3814-3819, 3851-3857), before the hash of the old PIN -/
  | oldHash (w : Who) (old new : Bytes)
  /-- the hash of the old PIN is computed, before the comparison -/
  | oldCmp (w : Who) (hash new : Bytes)
  /-- before `WP11_Slot_SetSOPin`, `_SetUserPin` (`C_InitPIN` begins here) -/
  | start (w : Who) (new : Bytes)
  /-- new seeds drawn (src/internal.c:4078-4086, 4119-4133), before the hash is computed -/
  | seeded (w : Who) (new : Bytes)
  /-- the hash is computed, before it is written into the token -/
  | hashed (w : Who) (new hash : Bytes)
  /-- only the user: the hash is written, before the storage key is computed -/
  | pinned (new : Bytes)
  /-- only the user: the storage key is computed, before it is written -/
  | keyHashed (new key : Bytes)
  /-- before the last critical section (src/internal.c:4091-4099, 4144-4152) -/
  | storing (w : Who) (new : Bytes)
  deriving DecidableEq, Repr

/-- The library, its threads, and the two arrays `soPin`, `userPin` of the token, which are
written before `soPinLen`, `userPinLen` say that they hold something. -/
structure Chg where
  base : Conc
  raw : Who → Bytes := fun _ => []
  sp : Nat → Sp := fun _ => .idle

/-- Something happens. -/
inductive PEv where
  /-- a call, or a part of a login -/
  | base (v : Ev)
  /-- thread `t` calls `C_SetPIN` and its arguments are checked -/
  | setPin (t h : Nat) (old new : Bytes)
  /-- thread `t` calls `C_InitPIN` and its arguments are checked -/
  | initPin (t h : Nat) (new : Bytes)
  /-- thread `t` does the next part of its `C_SetPIN`, `C_InitPIN` -/
  | go (t : Nat)

/-- The checks of the arguments in `C_SetPIN` (src/slot.c:656-671) and the choice of the
account (src/slot.c:674-693). -/
def beginSet (l : Lib) (h : Nat) (old new : Bytes) : Sp × Option RV :=
  if l.count ≤ 0 then (.idle, some .cryptokiNotInitialized)
  else
    match getSession l h with
    | none => (.idle, some .sessionHandleInvalid)
    | some s =>
      if !pinLenOk old then (.idle, some .pinIncorrect)
      else if !pinLenOk new then (.idle, some .pinIncorrect)
      else
        match sessState l s with
        | .rwSo => (.old .so old new, none)
        | .rwUser | .rwPublic => (.old .user old new, none)
        | _ => (.idle, some .sessionReadOnly)

/-- The checks of the arguments in `C_InitPIN` (src/slot.c:609-619). -/
def beginInit (l : Lib) (h : Nat) (new : Bytes) : Sp × Option RV :=
  if l.count ≤ 0 then (.idle, some .cryptokiNotInitialized)
  else
    match getSession l h with
    | none => (.idle, some .sessionHandleInvalid)
    | some s =>
      if sessState l s ≠ .rwSo then (.idle, some .userNotLoggedIn)
      else if !pinLenOk new then (.idle, some .pinIncorrect)
      else (.start .user new, none)

/-- New seeds (src/internal.c:4078-4086, 4119-4133): one for the hash, for the user one
more for the storage key. -/
def drawSeeds (e : Env) (l : Lib) : Who → Lib
  | .so => { l with rng := l.rng + 1, token := { l.token with
      so := { l.token.so with seed := e.store.rand l.rng 16 } } }
  | .user => { l with rng := l.rng + 2, token := { l.token with
      user := { l.token.user with seed := e.store.rand l.rng 16 }, seed := e.store.rand (l.rng + 1) 16 } }

/-- The array `soPin`, `userPin` is written (src/internal.c:4088-4090, 4135-4137): if a PIN
was set before, it is another one from now on. -/
def writePin (l : Lib) (w : Who) (hash : Bytes) : Lib :=
  if (w.acct l.token).pin = [] then l else setAcct l w { w.acct l.token with pin := hash }

/-- The length is set and the token stored (src/internal.c:4093-4099, 4146-4152). -/
def commitPin (e : Env) (l : Lib) (w : Who) (raw : Bytes) : Lib × RV :=
  let r := Lib.store e (setAcct l w { w.acct l.token with pin := raw })
  (r.1, if r.2 then .ok else .functionFailed)

/-- What follows the hash of the new PIN (src/internal.c:4091, 4138-4143): for the user the
storage key. -/
def afterHash : Who → Bytes → Sp
  | .so, n => .storing .so n
  | .user, n => .pinned n

/-- The next part of a thread's PIN change: the library, the array written (if one is),
where the thread stands then, and the status if the call returns
(src/internal.c:3808-3870, 4073-4155, src/slot.c:674-697). -/
def advanceSet (e : Env) (l : Lib) (raw : Who → Bytes) : Sp → Lib × (Who → Bytes) × Sp × Option RV
  | .idle => (l, raw, .idle, none)
  | .old w o n =>
    if l.token.init = false ∨ (w.acct l.token).pin = [] then (l, raw, .idle, some .userPinNotInitialized)
    else (l, raw, .oldHash w o n, none)
  | .oldHash w o n => (l, raw, .oldCmp w (e.store.hash o (w.acct l.token).seed) n, none)
  | .oldCmp w h n =>
    if h.take (w.acct l.token).pin.length = (w.acct l.token).pin then (l, raw, .start w n, none)
    else (l, raw, .idle, some .pinIncorrect)
  | .start w n => (drawSeeds e l w, raw, .seeded w n, none)
  | .seeded w n => (l, raw, .hashed w n (e.store.hash n (w.acct l.token).seed), none)
  | .hashed w n h =>
    (writePin l w h, (fun v => if v = w then h else raw v),
      afterHash w n, none)
  | .pinned n => (l, raw, .keyHashed n (e.store.hash n l.token.seed), none)
  | .keyHashed n k => ({ l with token := { l.token with key := k } }, raw, .storing .user n, none)
  | .storing w _ => ((commitPin e l w (raw w)).1, raw, .idle, some (commitPin e l w (raw w)).2)

/-- Thread `t` stands at `p` (the local variables of `C_SetPIN`, `C_InitPIN`,
src/slot.c:602-698). -/
def Chg.at (s : Chg) (t : Nat) (p : Sp) : Chg := { s with sp := fun u => if u = t then p else s.sp u }

/-- The arrays after a whole call (src/internal.c:2978-2993, 4088-4094, 4135-4147): what the
lengths say they hold. Simplification: what they hold while the length is 0 is never read,
since every thread writes the array before it sets the length. -/
def syncRaw (l : Lib) (raw : Who → Bytes) : Who → Bytes :=
  fun w => if (w.acct l.token).pin = [] then raw w else (w.acct l.token).pin

/-- One event (`C_SetPIN`, `C_InitPIN`, src/slot.c:602-698, in parts; `C_Login` in parts;
other calls whole), and the status returned to a thread, if any. A thread is in one call at
a time. -/
def Chg.step (e : Env) (s : Chg) : PEv → Chg × Option RV
  | .base (.login t h w pin now) =>
    if s.sp t = .idle then
      ({ s with base := (s.base.step e (.login t h w pin now)).1 }, (s.base.step e (.login t h w pin now)).2)
    else (s, none)
  | .base v =>
    ({ s with base := (s.base.step e v).1, raw := syncRaw (s.base.step e v).1.lib s.raw }, (s.base.step e v).2)
  | .setPin t h old new =>
    if s.base.lib.bad then (s, some .ub)
    else if s.sp t = .idle ∧ s.base.pc t = .idle then
      (s.at t (beginSet s.base.lib h old new).1, (beginSet s.base.lib h old new).2)
    else (s, none)
  | .initPin t h new =>
    if s.base.lib.bad then (s, some .ub)
    else if s.sp t = .idle ∧ s.base.pc t = .idle then
      (s.at t (beginInit s.base.lib h new).1, (beginInit s.base.lib h new).2)
    else (s, none)
  | .go t =>
    if s.base.lib.bad then (s, none)
    else
      let r := advanceSet e s.base.lib s.raw (s.sp t)
      ({ s with base := { s.base with lib := r.1 }, raw := r.2.1 }.at t r.2.2.1, r.2.2.2)

/-- The state after a schedule. -/
def Chg.run (e : Env) (s : Chg) : List PEv → Chg
  | [] => s
  | v :: vs => Chg.run e (s.step e v).1 vs

/-- The statuses returned in a schedule, in order. -/
def Chg.returns (e : Env) (s : Chg) : List PEv → List RV
  | [] => []
  | v :: vs => (s.step e v).2.toList ++ Chg.returns e (s.step e v).1 vs

end Verif
