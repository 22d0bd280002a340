import Mathlib.Algebra.BigOperators.Group.Finset.Basic
import Mathlib.Data.Fintype.Basic

/-!
# The read/write lock

Model of `WP11_Lock` (src/internal.c:370-491): two mutexes `read` and `write`
and a reader count `cnt`.  Each mutex operation and each read-modify-write of
`cnt` is one atomic step of one thread; the steps of `n` threads interleave
arbitrarily.

Simplifications: mutex operations do not fail (the `BAD_MUTEX_E` paths);
`SINGLE_THREADED` is off.  The `write` mutex is modelled as a bit and not as an
owned mutex because the code locks it in the first reader and unlocks it in the
last reader, which may be another thread.
-/

namespace Verif.Lock

/-- Where a thread stands.  The number is the count of read locks the thread
holds completely (calls of `WP11_Lock_LockRO` that have returned and have not
been undone), so that nested read locking is covered.
src/internal.c:406-491. -/
inductive PC where
  /-- outside the lock functions, holding `d` read locks and no write lock -/
  | rest (d : Nat)
  /-- in `WP11_Lock_LockRW`, before `wc_LockMutex(&lock->write)`; line 410 -/
  | wantW
  /-- `WP11_Lock_LockRW` has returned -/
  | critW
  /-- in `WP11_Lock_LockRO`, before `wc_LockMutex(&lock->read)`; line 449 -/
  | wantR (d : Nat)
  /-- holds `read`, before `++lock->cnt == 1`; line 451 -/
  | r1 (d : Nat)
  /-- holds `read`, has made `cnt` 1, before `wc_LockMutex(&lock->write)`; line 452 -/
  | r2 (d : Nat)
  /-- holds `read`, before `wc_UnLockMutex(&lock->read)`; line 458 -/
  | r3 (d : Nat)
  /-- in `WP11_Lock_UnlockRO`, before `wc_LockMutex(&lock->read)`; line 476.
  The thread still holds `d+1` read locks. -/
  | u0 (d : Nat)
  /-- holds `read`, before `--lock->cnt == 0` and the unlock of `write`; line 478 -/
  | u1 (d : Nat)
  /-- holds `read`, has decremented, before `wc_UnLockMutex(&lock->read)`; line 485 -/
  | u2 (d : Nat)
deriving DecidableEq

/-- The lock and the program counters of its `n` threads.
wolfpkcs11/internal.h / src/internal.c:128-132 (`WP11_Lock`). -/
structure State (n : Nat) where
  readOwner : Option (Fin n)
  writeHeld : Bool
  cnt : Nat
  pc : Fin n → PC

/-- `WP11_Lock_Init` (src/internal.c:370-386): both mutexes free, `cnt = 0`,
and no thread uses the lock yet. -/
def init (n : Nat) : State n :=
  { readOwner := none, writeHeld := false, cnt := 0, pc := fun _ => PC.rest 0 }

/-- Thread `t` moves to program counter `p`, the lock fields change as given. -/
def State.goto {n : Nat} (s : State n) (t : Fin n) (p : PC) : State n :=
  { s with pc := Function.update s.pc t p }

/-- One atomic step of thread `t`.  src/internal.c:406-491. -/
inductive Step {n : Nat} : State n → Fin n → State n → Prop
  /-- a thread without locks calls `WP11_Lock_LockRW` -/
  | callW (s t) : s.pc t = .rest 0 → Step s t (s.goto t .wantW)
  /-- line 410: `wc_LockMutex(&lock->write)` succeeds when the mutex is free -/
  | lockW (s t) : s.pc t = .wantW → s.writeHeld = false →
      Step s t ({ s with writeHeld := true }.goto t .critW)
  /-- line 432: `wc_UnLockMutex(&lock->write)` -/
  | unlockW (s t) : s.pc t = .critW →
      Step s t ({ s with writeHeld := false }.goto t (.rest 0))
  /-- a thread calls `WP11_Lock_LockRO`, possibly while holding read locks -/
  | callR (s t d) : s.pc t = .rest d → Step s t (s.goto t (.wantR d))
  /-- line 449: `wc_LockMutex(&lock->read)` -/
  | lockRead (s t d) : s.pc t = .wantR d → s.readOwner = none →
      Step s t ({ s with readOwner := some t }.goto t (.r1 d))
  /-- line 451: `++lock->cnt == 1` true: the write mutex is needed -/
  | incFirst (s t d) : s.pc t = .r1 d → s.cnt + 1 = 1 →
      Step s t ({ s with cnt := s.cnt + 1 }.goto t (.r2 d))
  /-- line 451: `++lock->cnt == 1` false -/
  | incMore (s t d) : s.pc t = .r1 d → s.cnt + 1 ≠ 1 →
      Step s t ({ s with cnt := s.cnt + 1 }.goto t (.r3 d))
  /-- line 452: `wc_LockMutex(&lock->write)` -/
  | firstLocksWrite (s t d) : s.pc t = .r2 d → s.writeHeld = false →
      Step s t ({ s with writeHeld := true }.goto t (.r3 d))
  /-- line 458: `wc_UnLockMutex(&lock->read)`; `WP11_Lock_LockRO` returns -/
  | unlockRead (s t d) : s.pc t = .r3 d →
      Step s t ({ s with readOwner := none }.goto t (.rest (d + 1)))
  /-- a thread holding a read lock calls `WP11_Lock_UnlockRO` -/
  | callU (s t d) : s.pc t = .rest (d + 1) → Step s t (s.goto t (.u0 d))
  /-- line 476: `wc_LockMutex(&lock->read)` -/
  | uLockRead (s t d) : s.pc t = .u0 d → s.readOwner = none →
      Step s t ({ s with readOwner := some t }.goto t (.u1 d))
  /-- lines 478-479: `--lock->cnt == 0`, then `wc_UnLockMutex(&lock->write)`.
  The two are one step: the `read` mutex is held and only its holder changes
  `cnt`. -/
  | decLast (s t d) : s.pc t = .u1 d → s.cnt - 1 = 0 →
      Step s t ({ s with cnt := s.cnt - 1, writeHeld := false }.goto t (.u2 d))
  /-- line 478: `--lock->cnt == 0` false -/
  | decMore (s t d) : s.pc t = .u1 d → s.cnt - 1 ≠ 0 →
      Step s t ({ s with cnt := s.cnt - 1 }.goto t (.u2 d))
  /-- line 485: `wc_UnLockMutex(&lock->read)`; `WP11_Lock_UnlockRO` returns -/
  | uUnlockRead (s t d) : s.pc t = .u2 d →
      Step s t ({ s with readOwner := none }.goto t (.rest d))

/-- States reachable from a freshly initialised lock by any interleaving. -/
inductive Reachable {n : Nat} : State n → Prop
  | init : Reachable (init n)
  | step {s s' : State n} {t : Fin n} : Reachable s → Step s t s' → Reachable s'

end Verif.Lock
