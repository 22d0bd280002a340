import Verif.Model.Lock

/-!
# What a read/write lock promises (C41, C42)

`Writing` and `Reading` say when a thread is between the return of a lock call
and the start of the matching unlock call.
-/

namespace Verif.Lock

/-- Thread `t` has write access: `WP11_Lock_LockRW` has returned. -/
def Writing {n : Nat} (s : State n) (t : Fin n) : Prop := s.pc t = .critW

/-- Thread `t` has read access: it holds at least one read lock and may be
running, or be inside a nested lock or unlock call. -/
def Reading {n : Nat} (s : State n) (t : Fin n) : Prop :=
  ∃ d, s.pc t = .rest (d + 1) ∨ s.pc t = .wantR (d + 1) ∨ s.pc t = .r1 (d + 1) ∨
    s.pc t = .r2 (d + 1) ∨ s.pc t = .r3 (d + 1) ∨ s.pc t = .u0 d ∨
    s.pc t = .u1 (d + 1) ∨ s.pc t = .u2 (d + 1)

/-- A thread that is not using the lock at all. -/
def Outside {n : Nat} (s : State n) (t : Fin n) : Prop := s.pc t = .rest 0

/-- Thread `t` is waiting to get access or to give it back. -/
def Pending {n : Nat} (s : State n) (t : Fin n) : Prop :=
  ¬ Outside s t ∧ ¬ Writing s t ∧ ∀ d, s.pc t ≠ .rest (d + 1)

end Verif.Lock
