import Verif.Spec.Lock

/-!
# Waiting for the read/write lock (C122)

Executions that go on for ever: at each time one thread takes a step of the lock
functions, or nobody does.
-/

namespace Verif.Lock

/-- An execution without end, from the freshly initialised lock. -/
structure Exec (n : Nat) where
  st : Nat → State n
  who : Nat → Option (Fin n)
  start : st 0 = init n
  pause : ∀ i, who i = none → st (i + 1) = st i
  next : ∀ i t, who i = some t → Step (st i) t (st (i + 1))

/-- Thread `t` could go on now. -/
def Able {n : Nat} (s : State n) (t : Fin n) : Prop := ∃ s', Step s t s'

/-- The scheduler and the mutexes are fair: a thread that is inside one of the lock
functions, or holds the lock for writing, and could go on again and again does so
again and again.  Nothing is said about threads that do not use the lock and nothing
about threads in a read section: these may stay there as long as they like. -/
def Exec.Fair {n : Nat} (x : Exec n) : Prop :=
  ∀ t, (∀ i, ∃ j, i ≤ j ∧ (Pending (x.st j) t ∨ Writing (x.st j) t) ∧ Able (x.st j) t) →
    ∀ i, ∃ j, i ≤ j ∧ x.who j = some t

/-- No thread has read access, or is on its way to it with the internal mutex held,
or is giving it back.  Threads may be waiting at the door. -/
def Quiet {n : Nat} (s : State n) : Prop :=
  ∀ t, Outside s t ∨ Writing s t ∨ s.pc t = .wantW ∨ s.pc t = .wantR 0

end Verif.Lock
