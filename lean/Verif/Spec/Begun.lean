import Verif.Spec.Wrap
import Verif.Spec.Ops

/-!
# Which operation a session has begun
-/

namespace Verif

/-- The operation begun in session `h`, while it stays open: that of the call when it is a
successful Init in `h`, and that begun before otherwise. -/
def initSeen (e : Env) (h : Nat) (l : Lib) (acc : Option (Kind × Mech × Nat)) : Call → Option (Kind × Mech × Nat)
  | .sess j (.cryptInit k (some (m, p)) key) =>
    if j = h ∧ (answer e l (.sess j (.cryptInit k (some (m, p)) key))).rv = .ok then some (k, m, key) else acc
  | _ => acc

/-- The operation begun in session `h` (its kind, mechanism and key handle), after one more
call: none while the session is closed, that of the last successful Init otherwise. -/
def noted (e : Env) (h : Nat) (l : Lib) (acc : Option (Kind × Mech × Nat)) (c : Call) : Option (Kind × Mech × Nat) :=
  if (sessionInfo e (step e l c).1 h).rv = .ok then
    initSeen e h l acc c
  else none

/-- The operation begun in session `h` by a history. -/
def begun (e : Env) (h : Nat) (l : Lib) : List Call → Option (Kind × Mech × Nat) → Option (Kind × Mech × Nat)
  | [], acc => acc
  | c :: cs, acc => begun e h (step e l c).1 cs (noted e h l acc c)

/-- A data call that is refused: an error code for calls out of order or with bad arguments;
nothing is written, no length assigned, and the operation is as before. -/
def DataRefused (e : Env) (l : Lib) (h : Nat) (d : DataCall) : Prop :=
  let c : Call := .sess h (.crypt d)
  (answer e l c).rv ∈ [RV.cryptokiNotInitialized, .sessionHandleInvalid, .argumentsBad, .operationNotInitialized,
    .mechanismInvalid] ∧
  (∀ o, (answer e l c).out = some o → o.wr = [] ∧ o.len = none) ∧
  operation (step e l c).1 h = operation l h

/-- `C_WrapKey` or `C_UnwrapKey` in session `h`. -/
def WrapsIn (h : Nat) : Call → Prop
  | .sess j c => j = h ∧ c.Wraps
  | _ => False

/-- `C_WrapKey` in session `h` that answers the length, or that the buffer is too small. -/
def HalfDone (e : Env) (l : Lib) (h : Nat) : Call → Prop
  | .sess j (.wrap m wk key (.query n)) => j = h ∧ (answer e l (.sess j (.wrap m wk key (.query n)))).rv = .ok
  | .sess j (.wrap m wk key ob) => j = h ∧ (answer e l (.sess j (.wrap m wk key ob))).rv = .bufferTooSmall
  | _ => False

instance (e : Env) (l : Lib) (h : Nat) (c : Call) : Decidable (HalfDone e l h c) := by
  unfold HalfDone
  split <;> infer_instance

end Verif
