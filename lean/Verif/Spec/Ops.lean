import Verif.Model.OpCall

/-!
# The cryptographic calls of a session, as a caller sees them
-/

namespace Verif

/-- The output buffer of a data call (`noLen` for calls without one). -/
def DataCall.buf : DataCall → OutBuf
  | .encrypt _ ob _ | .encryptUpdate _ ob | .encryptFinal ob
  | .decrypt _ ob _ | .decryptUpdate _ ob | .decryptFinal ob
  | .sign _ ob _ | .signFinal ob => ob
  | _ => .noLen

/-- The same call with another output buffer. -/
def DataCall.withBuf (ob : OutBuf) : DataCall → DataCall
  | .encrypt d _ r => .encrypt d ob r
  | .encryptUpdate d _ => .encryptUpdate d ob
  | .encryptFinal _ => .encryptFinal ob
  | .decrypt d _ r => .decrypt d ob r
  | .decryptUpdate d _ => .decryptUpdate d ob
  | .decryptFinal _ => .decryptFinal ob
  | .sign d _ r => .sign d ob r
  | .signFinal _ => .signFinal ob
  | c => c

/-- Any cryptographic call on one session. -/
inductive CryptCall where
  | init (k : Kind) (o : Obj) (m : Mech) (p : MechParam)
  | data (c : DataCall)

/-- One cryptographic call on a session: the operation state and the current key
(`session->curr`, assigned by a successful Init). -/
def CryptCall.run (x : Crypto) (st : OpSt × Option Obj) : CryptCall → (OpSt × Option Obj) × Out
  | .init k o m p =>
    let r := initCall x k st.1 o m p
    if r.2 = .ok then ((r.1, some o), { rv := .ok }) else ((r.1, st.2), { rv := r.2 })
  | .data c =>
    let r := c.run x st.1 st.2
    ((r.1, st.2), r.2)

/-- What a sequence of calls leaves. -/
def runCrypt (x : Crypto) : OpSt × Option Obj → List CryptCall → OpSt × Option Obj
  | st, [] => st
  | st, c :: cs => runCrypt x (c.run x st).1 cs

/-- The last Init call of a sequence that returned `CKR_OK`: its kind, key and
mechanism. -/
def lastInit (x : Crypto) : OpSt × Option Obj → List CryptCall → Option (Kind × Obj × Mech) →
    Option (Kind × Obj × Mech)
  | _, [], acc => acc
  | st, c :: cs, acc =>
    lastInit x (c.run x st).1 cs
      (match c with
       | .init k o m _ => if (c.run x st).2.rv = .ok then some (k, o, m) else acc
       | .data _ => acc)

/-- A refused call: nothing written, no length assigned, state unchanged, and one of
the error codes for calls out of order or with bad arguments. -/
def Refused (s : OpSt) (r : OpSt × Out) : Prop :=
  r.1 = s ∧ r.2.wr = [] ∧ r.2.len = none ∧
  (r.2.rv = .operationNotInitialized ∨ r.2.rv = .mechanismInvalid ∨ r.2.rv = .argumentsBad)

instance (s : OpSt) (r : OpSt × Out) : Decidable (Refused s r) := by unfold Refused; infer_instance

end Verif
