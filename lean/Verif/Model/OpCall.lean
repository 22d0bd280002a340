import Verif.Model.Op

/-!
# The cryptographic calls of a session

One type for the twelve data functions (src/crypto.c:1325-3376) and one function for the
four Init functions, so that the machine and the specifications can range over them.
-/

namespace Verif

/-- The four kinds of operation. -/
inductive Kind where
  | encrypt | decrypt | sign | verify
  deriving DecidableEq, Repr

/-- A data call (everything but the `…Init` functions). -/
inductive DataCall where
  | encrypt (data : Option Bytes) (ob : OutBuf) (rnd : Nat)
  | encryptUpdate (data : Option Bytes) (ob : OutBuf)
  | encryptFinal (ob : OutBuf)
  | decrypt (data : Option Bytes) (ob : OutBuf) (rnd : Nat)
  | decryptUpdate (data : Option Bytes) (ob : OutBuf)
  | decryptFinal (ob : OutBuf)
  | sign (data : Option Bytes) (ob : OutBuf) (rnd : Nat)
  | signUpdate (data : Option Bytes)
  | signFinal (ob : OutBuf)
  | verify (data sig : Option Bytes)
  | verifyUpdate (data : Option Bytes)
  | verifyFinal (sig : Option Bytes)
  deriving DecidableEq, Repr

/-- The kind of operation a data call belongs to. -/
def DataCall.kind : DataCall → Kind
  | .encrypt .. | .encryptUpdate .. | .encryptFinal .. => .encrypt
  | .decrypt .. | .decryptUpdate .. | .decryptFinal .. => .decrypt
  | .sign .. | .signUpdate .. | .signFinal .. => .sign
  | .verify .. | .verifyUpdate .. | .verifyFinal .. => .verify

/-- Make a data call with current key `curr`
(src/crypto.c:1325-1720, 1900-2380, 2600-2900, 3140-3376). -/
def DataCall.run (x : Crypto) (s : OpSt) (curr : Option Obj) : DataCall → OpSt × Out
  | .encrypt d ob r => Verif.encrypt x s curr d ob r
  | .encryptUpdate d ob => Verif.encryptUpdate x s curr d ob
  | .encryptFinal ob => Verif.encryptFinal x s curr ob
  | .decrypt d ob r => Verif.decrypt x s curr d ob r
  | .decryptUpdate d ob => Verif.decryptUpdate x s curr d ob
  | .decryptFinal ob => Verif.decryptFinal x s curr ob
  | .sign d ob r => Verif.sign x s curr d ob r
  | .signUpdate d => Verif.signUpdate s curr d
  | .signFinal ob => Verif.signFinal x s curr ob
  | .verify d sg => Verif.verify x s curr d sg
  | .verifyUpdate d => Verif.verifyUpdate s curr d
  | .verifyFinal sg => Verif.verifyFinal x s curr sg

/-- An Init call of some kind (src/crypto.c:1185-1301, 1760-1877, 2485-2578, 3015-3108). -/
def initCall (x : Crypto) (k : Kind) (s : OpSt) (o : Obj) (m : Mech) (p : MechParam) : OpSt × RV :=
  match k with
  | .encrypt => encryptInit s o m p
  | .decrypt => decryptInit s o m p
  | .sign => signInit x s o m p
  | .verify => verifyInit x s o m p

end Verif
