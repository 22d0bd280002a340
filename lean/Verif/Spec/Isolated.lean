import Verif.Spec.Usage
import Verif.Model.OpCall
/-!
# Calls that are no business of a running operation
-/
namespace Verif

/-- A call that leaves alone the object that session `h` addresses with the handle `k`:
any call except closing the session, all sessions or the library; changing or destroying
an object with this handle; and, if the object is on the token, logging in or out and
initialising the token. -/
def Spares (h k : Nat) : Call → Prop
  | .cInit => True
  | .cFinal => False
  | .slot _ c =>
    match c with
    | .tokenInfo .. | .openSession .. => True
    | .initToken .. => handleOnToken k = false
    | .closeAll => False
  | .sess j c =>
    match c with
    | .close => j ≠ h
    | .setAttr i _ | .destroy i => i ≠ k
    | .login .. | .logout => handleOnToken k = false
    | _ => True

/-- A call of the cryptographic functions in session `h`. -/
def Crypts (h : Nat) : Call → Prop
  | .sess j c =>
    match c with
    | .cryptInit .. | .crypt .. | .wrap .. | .unwrap .. => j = h
    | _ => False
  | _ => False

/-- A call that may be made while an operation with the key of handle `k` runs in session
`h`. -/
def Bystander (h k : Nat) (c : Call) : Prop := Spares h k c ∧ ¬ Crypts h c

/-- The data calls of session `h` among the calls. -/
def dataCalls (h : Nat) : List Call → List DataCall
  | [] => []
  | .sess j (.crypt d) :: cs => if j = h then d :: dataCalls h cs else dataCalls h cs
  | _ :: cs => dataCalls h cs

/-- The state of an operation with the key `o` after some data calls. -/
def afterData (x : Crypto) (o : Obj) (st : OpSt) : List DataCall → OpSt
  | [] => st
  | d :: ds => afterData x o (d.run x st (some o)).1 ds

end Verif
