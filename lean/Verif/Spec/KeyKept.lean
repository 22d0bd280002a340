import Verif.Spec.Isolated
import Verif.Spec.Restart
import Verif.Spec.Usage
import Verif.Spec.Pin

/-!
# Calls that lose no key of the token
-/

namespace Verif

/-- The user's account takes one PIN only. -/
def OnePin (e : Env) (l : Lib) : Prop :=
  ∀ p q : Bytes, 4 ≤ p.length → p.length ≤ 32 → 4 ≤ q.length → q.length ≤ 32 →
    Matches e l.token.user p → Matches e l.token.user q → p = q

/-- Every object of the token is a certificate or a key that wolfCrypt can encode. -/
def AllEncodable (e : Env) (l : Lib) : Prop :=
  ∀ o ∈ tokenObjs l, o.cls = CKO_CERTIFICATE ∨ (o.IsKey ∧ (o.keyBytes e.store).isSome)

/-- The token can be written as it is: its record and its objects fit their C types and all
objects are keys that have their kept form; and if the user is logged in, that form is the
one of the present keys under the present PIN. -/
structure Writable (e : Env) (l : Lib) : Prop where
  record : l.token.toRec.Fits
  objects : ∀ o ∈ tokenObjs l, o.Storable
  current : l.token.login = .user → ∃ pin : Bytes, 4 ≤ pin.length ∧ pin.length ≤ 32 ∧ Matches e l.token.user pin ∧
    ∀ o ∈ tokenObjs l, o.IsKey ∧ o.KeptUnder e.store (e.store.hash pin l.token.seed)

/-- A call in the state `l` that does not give up the token's key with the handle `k`: it
does not change or destroy the object nor initialise the token; the user's PIN is set only
while the user is logged in; a logout happens while the token's keys can be encoded, the
last `C_Finalize` while the token can be written; and a login as the user cannot succeed
with a second PIN. -/
def Minds (e : Env) (k : Nat) (l : Lib) : Call → Prop
  | .cInit => True
  | .cFinal => l.count = 1 → Writable e l
  | .slot _ c =>
    match c with
    | .initToken .. => False
    | _ => True
  | .sess _ c =>
    match c with
    | .setAttr i _ | .destroy i => i ≠ k
    | .initPin _ => l.token.login ≠ .so
    | .setPin .. => l.token.login ≠ .pub
    | .login u _ _ => u = .user → OnePin e l
    | .logout | .close => l.token.login = .user → AllEncodable e l
    | _ => True

/-- Every call of a history is such a call in the state in which it is made. -/
def Minded (e : Env) (k : Nat) : Lib → List Call → Prop
  | _, [] => True
  | l, c :: cs => Minds e k l c ∧ Minded e k (step e l c).1 cs

/-- The user is logged in and the session `h` is open. -/
def UserIn (e : Env) (l : Lib) (h : Nat) : Prop := stateOf e l h = some .rwUser ∨ stateOf e l h = some .roUser

/-- The calls `cs`, made in the state `l`, leave the key with the handle `k` alone, which the
session `h` sees before them and the session `h'` after them.  Either the session is the same
and the calls neither touch the key nor end the session, nor log in or out when it is a key of
the token; or it is a key of the token, the user is logged in before and after, and the calls
are minded. -/
def Untouched (e : Env) (l : Lib) (cs : List Call) (h h' k : Nat) : Prop :=
  (h' = h ∧ ∀ c ∈ cs, Spares h k c) ∨
  (handleOnToken k = true ∧ UserIn e l h ∧ UserIn e (run e l cs) h' ∧ Minded e k l cs)

end Verif
