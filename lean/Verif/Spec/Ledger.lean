import Verif.Spec.Objs

/-!
# The books an application keeps of its objects

Nothing here looks into the library: a ledger is kept from the calls and their answers alone.
-/

namespace Verif

/-- The handles that should name objects: those of the token, and those of each session; and
how many times the library has been initialised and not finalized. -/
structure Ledger where
  inits : Int := 0
  tok : List Nat := []
  loc : Nat → List Nat := fun _ => []

/-- The handles that should name objects in session `h`, of the kind that `k` is of: a handle
shows whether it is one of the token (src/internal.c:112). -/
def Ledger.here (g : Ledger) (h k : Nat) : List Nat := if handleOnToken k then g.tok else g.loc h

/-- A new handle, if one was returned, is entered. -/
def Ledger.enter (g : Ledger) (h : Nat) : Option Nat → Ledger
  | none => g
  | some k =>
    if handleOnToken k then { g with tok := k :: g.tok }
    else { g with loc := fun j => if j = h then k :: g.loc j else g.loc j }

/-- A destroyed one is struck out. -/
def Ledger.strike (g : Ledger) (h k : Nat) : Ledger :=
  if handleOnToken k then { g with tok := g.tok.filter (· != k) }
  else { g with loc := fun j => if j = h then (g.loc j).filter (· != k) else g.loc j }

/-- What is noted after a call: nothing unless it answered `CKR_OK`.  A call that makes objects
returned their handles; closing a session ends its objects, closing all sessions those of all
sessions, as does the last `C_Finalize`, and `C_InitToken` those of the token. -/
def Ledger.note (g : Ledger) (c : Call) (r : Resp) : Ledger :=
  if r.rv ≠ .ok then g
  else
    match c with
    | .cInit => { g with inits := g.inits + 1 }
    | .cFinal => if g.inits = 1 then { g with inits := 0, loc := fun _ => [] } else { g with inits := g.inits - 1 }
    | .slot _ (.initToken ..) => { g with tok := [] }
    | .slot _ .closeAll => { g with loc := fun _ => [] }
    | .sess h .close => { g with loc := fun j => if j = h then [] else g.loc j }
    | .sess h (.destroy k) => g.strike h k
    | .sess h (.create ..) | .sess h (.copy ..) | .sess h (.genKey ..) | .sess h (.genPair ..)
    | .sess h (.unwrap ..) | .sess h (.derive ..) => (g.enter h r.handle).enter h r.priv
    | _ => g

/-- The ledger after a sequence of calls. -/
def ledger (e : Env) : Lib → Ledger → List Call → Ledger
  | _, g, [] => g
  | l, g, c :: cs => ledger e (step e l c).1 (g.note c (answer e l c)) cs

/-- The ledger is right: in every open session exactly the handles entered name objects. -/
def Ledger.Right (e : Env) (l : Lib) (g : Ledger) : Prop :=
  ∀ h k, IsOpen e l h → (Names e l h k ↔ k ∈ g.here h k)

end Verif
