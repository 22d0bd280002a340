import Verif.Model.Api

/-!
# Histories of API calls, as a caller sees them
-/

namespace Verif

/-- A process in which the library has never been initialised; the directory with the
stored token is arbitrary. -/
structure Start (l : Lib) : Prop where
  count : l.count = 0
  sessions : l.sessions = []
  token : l.token = {}
  bad : l.bad = false

/-- What a call answers. -/
def answer (e : Env) (l : Lib) (c : Call) : Resp := (step e l c).2

/-- What `C_GetSessionInfo` answers. -/
def sessionInfo (e : Env) (l : Lib) (h : Nat) : Resp := answer e l (.sess h (.info true))

/-- A session handle is open: `C_GetSessionInfo` accepts it. -/
def IsOpen (e : Env) (l : Lib) (h : Nat) : Prop := (sessionInfo e l h).rv = .ok

/-- The session is open with the given mode (`true` is read/write). -/
def OpenAs (e : Env) (l : Lib) (h : Nat) (rw : Bool) : Prop :=
  ∃ st, sessionInfo e l h = { rv := .ok, state := some (st, rw) }

/-- The library is initialised: `C_GetTokenInfo` works. -/
def Initialised (e : Env) (l : Lib) : Prop := (answer e l (.slot 1 (.tokenInfo true 0))).rv = .ok

/-- `C_OpenSession` with valid arguments. -/
def openCall (rw : Bool) : Call := .slot 1 (.openSession rw true true)

/-- `C_CloseSession`. -/
def closeCall (h : Nat) : Call := .sess h .close

/-- `C_CloseAllSessions`. -/
def closeAllCall : Call := .slot 1 .closeAll

/-- Number of `C_Initialize` calls. -/
def inits : List Call → Nat
  | [] => 0
  | .cInit :: cs => inits cs + 1
  | _ :: cs => inits cs

/-- Number of `C_Finalize` calls. -/
def finals : List Call → Nat
  | [] => 0
  | .cFinal :: cs => finals cs + 1
  | _ :: cs => finals cs

end Verif
