import Verif.Model.Threads

/-!
# What calls of several threads may rely on (C87, C88)
-/

namespace Verif.Threads

/-- All calls of thread `t` have returned. -/
def Sys.Returned {n : Nat} (S : Sys n) (t : Fin n) : Prop := S.todo t = []

/-- Thread `t` is about to read (`false`) or write (`true`) `x`. -/
def Sys.About {n : Nat} (S : Sys n) (t : Fin n) (x : Loc) : Bool → Prop
  | false => ∃ as, S.todo t = .read x :: as
  | true => ∃ as, S.todo t = .write x :: as

/-- A data race: two threads can access the same data now, and one of them writes. -/
def Sys.Race {n : Nat} (S : Sys n) (x : Loc) : Prop :=
  ∃ t u w, t ≠ u ∧ S.About t x true ∧ S.About u x w

/-- One thread calls `c` and another one `d`, and some run gets to a data race on `x`. -/
def CanRace (c d : Api) (x : Loc) : Prop :=
  ∃ S : Sys 2, S.Begins (fun t => if t = 0 then [c] else [d]) ∧
    ∃ ts S', S.run ts = some S' ∧ S'.Race x

/-- The calls that touch the data without the lock the others use (C88).  The locks:
for the generator its own lock; for sessions, login state, failure counters, PINs and
storage key the lock of the slot; for the objects of the token and the files the lock
of the token. -/
def unguarded : Loc → List Api
  | .rng => []
  | .sessions => [.cCloseAllSessions]
  | .login => [.cFindObjectsInit]
  | .fails => [.cLogin, .cGetTokenInfo] ++ storing
  | .pin true => [.cLogin, .cSetPIN] ++ storing
  | .pin false => [.cLogin, .cSetPIN, .cInitPIN, .cGetTokenInfo] ++ storing
  | .tokenKey => [.cLogin, .cSetPIN, .cInitPIN] ++ storing
  | .objects => [.cLogin, .cLogout, .cCloseSession, .cSetPIN, .cInitPIN]
  | .obj _ => [.cLogin, .cLogout, .cCloseSession, .cSetPIN, .cInitPIN, .cDestroyObject,
      .cUnwrapKey, .cGenerateKeyPair, .cDeriveKey, .cWrapKey, .cEncrypt, .cDecrypt, .cSign]
  | .store => [.cSetPIN, .cInitPIN]
where
  /-- the calls that write the token while they hold the lock of the token only -/
  storing : List Api := [.cCreateObject, .cCopyObject, .cDestroyObject, .cGenerateKey,
    .cGenerateKeyPair, .cUnwrapKey, .cDeriveKey]

end Verif.Threads
