import Verif.Spec.ConcPin

/-!
# Who may change a PIN, when several threads do
-/

namespace Verif

/-- The library after a schedule. -/
def libAfter (e : Env) (s : Chg) (vs : List PEv) : Lib := (s.run e vs).base.lib

/-- Thread `t` has not left its call since: at every moment of the events `vs` it is inside. -/
def Inside (e : Env) (s : Chg) (t : Nat) (vs : List PEv) : Prop :=
  ∀ a b, vs = a ++ b → (s.run e a).sp t ≠ .idle

/-- In the state of session `h` `C_SetPIN` changes the PIN of account `w`. -/
def Changes (e : Env) (l : Lib) (h : Nat) : Who → Prop
  | .so => stateOf e l h = some .rwSo
  | .user => stateOf e l h = some .rwUser ∨ stateOf e l h = some .rwPublic

/-- In the schedule `vs` thread `t` has called `C_InitPIN`, in a read/write session in which the
security officer was logged in, and is still in that call. -/
def AsOfficer (e : Env) (s : Chg) (t : Nat) (w : Who) (vs : List PEv) : Prop :=
  w = .user ∧ ∃ a b h n, vs = a ++ .initPin t h n :: b ∧ stateOf e (libAfter e s a) h = some .rwSo ∧
    Inside e (s.run e (a ++ [.initPin t h n])) t b

/-- In the schedule `vs` thread `t` has called `C_SetPIN` with an old PIN, in a session from which
the PIN of this account is changed, and is still in that call; the hash of the old PIN with the
seed of the account at one moment of the call was the stored one at a later moment of the call. -/
def WithOldPin (e : Env) (s : Chg) (t : Nat) (w : Who) (vs : List PEv) : Prop :=
  ∃ a b c d h o n, vs = a ++ .setPin t h o n :: (b ++ c ++ d) ∧
    Changes e (libAfter e s a) h w ∧
    Inside e (s.run e (a ++ [.setPin t h o n])) t (b ++ c ++ d) ∧
    (let seed := (w.acct (libAfter e s (a ++ .setPin t h o n :: b)).token).seed
     let pin := (w.acct (libAfter e s (a ++ .setPin t h o n :: (b ++ c))).token).pin
     (e.store.hash o seed).take pin.length = pin)

end Verif
