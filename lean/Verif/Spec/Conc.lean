import Verif.Model.Conc

/-!
# Schedules of several threads, as a caller understands them
-/

namespace Verif

/-- The account a thread is logging in to, if it is inside `C_Login`. -/
def Pc.who : Pc → Option Who
  | .idle => none
  | .called w _ _ | .admitted w _ _ | .hashing w _ _ | .comparing w _ _ _ | .checked w _ _ _
  | .entering w => some w
  | .keyed _ => some .user

/-- No thread is inside `C_Login`. -/
def Conc.Quiet (s : Conc) : Prop := ∀ t, s.pc t = .idle

/-- No call of `C_OpenSession` for a read-only session is made while a thread is inside a
login as security officer. -/
def OpensApart (e : Env) : Conc → List Ev → Prop
  | _, [] => True
  | s, v :: vs =>
    (∀ i a b, v = .call (.slot i (.openSession false a b)) → ∀ t, (s.pc t).who ≠ some .so) ∧
    OpensApart e (s.step e v).1 vs

/-- A wrong PIN is counted at this event: the thread has found the PIN wrong and says so. -/
def CountsWrong (s : Conc) (w : Who) : Ev → Prop
  | .go t => s.lib.bad = false ∧ ∃ pin now, s.pc t = .checked w pin now false
  | _ => False

open Classical in
/-- Number of wrong PINs looked at in a schedule. -/
noncomputable def wrongLogins (e : Env) (w : Who) : Conc → List Ev → Nat
  | _, [] => 0
  | s, v :: vs => (if CountsWrong s w v then 1 else 0) + wrongLogins e w (s.step e v).1 vs

/-- The right PIN has been given: the thread clears the counters at this event. -/
def ClearsAt (s : Conc) (w : Who) : Ev → Prop
  | .go t => (∃ pin now, w = .so ∧ s.pc t = .checked .so pin now true) ∨
      (∃ now, w = .user ∧ s.pc t = .keyed now)
  | _ => False

/-- Calls that do not load or reset the token and are not logins. -/
def Ordinary : Call → Prop
  | .cInit | .cFinal => False
  | .slot _ (.initToken _ _) => False
  | .sess _ (.login _ _ _) => False
  | _ => True

/-- A schedule of guesses for the account: the right PIN is not given, the token is neither
loaded nor reset. -/
def Guessing (e : Env) (w : Who) : Conc → List Ev → Prop
  | _, [] => True
  | s, v :: vs => ¬ ClearsAt s w v ∧ (∀ c, v = .call c → Ordinary c) ∧ Guessing e w (s.step e v).1 vs

/-- A login to the account begins only when no other thread is inside one. -/
def OneAtATime (e : Env) (w : Who) : Conc → List Ev → Prop
  | _, [] => True
  | s, v :: vs =>
    (∀ t h pin now, v = .login t h w pin now → ∀ u, u ≠ t → (s.pc u).who ≠ some w) ∧
    OneAtATime e w (s.step e v).1 vs

/-- The clock readings of the logins that begin in the schedule. -/
def ReadsIn (lo hi : Int) (vs : List Ev) : Prop :=
  ∀ t h w pin now, Ev.login t h w pin now ∈ vs → lo ≤ now ∧ now ≤ hi

end Verif
