import Verif.Spec.ConcAuth

/-!
# Who is logged in, when several threads log in
-/

namespace Verif

/-- The logins of a schedule are made in parts (a login made in one go is one of these:
`login_alone`). -/
def LoginsInParts (vs : List PEv) : Prop :=
  ∀ h u pin now, PEv.base (.call (.sess h (.login u pin now))) ∉ vs

/-- Thread `t` is inside `C_Login` at every moment of the events `vs`. -/
def InLogin (e : Env) (s : Chg) (t : Nat) (vs : List PEv) : Prop :=
  ∀ a b, vs = a ++ b → (s.run e a).base.pc t ≠ .idle

/-- In the schedule `vs` thread `t` has called `C_Login` for account `w` in an open session and is
still in that call; at a moment of the call nobody was logged in; the hash of the PIN it gave, with
the seed of the account at a later moment of the call, was the stored one at a still later one. -/
def GavePin (e : Env) (s : Chg) (t : Nat) (w : Who) (vs : List PEv) : Prop :=
  ∃ a b c d f h pin now, vs = a ++ .base (.login t h w pin now) :: (b ++ c ++ d ++ f) ∧
    IsOpen e (libAfter e s a) h ∧
    InLogin e (s.run e (a ++ [.base (.login t h w pin now)])) t (b ++ c ++ d ++ f) ∧
    (libAfter e s (a ++ .base (.login t h w pin now) :: b)).token.login = .pub ∧
    (let seed := (w.acct (libAfter e s (a ++ .base (.login t h w pin now) :: (b ++ c))).token).seed
     let stored := (w.acct (libAfter e s (a ++ .base (.login t h w pin now) :: (b ++ c ++ d))).token).pin
     (e.store.hash pin seed).take stored.length = stored)

/-- At no moment two threads are inside `C_Login`. -/
def OneInLogin (e : Env) : Chg → List PEv → Prop
  | s, [] => ∀ t u, s.base.pc t ≠ .idle → s.base.pc u ≠ .idle → t = u
  | s, v :: vs => (∀ t u, s.base.pc t ≠ .idle → s.base.pc u ≠ .idle → t = u) ∧ OneInLogin e (s.step e v).1 vs

end Verif
