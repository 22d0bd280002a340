import Verif.Spec.Orderly
import Verif.Spec.ImportPair

/-!
# A key of the token that an orderly application imported
-/

namespace Verif

/-- `now` is a history of an application that obeys the rules of C125, in which after `cs` a key with handle `κ` was
imported in session `h` with template `t` and then not destroyed.  Nothing undefined has happened, and in session `h'`
the user is logged in. -/
structure Endured (e : Env) (l₀ : Lib) (cs : List Call) (h : Nat) (t : List Entry) (κ : Nat) (now : List Call) (h' : Nat) : Prop where
  spared : ∃ mid, now = cs ++ createCall h t :: mid ∧ NotDestroyed κ mid
  ordered : Ordered e l₀ now
  bool : BoolToken now
  short : 2 * now.length < 2 ^ 28
  clock : ClockWithin (2 ^ 62) (now.map .call)
  good : (run e l₀ now).bad = false
  user : UserIn e (run e l₀ now) h'

end Verif
