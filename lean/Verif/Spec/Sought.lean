import Verif.Spec.Find
import Verif.Spec.LastSet

/-!
# What a search finds
-/

namespace Verif

/-- The handles that a search in session `h` for the attributes `w` returns when all are asked
for at once (`C_FindObjectsInit`, then `C_FindObjects` with room for ten). -/
def foundBy (e : Env) (l : Lib) (h : Nat) (w : Wanted) : List Nat :=
  (answer e (step e l (.sess h (.findInit (some w.tmpl)))).1 (.sess h (.findNext true 10))).found

/-- The attributes `w` are among those that the template `t` gives, each with a value that the
library gives back as it is. -/
def GivenIn (t : List Entry) (w : Wanted) : Prop :=
  ∀ p ∈ w, LastIn t p.1 p.2 ∧ reading p.1 p.2 = some p.2 ∧ SizeFor p.1 p.2.length ∧ p.2.length < 2 ^ 64 - 1

end Verif
