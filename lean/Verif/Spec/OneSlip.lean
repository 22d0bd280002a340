import Verif.Spec.Orderly

/-!
# A history that breaks the rules once
-/

namespace Verif

/-- Every call before and after `c` obeys the rules of `Orderly`, `c` does not. -/
structure OneSlip (e : Env) (l : Lib) (a : List Call) (c : Call) (b : List Call) : Prop where
  before : Ordered e l a
  slip : ¬ Orderly e (run e l a) c
  after : Ordered e (run e l (a ++ [c])) b

end Verif
