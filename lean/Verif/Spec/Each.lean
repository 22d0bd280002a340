import Verif.Spec.Objs

/-!
# A template answered attribute by attribute (C123)
-/

namespace Verif

/-- The status of `C_GetAttributeValue` for the template `t`. -/
def askStatus (e : Env) (l : Lib) (h o : Nat) (t : List Entry) : RV := (answer e l (readCall h o t)).rv

/-- The template as `C_GetAttributeValue` leaves it. -/
def filled (e : Env) (l : Lib) (h o : Nat) (t : List Entry) : List Entry :=
  (answer e l (readCall h o t)).tmpl.getD t

/-- The attribute `en` alone can be had: a call that asks for nothing else succeeds. -/
def Had (e : Env) (l : Lib) (h o : Nat) (en : Entry) : Prop := askStatus e l h o [en] = .ok

/-- What a call that asks for nothing else makes of `en`. -/
def alone (e : Env) (l : Lib) (h o : Nat) (en : Entry) : Entry :=
  (filled e l h o [en]).headD en

end Verif
