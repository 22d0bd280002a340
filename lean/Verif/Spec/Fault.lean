import Verif.Model.Fault
import Verif.Spec.Restart
import Verif.Spec.Attr

/-!
# Storage that fails
-/

namespace Verif

/-- The answer to a call while the failures `f` happen. -/
def answerF (e : Env) (f : List Fault) (l : Lib) (c : Call) : Resp := (stepF e f l c).2

/-- The library sees every failure: none is hidden in `fflush` or `fclose`. -/
def Seen (f : List Fault) : Prop := ∀ b, Fault.lost b ∉ f

/-- The calls that set a PIN. -/
def SetsPin : Call → Prop
  | .slot _ (.initToken _ _) | .sess _ (.initPin _) | .sess _ (.setPin _ _) => True
  | _ => False

/-- The calls that make objects, and `C_DestroyObject`. -/
def MakesOrDestroys : Call → Prop
  | .sess _ (.create ..) | .sess _ (.copy ..) | .sess _ (.genKey ..) | .sess _ (.genPair ..) | .sess _ (.unwrap ..)
  | .sess _ (.derive ..) | .sess _ (.destroy _) => True
  | _ => False

/-- Two libraries in the same state, up to the storage: the files, the random generator and
the encrypted form of the keys on the token. -/
def SameInside (l l' : Lib) : Prop :=
  l'.count = l.count ∧ l'.sessions = l.sessions ∧ l'.uid = l.uid ∧ l'.bad = l.bad ∧
  l'.token = { l.token with objs := l'.token.objs } ∧
  AllPairs (fun o o' : Obj => o' = { o with iv := o'.iv, keyData := o'.keyData }) l.token.objs l'.token.objs

end Verif
