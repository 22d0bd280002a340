import Verif.Spec.Crash

/-!
# Which object a file belongs to
-/

namespace Verif

/-- `b` is what file `f` holds when it belongs to object `o`, the files of which are
numbered `i`: the record of the object, or its key. -/
def Obj.FileOf (o : Obj) (i : Nat) (f : FName) (b : Bytes) : Prop :=
  f.2 = i ∧ ((f.1 = .object ∧ b = wrObject o) ∨
    (keyFile o = some f.1 ∧ ∃ d t, o.keyData = some d ∧ keyTail o = some t ∧ b = wrArray d ++ t))

/-- Every file but the token's is empty or belongs to an object of the list. -/
def OnlyFilesOf (os : List Obj) (d : Disk) : Prop :=
  ∀ f b, d f = some b → f ≠ (.token, 0) → b = [] ∨ ∃ o ∈ os, ∃ i, o.FileOf i f b

/-- Every file but the token's is empty or belongs to the object that many places from the
end of the list. -/
def TidyFiles (os : List Obj) (d : Disk) : Prop :=
  ∀ f b, d f = some b → f ≠ (.token, 0) → b = [] ∨ ∃ a o r, os = a ++ o :: r ∧ o.FileOf r.length f b

end Verif
