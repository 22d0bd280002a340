import Verif.Spec.Attr
import Verif.Spec.Objs

/-!
# Keys that are not used, as a caller understands it
-/

namespace Verif

/-- The call makes use of the object that session `h` knows by the handle `k`, or changes it: an operation is
started with it, a key is wrapped, unwrapped or derived with it, it is wrapped itself, or attributes are set. -/
def Employs (h k : Nat) : Call → Prop
  | .sess j (.cryptInit _ _ key) => j = h ∧ key = k
  | .sess j (.wrap _ wk key _) => j = h ∧ (wk = k ∨ key = k)
  | .sess j (.unwrap _ wk _ _ _) => j = h ∧ wk = k
  | .sess j (.derive _ base _ _) => j = h ∧ base = k
  | .sess j (.setAttr key _) => j = h ∧ key = k
  | _ => False

/-- Two libraries that are the same but for the secret part of a session's key: the key with handle `k` in session `h`, a private or
secret key that is sensitive or not extractable and that no operation is using. -/
structure DifferIn (h k : Nat) (l l' : Lib) : Prop where
  ex : ∃ (s : Session) (o o' : Obj), getSession l h = some s ∧ o ∈ s.objs ∧ o.handle = k ∧ o.IsSecretKey ∧
    (o.Sensitive ∨ ¬ o.Extractable) ∧ s.curr ≠ some o.uid ∧ SameButSecret o o' ∧
    l' = l.upd h fun t => { t with objs := t.objs.map fun p => if p.uid = o.uid then o' else p }

end Verif
