import Verif.Spec.Alloc

/-!
# What a refused call may leave behind
-/

namespace Verif

/-- The answer is an error code. -/
def Resp.Error (r : Resp) : Prop := r.rv ≠ .ok ∧ r.rv ≠ .ub

/-- The account may differ in the failed tries counted and the lock, not in the PIN. -/
def Account.SamePin (a a' : Account) : Prop := a'.pin = a.pin ∧ a'.seed = a.seed

/-- The session with handle `h` may be at another point of its cryptographic operation;
everything else is the same. -/
def OnlyOp (h : Nat) (l l' : Lib) : Prop :=
  ∃ op curr, l' = { l with sessions := l.sessions.map fun s => if s.handle = h then { s with op, curr } else s }

/-- The session with handle `h` has a search without results; everything else is the same. -/
def OnlySearch (h : Nat) (l l' : Lib) : Prop :=
  l' = { l with sessions := l.sessions.map fun s =>
    if s.handle = h then { s with find := { active := true, found := [] } } else s }

/-- Only the tries of the two accounts differ, and, if the PIN was right and an object could not
be decrypted, the storage key and the objects. -/
def OnlyTries (l l' : Lib) : Prop :=
  l.token.so.SamePin l'.token.so ∧ l.token.user.SamePin l'.token.user ∧
  l' = { l with token := { l.token with so := l'.token.so, user := l'.token.user, key := l'.token.key, objs := l'.token.objs } }

/-- What a call that answers an error may change. -/
def Call.MayChange (rv : RV) (l l' : Lib) : Call → Prop
  | .sess h c =>
    match c with
    | .login _ _ _ => OnlyTries l l'
    | .initPin _ | .setPin _ _ => l' = l ∨ rv = .functionFailed
    | .setAttr o _ => allBut h o l' = allBut h o l
    | .findInit _ => l' = l ∨ OnlySearch h l l'
    | .cryptInit _ _ _ | .crypt _ | .wrap _ _ _ _ | .unwrap _ _ _ _ _ => l' = l ∨ OnlyOp h l l'
    | .genKey _ _ _ => l' = { l with rng := l'.rng }
    | .genPair _ _ _ _ => l' = { l with rng := l'.rng } ∨ l'.bad = true
    | _ => l' = l
  | _ => l' = l

end Verif
