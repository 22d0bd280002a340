import Verif.Spec.Silent

/-!
# Keys of the token that are not used, as a caller understands it
-/

namespace Verif

/-- The call makes use of the object with handle `k`, in whatever session, or changes it. -/
def EmploysAny (k : Nat) (c : Call) : Prop := ∃ h, Employs h k c

/-- The call reads the token's keys back from their stored form, or may: the user logs in, or the library is shut down. -/
def Reopens : Call → Prop
  | .cFinal => True
  | .sess _ (.login .user _ _) => True
  | _ => False

/-- wolfCrypt can encode the key for the store. Only RSA and EC keys may fail. -/
def canEncode (x : StoreExt) (o : Obj) : Bool :=
  if o.typ = CKK_RSA then (x.rsaToDer o.rsa).isSome
  else if o.typ = CKK_EC then (x.eccToDer o.ec).isSome
  else true

/-- Two private or secret keys, sensitive or not extractable, that are the same but for their secret part and its stored form.
Both have been encoded for the store or neither has, and both can be or neither can. -/
structure AlikeKeys (x : StoreExt) (o o' : Obj) : Prop where
  only : ∃ d kd, o' = { o with data := d, keyData := kd }
  sec : o.IsSecretKey
  shut : o.Sensitive ∨ ¬ o.Extractable
  pub : o.data.SamePublic o'.data
  kd : o'.keyData.isSome = o.keyData.isSome
  can : canEncode x o' = canEncode x o

/-- Two running libraries that are the same but for the secret part of the key of the token with handle `k`, which no session is using, and for the
contents of the store. -/
structure DifferOn (e : Env) (k : Nat) (l l' : Lib) : Prop where
  running : 0 < l.count
  ex : ∃ (o o' : Obj) (d : Disk), o ∈ l.token.objs ∧ o.handle = k ∧ (∀ s ∈ l.sessions, s.curr ≠ some o.uid) ∧ AlikeKeys e.store o o' ∧
    l' = { l with token := { l.token with objs := l.token.objs.map fun p => if p.uid = o.uid then o' else p }, disk := d }

end Verif
