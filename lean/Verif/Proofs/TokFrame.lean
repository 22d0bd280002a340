import Verif.Proofs.Frame

/-!
# Calls that leave the token alone, but for its objects
-/

namespace Verif

/-- Of the token only the objects may have changed. -/
def TFrame (l l' : Lib) : Prop := l'.token = { l.token with objs := l'.token.objs }

namespace TFrame

theorem refl (l : Lib) : TFrame l l := rfl

theorem of_eq {l l' : Lib} (h : l'.token = l.token) : TFrame l l' := by unfold TFrame; rw [h]

theorem after {a b c : Lib} (h2 : TFrame b c) (h1 : TFrame a b) : TFrame a c := by
  unfold TFrame at *; rw [h2, h1]

theorem login {l l' : Lib} (h : TFrame l l') : l'.token.login = l.token.login := by rw [h]
theorem so {l l' : Lib} (h : TFrame l l') : l'.token.so = l.token.so := by rw [h]
theorem user {l l' : Lib} (h : TFrame l l') : l'.token.user = l.token.user := by rw [h]
theorem init {l l' : Lib} (h : TFrame l l') : l'.token.init = l.token.init := by rw [h]
theorem key {l l' : Lib} (h : TFrame l l') : l'.token.key = l.token.key := by rw [h]
theorem seed {l l' : Lib} (h : TFrame l l') : l'.token.seed = l.token.seed := by rw [h]
theorem label {l l' : Lib} (h : TFrame l l') : l'.token.label = l.token.label := by rw [h]

end TFrame

macro "tframe" : tactic => `(tactic| first | exact TFrame.of_eq rfl | exact rfl)

theorem tframe_store (e : Env) (l : Lib) : TFrame l (Lib.store e l).1 := by tframe

theorem tframe_sessAddObject (e : Env) (l : Lib) (s : Session) (on : Nat) (o : Obj) :
    TFrame l (sessAddObject e l s on o).1 := by
  unfold sessAddObject; dsimp only
  repeat' split
  all_goals tframe

theorem tframe_add_eq {e : Env} {l l' : Lib} {s : Session} {on : Nat} {o : Obj} {r : Option Nat}
    (h : sessAddObject e l s on o = (l', r)) : TFrame l l' := by
  have := tframe_sessAddObject e l s on o
  rwa [h] at this

theorem tframe_addObject (e : Env) (l : Lib) (s : Session) (t : List Entry) (o : Obj) :
    TFrame l (addObject e l s t o).1 := by
  unfold addObject
  split
  · tframe
  · split <;> rename_i heq <;> exact tframe_add_eq heq

theorem tframe_cCreate (e : Env) (l : Lib) (s : Session) (t : Option (List Entry)) (p : Bool) :
    TFrame l (cCreate e l s t p).1 := by
  unfold cCreate
  repeat' split
  all_goals first | tframe | exact tframe_addObject ..

theorem tframe_cCopy (e : Env) (l : Lib) (s : Session) (h : Nat) (t : Option (List Entry)) (p : Bool) :
    TFrame l (cCopy e l s h t p).1 := by
  unfold cCopy; dsimp only
  repeat' split
  all_goals first
    | tframe
    | (rename_i heq; exact tframe_add_eq heq)

theorem tframe_cDestroy (e : Env) (l : Lib) (s : Session) (h : Nat) : TFrame l (cDestroy e l s h).1 := by
  unfold cDestroy removeToken; dsimp only
  repeat' split
  all_goals tframe

theorem tframe_putObj (l : Lib) (s : Session) (h : Nat) (o : Obj) : TFrame l (putObj l s h o) := by
  unfold putObj
  split <;> tframe

theorem tframe_cSetAttr (e : Env) (l : Lib) (s : Session) (h : Nat) (t : Option (List Entry)) :
    TFrame l (cSetAttr e l s h t).1 := by
  unfold cSetAttr
  repeat' split
  all_goals first | tframe | exact tframe_putObj ..

theorem tframe_cFindInit (e : Env) (l : Lib) (s : Session) (t : Option (List Entry)) :
    (cFindInit e l s t).1.token = l.token := by
  unfold cFindInit; dsimp only
  repeat' split
  all_goals rfl

theorem tframe_cFindNext (l : Lib) (s : Session) (p : Bool) (m : Nat) :
    (cFindNext l s p m).1.token = l.token := by
  unfold cFindNext; dsimp only
  repeat' split
  all_goals rfl

theorem tframe_cCryptInit (e : Env) (l : Lib) (s : Session) (k : Kind) (m : Option (Mech × MechParam)) (key : Nat) :
    (cCryptInit e l s k m key).1.token = l.token := by
  unfold cCryptInit; dsimp only
  repeat' split
  all_goals rfl

theorem tframe_cCrypt (e : Env) (l : Lib) (s : Session) (c : DataCall) :
    (cCrypt e l s c).1.token = l.token := by
  unfold cCrypt; dsimp only
  repeat' split
  all_goals rfl

theorem tframe_cGenKey (e : Env) (l : Lib) (s : Session) (m : Option (Mech × MechParam))
    (t : Option (List Entry)) (p : Bool) : TFrame l (cGenKey e l s m t p).1 := by
  unfold cGenKey
  repeat' split
  all_goals first
    | tframe
    | exact TFrame.after (tframe_addObject ..) (TFrame.of_eq rfl)

theorem tframe_addPair (e : Env) (l : Lib) (s : Session) (tp tq : List Entry) (pub priv : Obj) :
    TFrame l (addPair e l s tp tq pub priv).1 := by
  unfold addPair
  have h1 := tframe_addObject e l s tp pub
  dsimp only
  split
  · exact h1
  · split
    · exact h1
    · rename_i s1 hs
      have h2 := tframe_addObject e (addObject e l s tp pub).1 s1 tq priv
      split
      · exact TFrame.after (TFrame.after (TFrame.of_eq rfl) h2) h1
      · exact TFrame.after h2 h1

theorem tframe_cGenPair (e : Env) (l : Lib) (s : Session) (m : Option (Mech × MechParam))
    (tp tq : Option (List Entry)) (p : Bool) : TFrame l (cGenPair e l s m tp tq p).1 := by
  unfold cGenPair
  repeat' split
  all_goals first
    | tframe
    | exact TFrame.after (tframe_addPair ..) (TFrame.of_eq rfl)

theorem tframe_cWrap (e : Env) (l : Lib) (s : Session) (m : Option (Mech × MechParam)) (wk key : Nat)
    (ob : OutBuf) : (cWrap e l s m wk key ob).1.token = l.token := by
  unfold cWrap; dsimp only
  repeat' split
  all_goals rfl

theorem tframe_addRsaPrivate (e : Env) (l : Lib) (s : Session) (t : List Entry) (der : Bytes) :
    TFrame l (addRsaPrivate e l s t der).1 := by
  unfold addRsaPrivate
  repeat' split
  all_goals first
    | tframe
    | exact tframe_addObject ..

theorem tframe_cUnwrap (e : Env) (l : Lib) (s : Session) (m : Option (Mech × MechParam)) (wk : Nat)
    (d : Option Bytes) (t : Option (List Entry)) (p : Bool) : TFrame l (cUnwrap e l s m wk d t p).1 := by
  unfold cUnwrap; dsimp only
  repeat' split
  all_goals first
    | tframe
    | exact TFrame.after (tframe_addRsaPrivate ..) (TFrame.of_eq rfl)

theorem tframe_cDerive (e : Env) (l : Lib) (s : Session) (m : Option DeriveMech) (b : Nat)
    (t : Option (List Entry)) (p : Bool) : TFrame l (cDerive e l s m b t p).1 := by
  unfold cDerive; dsimp only
  repeat' split
  all_goals first
    | tframe
    | exact tframe_addObject ..

/-- The calls that work on the token's accounts. -/
def SessCall.isAccount : SessCall → Bool
  | .close | .login .. | .logout | .initPin .. | .setPin .. => true
  | _ => false

/-- Calls on a session other than those about login and PINs change nothing of the token
but its objects. -/
theorem tframe_sessCall (e : Env) (l : Lib) (s : Session) (c : SessCall) (hc : c.isAccount = false) :
    TFrame l (sessCall e l s c).1 := by
  cases c <;> simp only [sessCall] <;> first | (simp [SessCall.isAccount] at hc; done) | skip
  case info => split <;> tframe
  case create => exact tframe_cCreate ..
  case copy => exact tframe_cCopy ..
  case destroy => exact tframe_cDestroy ..
  case size => split <;> tframe
  case getAttr => exact (frame_cGetAttr ..) ▸ TFrame.refl ..
  case setAttr => exact tframe_cSetAttr ..
  case findInit => exact .of_eq (tframe_cFindInit ..)
  case findNext => exact .of_eq (tframe_cFindNext ..)
  case findFinal => tframe
  case cryptInit => exact .of_eq (tframe_cCryptInit ..)
  case crypt => exact .of_eq (tframe_cCrypt ..)
  case genKey => exact tframe_cGenKey ..
  case genPair => exact tframe_cGenPair ..
  case wrap => exact .of_eq (tframe_cWrap ..)
  case unwrap => exact tframe_cUnwrap ..
  case derive => exact tframe_cDerive ..
  case random => unfold cRandom; repeat' split
                 all_goals tframe

end Verif
