import Verif.Proofs.Disk
import Verif.Proofs.Pin

/-!
# What calls write to the token's file

Every call either leaves the token's file alone or writes the token as it is.
-/

namespace Verif

/-- The record has the label, accounts and seed of the token. -/
structure TokenRec.Of (r : TokenRec) (t : Token) : Prop where
  label : r.label = t.label
  so : r.so = t.so
  user : r.user = t.user
  seed : r.seed = t.seed

theorem TokenRec.Of.toRec (t : Token) : t.toRec.Of t := ⟨rfl, rfl, rfl, rfl⟩

/-- The token's file is as before or holds a record of the token `t`. -/
def FileOf (d d' : Disk) (t : Token) : Prop :=
  d' (.token, 0) = d (.token, 0) ∨ ∃ r : TokenRec, d' (.token, 0) = some (wrToken r) ∧ r.Of t

/-- Of the token only the objects may have changed, and its file is as before or holds it. -/
def TFile (l l' : Lib) : Prop := TFrame l l' ∧ FileOf l.disk l'.disk l.token

namespace TFile

theorem refl (l : Lib) : TFile l l := ⟨.refl l, .inl rfl⟩

theorem of_eq {l l' : Lib} (h : l'.token = l.token) (hd : l'.disk = l.disk) : TFile l l' :=
  ⟨.of_eq h, .inl (by rw [hd])⟩

theorem quiet {l l' : Lib} (h : TFrame l l') (hd : l'.disk = l.disk) : TFile l l' := ⟨h, .inl (by rw [hd])⟩

theorem after {a b c : Lib} (h2 : TFile b c) (h1 : TFile a b) : TFile a c := by
  refine ⟨h2.1.after h1.1, ?_⟩
  rcases h2.2 with h | ⟨r, hr, hf⟩
  · rcases h1.2 with g | ⟨r, hr, hf⟩
    · exact .inl (h.trans g)
    · exact .inr ⟨r, h.trans hr, hf⟩
  · exact .inr ⟨r, hr, hf.label.trans h1.1.label, hf.so.trans h1.1.so, hf.user.trans h1.1.user, hf.seed.trans h1.1.seed⟩

theorem store (e : Env) {l m : Lib} (h : TFrame l m) : TFile l (Lib.store e m).1 :=
  ⟨(tframe_store e m).after h, .inr ⟨_, store_token_file e m, h.label, h.so, h.user, h.seed⟩⟩

end TFile

macro "tfile" : tactic => `(tactic| first
  | exact TFile.of_eq rfl rfl | exact TFile.store _ rfl | exact TFile.store _ (TFrame.of_eq rfl)
  | exact TFile.quiet rfl rfl)

theorem tfile_sessAddObject (e : Env) (l : Lib) (s : Session) (on : Nat) (o : Obj) :
    TFile l (sessAddObject e l s on o).1 := by
  unfold sessAddObject; dsimp only
  repeat' split
  all_goals tfile

theorem tfile_add_eq {e : Env} {l l' : Lib} {s : Session} {on : Nat} {o : Obj} {r : Option Nat}
    (h : sessAddObject e l s on o = (l', r)) : TFile l l' := by
  have := tfile_sessAddObject e l s on o
  rwa [h] at this

theorem tfile_addObject (e : Env) (l : Lib) (s : Session) (t : List Entry) (o : Obj) :
    TFile l (addObject e l s t o).1 := by
  unfold addObject
  split
  · tfile
  · split <;> rename_i heq <;> exact tfile_add_eq heq

theorem tfile_cCreate (e : Env) (l : Lib) (s : Session) (t : Option (List Entry)) (p : Bool) :
    TFile l (cCreate e l s t p).1 := by
  unfold cCreate
  repeat' split
  all_goals first | tfile | exact tfile_addObject ..

theorem tfile_cCopy (e : Env) (l : Lib) (s : Session) (h : Nat) (t : Option (List Entry)) (p : Bool) :
    TFile l (cCopy e l s h t p).1 := by
  unfold cCopy; dsimp only
  repeat' split
  all_goals first
    | tfile
    | (rename_i heq; exact tfile_add_eq heq)

theorem tfile_cDestroy (e : Env) (l : Lib) (s : Session) (h : Nat) : TFile l (cDestroy e l s h).1 := by
  unfold cDestroy removeToken; dsimp only
  repeat' split
  all_goals tfile

theorem tfile_putObj (l : Lib) (s : Session) (h : Nat) (o : Obj) : TFile l (putObj l s h o) := by
  unfold putObj
  split <;> tfile

theorem tfile_cSetAttr (e : Env) (l : Lib) (s : Session) (h : Nat) (t : Option (List Entry)) :
    TFile l (cSetAttr e l s h t).1 := by
  unfold cSetAttr
  repeat' split
  all_goals first | tfile | exact tfile_putObj ..

theorem quiet_cFindInit (e : Env) (l : Lib) (s : Session) (t : Option (List Entry)) :
    (cFindInit e l s t).1.disk = l.disk := by
  unfold cFindInit; dsimp only
  repeat' split
  all_goals rfl

theorem quiet_cFindNext (l : Lib) (s : Session) (p : Bool) (m : Nat) :
    (cFindNext l s p m).1.disk = l.disk := by
  unfold cFindNext; dsimp only
  repeat' split
  all_goals rfl

theorem quiet_cCryptInit (e : Env) (l : Lib) (s : Session) (k : Kind) (m : Option (Mech × MechParam)) (key : Nat) :
    (cCryptInit e l s k m key).1.disk = l.disk := by
  unfold cCryptInit; dsimp only
  repeat' split
  all_goals rfl

theorem quiet_cCrypt (e : Env) (l : Lib) (s : Session) (c : DataCall) :
    (cCrypt e l s c).1.disk = l.disk := by
  unfold cCrypt; dsimp only
  repeat' split
  all_goals rfl

theorem quiet_cWrap (e : Env) (l : Lib) (s : Session) (m : Option (Mech × MechParam)) (wk key : Nat)
    (ob : OutBuf) : (cWrap e l s m wk key ob).1.disk = l.disk := by
  unfold cWrap; dsimp only
  repeat' split
  all_goals rfl

theorem tfile_cGenKey (e : Env) (l : Lib) (s : Session) (m : Option (Mech × MechParam))
    (t : Option (List Entry)) (p : Bool) : TFile l (cGenKey e l s m t p).1 := by
  unfold cGenKey
  repeat' split
  all_goals first
    | tfile
    | exact TFile.after (tfile_addObject ..) (TFile.of_eq rfl rfl)

theorem tfile_addPair (e : Env) (l : Lib) (s : Session) (tp tq : List Entry) (pub priv : Obj) :
    TFile l (addPair e l s tp tq pub priv).1 := by
  unfold addPair
  have h1 := tfile_addObject e l s tp pub
  dsimp only
  split
  · exact h1
  · split
    · exact h1
    · rename_i s1 hs
      have h2 := tfile_addObject e (addObject e l s tp pub).1 s1 tq priv
      split
      · exact TFile.after (TFile.after (TFile.of_eq rfl rfl) h2) h1
      · exact TFile.after h2 h1

theorem tfile_cGenPair (e : Env) (l : Lib) (s : Session) (m : Option (Mech × MechParam))
    (tp tq : Option (List Entry)) (p : Bool) : TFile l (cGenPair e l s m tp tq p).1 := by
  unfold cGenPair
  repeat' split
  all_goals first
    | tfile
    | exact TFile.after (tfile_addPair ..) (TFile.of_eq rfl rfl)

theorem tfile_addRsaPrivate (e : Env) (l : Lib) (s : Session) (t : List Entry) (der : Bytes) :
    TFile l (addRsaPrivate e l s t der).1 := by
  unfold addRsaPrivate
  repeat' split
  all_goals first
    | tfile
    | exact tfile_addObject ..

theorem tfile_cUnwrap (e : Env) (l : Lib) (s : Session) (m : Option (Mech × MechParam)) (wk : Nat)
    (d : Option Bytes) (t : Option (List Entry)) (p : Bool) : TFile l (cUnwrap e l s m wk d t p).1 := by
  unfold cUnwrap; dsimp only
  repeat' split
  all_goals first
    | tfile
    | exact TFile.after (tfile_addRsaPrivate ..) (TFile.of_eq rfl rfl)

theorem tfile_cDerive (e : Env) (l : Lib) (s : Session) (m : Option DeriveMech) (b : Nat)
    (t : Option (List Entry)) (p : Bool) : TFile l (cDerive e l s m b t p).1 := by
  unfold cDerive; dsimp only
  repeat' split
  all_goals first
    | tfile
    | exact tfile_addObject ..

/-- Calls on a session other than those about login and PINs. -/
theorem tfile_sessCall (e : Env) (l : Lib) (s : Session) (c : SessCall) (hc : c.isAccount = false) :
    TFile l (sessCall e l s c).1 := by
  cases c <;> simp only [sessCall] <;> first | (simp [SessCall.isAccount] at hc; done) | skip
  case info => split <;> tfile
  case create => exact tfile_cCreate ..
  case copy => exact tfile_cCopy ..
  case destroy => exact tfile_cDestroy ..
  case size => split <;> tfile
  case getAttr => exact (frame_cGetAttr ..) ▸ TFile.refl ..
  case setAttr => exact tfile_cSetAttr ..
  case findInit => exact .of_eq (tframe_cFindInit ..) (quiet_cFindInit ..)
  case findNext => exact .of_eq (tframe_cFindNext ..) (quiet_cFindNext ..)
  case findFinal => tfile
  case cryptInit => exact .of_eq (tframe_cCryptInit ..) (quiet_cCryptInit ..)
  case crypt => exact .of_eq (tframe_cCrypt ..) (quiet_cCrypt ..)
  case genKey => exact tfile_cGenKey ..
  case genPair => exact tfile_cGenPair ..
  case wrap => exact .of_eq (tframe_cWrap ..) (quiet_cWrap ..)
  case unwrap => exact tfile_cUnwrap ..
  case derive => exact tfile_cDerive ..
  case random => unfold cRandom; repeat' split
                 all_goals tfile

end Verif
