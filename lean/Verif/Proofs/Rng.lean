import Verif.Model.Api

/-!
# The random generator only goes on
-/

namespace Verif

variable {e : Env}

theorem storeObj_rng (x : StoreExt) (k : Bytes) (n : Nat) (o : Obj) (i : Nat) :
    n ≤ (storeObj x k n o i).rng := by
  unfold storeObj
  dsimp only
  repeat' split
  all_goals (dsimp only; omega)

theorem storeObjs_rng (x : StoreExt) (k : Bytes) (os : List Obj) (n : Nat) :
    n ≤ (storeObjs x k n os).2.2.1 := by
  induction os generalizing n with
  | nil => exact Nat.le_refl _
  | cons o os ih =>
    have h1 := storeObj_rng x k n o os.length
    unfold storeObjs
    dsimp only
    split
    · exact Nat.le_trans h1 (ih _)
    · exact h1

theorem store_rng (e : Env) (l : Lib) : l.rng ≤ (Lib.store e l).1.rng := storeObjs_rng _ _ _ _

theorem logout_rng (e : Env) (l : Lib) : (logout e l).rng = l.rng := rfl

theorem openSession_rng (l : Lib) (rw : Bool) : (openSession l rw).1.rng = l.rng := by
  unfold openSession
  dsimp only
  repeat' split
  all_goals rfl

theorem soLogin_rng (l : Lib) (p : Bytes) (now : Int) : (soLogin e l p now).1.rng = l.rng := by
  unfold soLogin
  dsimp only
  repeat' split
  all_goals rfl

theorem userLogin_rng (l : Lib) (p : Bytes) (now : Int) : (userLogin e l p now).1.rng = l.rng := by
  unfold userLogin
  dsimp only
  repeat' split
  all_goals rfl

theorem setSoPin_rng (l : Lib) (p : Bytes) : l.rng < (setSoPin e l p).1.rng := by
  unfold setSoPin
  refine Nat.lt_of_lt_of_le ?_ (store_rng e _)
  exact Nat.lt_succ_self l.rng

theorem setUserPin_rng (l : Lib) (p : Bytes) : l.rng < (setUserPin e l p).1.rng := by
  unfold setUserPin
  refine Nat.lt_of_lt_of_le ?_ (store_rng e _)
  show l.rng < l.rng + 2
  omega

attribute [local irreducible] setSoPin setUserPin Lib.store

theorem sessAddObject_rng (l : Lib) (s : Session) (on : Nat) (o : Obj) :
    l.rng ≤ (sessAddObject e l s on o).1.rng := by
  unfold sessAddObject
  dsimp only
  repeat' split
  · exact Nat.le_refl _
  · exact store_rng e { l with uid := l.uid + 1, token := { l.token with objs := _ :: l.token.objs } }
  · exact Nat.le_refl _
  · exact Nat.le_refl _
  · exact Nat.le_refl _

theorem copied_rng {l l' : Lib} {s : Session} {on : Nat} {o : Obj} {r : Option Nat}
    (h : sessAddObject e l s on o = (l', r)) : l.rng ≤ l'.rng := by
  have h' := sessAddObject_rng (e := e) l s on o
  rw [h] at h'
  exact h'

theorem removeToken_rng (l : Lib) (o : Obj) : l.rng ≤ (removeToken e l o).rng := by
  unfold removeToken
  refine Nat.le_trans ?_ (store_rng e _)
  exact Nat.le_refl _

theorem initToken_rng (l : Lib) (p n : Option Bytes) : l.rng ≤ (initToken e l p n).1.rng := by
  unfold initToken
  split
  · split
    · exact Nat.le_refl _
    · split
      · exact Nat.le_refl _
      · split
        · exact Nat.le_refl _
        · simp only [pinSet]
          refine Nat.le_trans ?_ (Nat.le_of_lt (setSoPin_rng _ _))
          exact Nat.le_refl _
  · exact Nat.le_refl _

theorem addObject_rng (l : Lib) (s : Session) (t : List Entry) (o : Obj) :
    l.rng ≤ (addObject e l s t o).1.rng := by
  unfold addObject
  split
  · exact Nat.le_refl _
  · rename_i on _
    have h := sessAddObject_rng (e := e) l s on o
    split <;> rename_i hs <;> rw [hs] at h <;> exact h

theorem addPair_rng (l : Lib) (s : Session) (tp tq : List Entry) (p q : Obj) :
    l.rng ≤ (addPair e l s tp tq p q).1.rng := by
  unfold addPair
  have h1 := addObject_rng (e := e) l s tp p
  split
  rename_i l1 r1 h
  rw [h] at h1
  split
  · exact h1
  · split
    · exact h1
    · rename_i s1 _
      have h2 := addObject_rng (e := e) l1 s1 tq q
      split
      rename_i l2 r2 h'
      rw [h'] at h2
      split
      · exact Nat.le_trans h1 h2
      · exact Nat.le_trans h1 h2

theorem sessCall_rng (l : Lib) (s : Session) (c : SessCall) : l.rng ≤ (sessCall e l s c).1.rng := by
  cases c with
  | close =>
    simp only [sessCall, closeSession]
    split
    · exact Nat.le_refl _
    · rw [logout_rng]; exact Nat.le_refl _
  | login u p n =>
    simp only [sessCall, login]
    repeat' split
    all_goals first
      | exact Nat.le_refl _
      | (dsimp only; rw [soLogin_rng]; exact Nat.le_refl _)
      | (dsimp only; rw [userLogin_rng]; exact Nat.le_refl _)
  | logout => exact Nat.le_refl _
  | initPin p =>
    simp only [sessCall, initPin, pinSet]
    repeat' split
    all_goals first | exact Nat.le_refl _ | exact Nat.le_of_lt (setUserPin_rng l _)
  | setPin o n =>
    simp only [sessCall, setPin, pinSet]
    repeat' split
    all_goals first
      | exact Nat.le_refl _ | exact Nat.le_of_lt (setUserPin_rng l _) | exact Nat.le_of_lt (setSoPin_rng l _)
  | create t p =>
    simp only [sessCall, cCreate]
    repeat' split
    all_goals first | exact Nat.le_refl _ | exact addObject_rng _ _ _ _
  | copy o t p =>
    simp only [sessCall, cCopy]
    repeat' split
    all_goals first
      | exact Nat.le_refl _
      | exact copied_rng ‹_›
  | destroy o =>
    simp only [sessCall, cDestroy]
    repeat' split
    all_goals first | exact Nat.le_refl _ | exact removeToken_rng l _
  | setAttr o t =>
    simp only [sessCall, cSetAttr]
    repeat' split
    all_goals first | exact Nat.le_refl _ | (dsimp only; unfold putObj; split <;> exact Nat.le_refl _)
  | genKey m t p =>
    simp only [sessCall, cGenKey]
    repeat' split
    all_goals first
      | exact Nat.le_refl _
      | exact Nat.le_trans (Nat.le_succ _) (addObject_rng { l with rng := l.rng + 1 } _ _ _)
  | genPair m a b p =>
    simp only [sessCall, cGenPair]
    repeat' split
    all_goals first
      | exact Nat.le_refl _
      | exact Nat.le_succ _
      | exact Nat.le_trans (Nat.le_succ _) (addPair_rng { l with rng := l.rng + 1 } _ _ _ _ _)
  | unwrap m wk d t p =>
    simp only [sessCall, cUnwrap, addRsaPrivate]
    repeat' split
    all_goals first
      | exact Nat.le_refl _
      | exact addObject_rng (l.upd _ _) _ _ _
  | derive m b t p =>
    simp only [sessCall, cDerive]
    repeat' split
    all_goals first | exact Nat.le_refl _ | exact addObject_rng _ _ _ _
  | random p n =>
    simp only [sessCall, cRandom]
    repeat' split
    all_goals first | exact Nat.le_refl _ | exact Nat.le_succ _
  | _ =>
    simp only [sessCall, cGetAttr, cFindInit, cFindNext, cCryptInit, cCrypt, cWrap]
    repeat' split
    all_goals exact Nat.le_refl _

theorem callBody_rng (l : Lib) (c : Call) : l.rng ≤ (callBody e l c).1.rng := by
  cases c with
  | cInit =>
    simp only [callBody, cInitialize]
    split <;> exact Nat.le_refl _
  | cFinal =>
    simp only [callBody, cFinalize]
    split
    · exact store_rng e { l with count := l.count - 1 }
    · exact Nat.le_refl _
  | slot id c =>
    simp only [callBody]
    repeat' split
    · exact Nat.le_refl _
    · exact Nat.le_refl _
    · cases c <;> simp only [slotCall]
      · split <;> exact Nat.le_refl _
      · exact initToken_rng l _ _
      · repeat' split
        all_goals first | exact Nat.le_refl _ | (rw [openSession_rng]; exact Nat.le_refl _)
      · exact Nat.le_refl _
  | sess h c =>
    simp only [callBody]
    repeat' split
    · exact Nat.le_refl _
    · exact Nat.le_refl _
    · exact sessCall_rng l _ c

theorem step_rng (l : Lib) (c : Call) : l.rng ≤ (step e l c).1.rng := by
  unfold step
  have := callBody_rng (e := e) l c
  dsimp only
  repeat' split
  · exact Nat.le_refl _
  · exact this
  · exact this

theorem run_rng (l : Lib) (cs : List Call) : l.rng ≤ (run e l cs).rng := by
  induction cs generalizing l with
  | nil => exact Nat.le_refl _
  | cons c cs ih => exact Nat.le_trans (step_rng l c) (ih _)

end Verif
