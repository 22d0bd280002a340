import Verif.Proofs.Frame
/-!
# Which parts of the sessions calls leave alone
-/
namespace Verif

variable {α : Type} {π : Session → α} {e : Env}

/-- No session has changed in what `π` shows. -/
def SameAt (π : Session → α) (l l' : Lib) : Prop := l'.sessions.map π = l.sessions.map π

theorem SameAt.of {l l' : Lib} (h : l'.sessions = l.sessions) : SameAt π l l' := by
  unfold SameAt; rw [h]

theorem SameAt.trans {a b c : Lib} (h1 : SameAt π a b) (h2 : SameAt π b c) : SameAt π a c :=
  Eq.trans h2 h1

theorem SameAt.upd {l : Lib} {h : Nat} {f : Session → Session} (hf : ∀ t, π (f t) = π t) :
    SameAt π l (l.upd h f) := by
  unfold SameAt Lib.upd
  rw [List.map_map]
  refine List.map_congr_left fun t _ => ?_
  simp only [Function.comp]
  split
  · exact hf t
  · rfl

/-- `π` does not show objects. -/
def NoObjs (π : Session → α) : Prop := ∀ s os, π { s with objs := os } = π s

/-- `π` does not show cryptographic operations. -/
def NoCrypt (π : Session → α) : Prop := ∀ s c op, π { s with curr := c, op := op } = π s

/-- `π` does not show searches. -/
def NoFind (π : Session → α) : Prop := ∀ s f, π { s with find := f } = π s

section
variable (ho : NoObjs π)
include ho

theorem same_sessAdd (l : Lib) (s : Session) (on : Nat) (o : Obj) : SameAt π l (sessAddObject e l s on o).1 := by
  unfold sessAddObject; dsimp only
  repeat' split
  all_goals first
    | exact .of rfl
    | exact SameAt.trans (.of rfl) (.upd (by intro t; exact ho t _))

theorem same_add_eq {l l' : Lib} {s : Session} {on : Nat} {o : Obj} {r : Option Nat}
    (h : sessAddObject e l s on o = (l', r)) : SameAt π l l' := by
  have := same_sessAdd (e := e) ho l s on o
  rwa [h] at this

theorem same_addObject (l : Lib) (s : Session) (t : List Entry) (o : Obj) : SameAt π l (addObject e l s t o).1 := by
  unfold addObject
  split
  · exact .of rfl
  · split <;> rename_i heq <;> exact same_add_eq ho heq

theorem same_addPair (l : Lib) (s : Session) (tp tq : List Entry) (a b : Obj) :
    SameAt π l (addPair e l s tp tq a b).1 := by
  have h1 := same_addObject (e := e) ho l s tp a
  unfold addPair
  dsimp only
  split
  · exact h1
  split
  · exact h1
  rename_i s1 _
  have h2 := same_addObject (e := e) ho (addObject e l s tp a).1 s1 tq b
  split
  · exact h1.trans (h2.trans (.of rfl))
  · exact h1.trans h2

/-- The calls that change at most objects and the token. -/
theorem same_objs {l : Lib} (s : Session) (c : SessCall) (h1 : c ≠ .close) (h2 : ∀ t, c ≠ .findInit t)
    (h3 : ∀ p n, c ≠ .findNext p n) (h4 : c ≠ .findFinal) (h5 : ∀ k m o, c ≠ .cryptInit k m o)
    (h6 : ∀ d, c ≠ .crypt d) (h7 : ∀ m a b o, c ≠ .wrap m a b o) (h8 : ∀ m a b t p, c ≠ .unwrap m a b t p) :
    SameAt π l (sessCall e l s c).1 := by
  cases c with
  | close => exact absurd rfl h1
  | info p => simp only [sessCall]; split <;> exact .of rfl
  | login u p n =>
    have h : (sessCall e l s (.login u p n)).1.sessions = l.sessions := by
      simp only [sessCall, login, soLogin, userLogin]
      repeat' split
      all_goals rfl
    exact .of h
  | logout => exact .of rfl
  | initPin p =>
    simp only [sessCall, initPin, setUserPin]
    repeat' split
    all_goals exact .of rfl
  | setPin o n =>
    simp only [sessCall, setPin, pinSet, setUserPin, setSoPin]
    repeat' split
    all_goals exact .of rfl
  | create t p =>
    simp only [sessCall, cCreate]
    repeat' split
    all_goals first | exact .of rfl | exact same_addObject ho ..
  | copy o t p =>
    simp only [sessCall, cCopy]
    repeat' split
    all_goals first | exact .of rfl | (rename_i heq; exact same_add_eq ho heq)
  | destroy o =>
    simp only [sessCall, cDestroy, removeToken]
    repeat' split
    all_goals first | exact .of rfl | exact .upd (by intro t; exact ho t _)
  | size o p => simp only [sessCall]; repeat' split
                all_goals exact .of rfl
  | getAttr o t => simp only [sessCall, cGetAttr]; repeat' split
                   all_goals exact .of rfl
  | setAttr o t =>
    simp only [sessCall, cSetAttr, putObj]
    repeat' split
    all_goals first | exact .of rfl | exact .upd (by intro t; exact ho t _)
  | findInit t => exact absurd rfl (h2 t)
  | findNext p n => exact absurd rfl (h3 p n)
  | findFinal => exact absurd rfl h4
  | cryptInit k m key => exact absurd rfl (h5 _ _ _)
  | crypt c => exact absurd rfl (h6 _)
  | genKey m t p =>
    simp only [sessCall, cGenKey]
    repeat' split
    all_goals first | exact .of rfl | exact SameAt.trans (.of rfl) (same_addObject ho ..)
  | genPair m a b p =>
    simp only [sessCall, cGenPair]
    repeat' split
    all_goals first | exact .of rfl | exact SameAt.trans (.of rfl) (same_addPair ho ..)
  | wrap m a b o => exact absurd rfl (h7 _ _ _ _)
  | unwrap m w d t p => exact absurd rfl (h8 _ _ _ _ _)
  | derive m b t p =>
    simp only [sessCall, cDerive]
    repeat' split
    all_goals first | exact .of rfl | exact same_addObject ho ..
  | random p n => simp only [sessCall, cRandom]; repeat' split
                  all_goals exact .of rfl

end

section
variable (hc : NoCrypt π)
include hc

theorem same_cryptInit {l : Lib} (s : Session) (k : Kind) (m : Option (Mech × MechParam)) (key : Nat) :
    SameAt π l (cCryptInit e l s k m key).1 := by
  unfold cCryptInit
  dsimp only
  repeat' split
  all_goals first | exact .of rfl | exact .upd (by intro t; exact hc t _ _)

theorem same_crypt {l : Lib} (s : Session) (d : DataCall) : SameAt π l (cCrypt e l s d).1 := by
  unfold cCrypt
  dsimp only
  repeat' split
  all_goals first | exact .of rfl | exact .upd (by intro t; exact hc t _ _)

theorem same_wrap {l : Lib} (s : Session) (m : Option (Mech × MechParam)) (a b : Nat) (ob : OutBuf) :
    SameAt π l (cWrap e l s m a b ob).1 := by
  unfold cWrap
  dsimp only
  repeat' split
  all_goals first | exact .of rfl | exact .upd (by intro t; exact hc t _ _)

theorem same_unwrap (ho : NoObjs π) {l : Lib} (s : Session) (m : Option (Mech × MechParam)) (wk : Nat) (d : Option Bytes)
    (t : Option (List Entry)) (p : Bool) : SameAt π l (cUnwrap e l s m wk d t p).1 := by
  have h1 : ∀ (l : Lib) (t : List Entry) (d : Bytes), SameAt π l (addRsaPrivate e l s t d).1 := by
    intro l t d
    unfold addRsaPrivate
    repeat' split
    all_goals first | exact .of rfl | exact same_addObject ho ..
  unfold cUnwrap
  dsimp only
  repeat' split
  all_goals first
    | exact .of rfl
    | exact .upd (by intro t; exact hc t _ _)
    | exact SameAt.trans (.upd (by intro t; exact hc t _ _)) (h1 ..)

end

end Verif
