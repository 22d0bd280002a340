import Verif.Proofs.Look

/-!
# A session's objects do not matter to calls on other sessions
-/

namespace Verif

variable {e : Env} {h : Nat} {os : List Obj}

/-- The pair of a library and a response with other objects in session `h`. -/
def withObjs2 (h : Nat) (os : List Obj) {α : Type} (p : Lib × α) : Lib × α := (withObjs p.1 h os, p.2)

local notation "W" l:max => withObjs l h os

theorem withObjs_sessions (l : Lib) :
    (W l).sessions = l.sessions.map fun s => if s.handle = h then { s with objs := os } else s := rfl

theorem withObjs_upd (l : Lib) {k : Nat} (hk : k ≠ h) (f : Session → Session) (hf : ∀ s, (f s).handle = s.handle) :
    (W l).upd k f = W (l.upd k f) := by
  unfold withObjs Lib.upd
  simp only [List.map_map]
  congr 1
  apply List.map_congr_left
  intro s _
  simp only [Function.comp]
  by_cases h1 : s.handle = h
  · have h2 : s.handle ≠ k := fun e => hk (e.symm.trans h1)
    rw [if_pos h1, if_neg (show ¬ ({ s with objs := os } : Session).handle = k from h2), if_neg h2, if_pos h1]
  · rw [if_neg h1]
    by_cases h2 : s.handle = k
    · rw [if_pos h2, if_neg (by rw [hf]; exact h1)]
    · rw [if_neg h2, if_neg h1]

theorem withObjs2_upd {α : Type} (l : Lib) {k : Nat} (hk : k ≠ h) (f : Session → Session) (r : α)
    (hf : ∀ s, (f s).handle = s.handle) : ((W l).upd k f, r) = withObjs2 h os (l.upd k f, r) := by
  unfold withObjs2
  rw [withObjs_upd l hk f hf]

theorem withObjs_any (l : Lib) (p : Use → Bool) :
    ((W l).sessions.any fun s => p s.use) = l.sessions.any fun s => p s.use := by
  rw [withObjs_sessions, List.any_map]
  congr 1
  funext s
  simp only [Function.comp]
  split <;> rfl

theorem withObjs_find (l : Lib) {k : Nat} (hk : k ≠ h) :
    ((W l).sessions.find? fun s => s.handle == k) = l.sessions.find? fun s => s.handle == k :=
  find_map_ne (g := fun s => { s with objs := os }) (fun _ => rfl) hk

theorem withObjs_getSession (l : Lib) {k : Nat} (hk : k ≠ h) : getSession (W l) k = getSession l k := by
  unfold getSession
  rw [withObjs_find l hk]

theorem withObjs_sessState (l : Lib) (s : Session) : sessState (W l) s = sessState l s := rfl

theorem withObjs_login (l : Lib) (u : UserType) (pin : Option Bytes) (now : Int) :
    login e (W l) u pin now = withObjs2 h os (login e l u pin now) := by
  unfold login
  split
  · rfl
  split
  · rfl
  split
  · unfold soLogin
    rw [show (W l).token = l.token from rfl]
    split
    · rfl
    split
    · rfl
    rename_i a _
    simp only
    rw [show ∀ t, ({ (W l) with token := t } : Lib).sessions = (W l).sessions from fun _ => rfl,
      withObjs_any l (fun u => u == .ro)]
    split
    · rfl
    split <;> rfl
  · unfold userLogin
    rw [show (W l).token = l.token from rfl]
    split
    · rfl
    split
    · rfl
    split
    · rfl
    · rfl
    simp only
    split <;> rfl
  · rfl
  · rfl

theorem withObjs_logout (l : Lib) : logout e (W l) = W (logout e l) := rfl

theorem withObjs_pinSet (r : Lib × Bool) : pinSet (withObjs2 h os r) = withObjs2 h os (pinSet r) := rfl

theorem withObjs_initPin (l : Lib) (s : Session) (p : Option Bytes) :
    initPin e (W l) s p = withObjs2 h os (initPin e l s p) := by
  unfold initPin
  split
  · rfl
  rw [withObjs_sessState]
  split
  · rfl
  split <;> rfl

theorem withObjs_setPin (l : Lib) (s : Session) (o n : Option Bytes) :
    setPin e (W l) s o n = withObjs2 h os (setPin e l s o n) := by
  unfold setPin
  rw [withObjs_sessState, show (W l).token = l.token from rfl]
  split
  · split
    · rfl
    split
    · rfl
    split
    · split <;> rfl
    · split <;> rfl
    · split <;> rfl
    · rfl
  · rfl

theorem withObjs_sessAdd (l : Lib) (s : Session) (hs : s.handle ≠ h) (on : Nat) (o : Obj) :
    sessAddObject e (W l) s on o = withObjs2 h os (sessAddObject e l s on o) := by
  unfold sessAddObject
  simp only [show (W l).token = l.token from rfl, show (W l).uid = l.uid from rfl]
  split
  · split
    · rfl
    split <;> rfl
  · split
    · rfl
    unfold withObjs2
    simp only
    congr 1
    exact withObjs_upd { l with uid := l.uid + 1 } hs _ (fun _ => rfl)

theorem withObjs_addObject (l : Lib) (s : Session) (hs : s.handle ≠ h) (t : List Entry) (o : Obj) :
    addObject e (W l) s t o = withObjs2 h os (addObject e l s t o) := by
  unfold addObject
  split
  · rfl
  rw [withObjs_sessAdd l s hs]
  unfold withObjs2
  generalize sessAddObject e l s _ o = r
  obtain ⟨l', r⟩ := r
  cases r <;> rfl

theorem withObjs_findObj (l : Lib) (s : Session) (k : Nat) : findObj (W l) s k = findObj l s k := rfl

theorem withObjs_cCreate (l : Lib) (s : Session) (hs : s.handle ≠ h) (t : Option (List Entry)) (p : Bool) :
    cCreate e (W l) s t p = withObjs2 h os (cCreate e l s t p) := by
  unfold cCreate
  split
  · rfl
  split
  · rfl
  split
  · rfl
  split
  · exact withObjs_addObject l s hs _ _
  · rfl

theorem withObjs_cCopy (l : Lib) (s : Session) (hs : s.handle ≠ h) (k : Nat) (t : Option (List Entry)) (p : Bool) :
    cCopy e (W l) s k t p = withObjs2 h os (cCopy e l s k t p) := by
  unfold cCopy
  rw [withObjs_findObj]
  split
  · rfl
  split
  · rfl
  split
  · rfl
  split
  · rfl
  split
  · rfl
  simp only
  split
  · rfl
  split
  · rfl
  rw [withObjs_sessAdd l s hs]
  unfold withObjs2
  generalize sessAddObject e l s _ _ = r
  obtain ⟨l', r⟩ := r
  cases r <;> rfl

theorem withObjs_cDestroy (l : Lib) (s : Session) (hs : s.handle ≠ h) (k : Nat) :
    cDestroy e (W l) s k = withObjs2 h os (cDestroy e l s k) := by
  unfold cDestroy
  rw [withObjs_findObj]
  split
  · rfl
  split
  · rfl
  split
  · split <;> rfl
  · unfold withObjs2
    simp only
    congr 1
    exact withObjs_upd l hs _ (fun _ => rfl)

theorem withObjs_cGetAttr (l : Lib) (s : Session) (k : Nat) (t : Option (List Entry)) :
    cGetAttr e (W l) s k t = withObjs2 h os (cGetAttr e l s k t) := by
  unfold cGetAttr
  rw [withObjs_findObj]
  split
  · rfl
  split <;> rfl

theorem withObjs_cSetAttr (l : Lib) (s : Session) (hs : s.handle ≠ h) (k : Nat) (t : Option (List Entry)) :
    cSetAttr e (W l) s k t = withObjs2 h os (cSetAttr e l s k t) := by
  unfold cSetAttr
  rw [withObjs_findObj]
  split
  · rfl
  split
  · rfl
  split
  · rfl
  unfold withObjs2 putObj
  simp only
  congr 1
  split
  · rfl
  · exact withObjs_upd l hs _ (fun _ => rfl)

theorem withObjs_cFindInit (l : Lib) (s : Session) (hs : s.handle ≠ h) (t : Option (List Entry)) :
    cFindInit e (W l) s t = withObjs2 h os (cFindInit e l s t) := by
  unfold cFindInit
  simp only [show (W l).token = l.token from rfl]
  split
  · rfl
  split
  · rfl
  split
  · exact withObjs2_upd l hs _ _ (by intro _; rfl)
  split
  · exact withObjs2_upd l hs _ _ (by intro _; rfl)
  split
  · exact withObjs2_upd l hs _ _ (by intro _; rfl)
  · exact withObjs2_upd l hs _ _ (by intro _; rfl)

theorem withObjs_cFindNext (l : Lib) (s : Session) (hs : s.handle ≠ h) (p : Bool) (n : Nat) :
    cFindNext (W l) s p n = withObjs2 h os (cFindNext l s p n) := by
  unfold cFindNext
  split
  · rfl
  simp only
  exact withObjs2_upd l hs _ _ (by intro _; rfl)

theorem withObjs_cCryptInit (l : Lib) (s : Session) (hs : s.handle ≠ h) (k : Kind) (m : Option (Mech × MechParam))
    (key : Nat) : cCryptInit e (W l) s k m key = withObjs2 h os (cCryptInit e l s k m key) := by
  unfold cCryptInit
  rw [withObjs_findObj]
  split
  · rfl
  split
  · rfl
  simp only
  split
  · rfl
  exact withObjs2_upd l hs _ _ (by intro _; rfl)

theorem withObjs_cCrypt (l : Lib) (s : Session) (hs : s.handle ≠ h) (c : DataCall) :
    cCrypt e (W l) s c = withObjs2 h os (cCrypt e l s c) := by
  unfold cCrypt
  rw [show currKey (W l) s = currKey l s from rfl]
  split
  · simp only
    exact withObjs2_upd l hs _ _ (by intro _; rfl)
  · simp only
    exact withObjs2_upd l hs _ _ (by intro _; rfl)
  · simp only
    split <;> rfl

theorem withObjs_cGenKey (l : Lib) (s : Session) (hs : s.handle ≠ h) (m : Option (Mech × MechParam))
    (t : Option (List Entry)) (p : Bool) : cGenKey e (W l) s m t p = withObjs2 h os (cGenKey e l s m t p) := by
  unfold cGenKey
  split
  · split
    · rfl
    split
    · rfl
    split
    · rfl
    split
    · exact withObjs_addObject { l with rng := l.rng + 1 } s hs _ _
    · rfl
  · rfl

/-- The part of `addPair` after the public key. -/
def pairTail (e : Env) (s : Session) (tq : List Entry) (priv : Obj) (l1 : Lib) (r1 : Resp) : Lib × Resp :=
  if r1.rv ≠ .ok then (l1, { rv := r1.rv, handle := some 0, priv := some 0 })
  else
    match l1.sessions.find? fun t => t.handle == s.handle with
    | none => (l1, { rv := .ub })
    | some s1 =>
      if (addObject e l1 s1 tq priv).2.rv ≠ .ok then
        ({ (addObject e l1 s1 tq priv).1 with bad := true },
          { rv := (addObject e l1 s1 tq priv).2.rv, handle := r1.handle, priv := some 0 })
      else ((addObject e l1 s1 tq priv).1, { rv := .ok, handle := r1.handle, priv := (addObject e l1 s1 tq priv).2.handle })

theorem addPair_eq (l : Lib) (s : Session) (tp tq : List Entry) (a b : Obj) :
    addPair e l s tp tq a b = pairTail e s tq b (addObject e l s tp a).1 (addObject e l s tp a).2 := rfl

theorem withObjs_pairTail (l : Lib) (r : Resp) (s : Session) (hs : s.handle ≠ h) (tq : List Entry) (b : Obj) :
    pairTail e s tq b (W l) r = withObjs2 h os (pairTail e s tq b l r) := by
  unfold pairTail
  rw [withObjs_find l hs]
  by_cases hr : r.rv ≠ .ok
  · rw [if_pos hr, if_pos hr]; rfl
  rw [if_neg hr, if_neg hr]
  cases h1 : l.sessions.find? fun t => t.handle == s.handle with
  | none => rfl
  | some s1 =>
    have hh : s1.handle = s.handle := find_handle h1
    have ha := withObjs_addObject (e := e) (h := h) (os := os) l s1 (by rw [hh]; exact hs) tq b
    have h1 : (addObject e (W l) s1 tq b).1 = W (addObject e l s1 tq b).1 := by rw [ha]; rfl
    have h2 : (addObject e (W l) s1 tq b).2 = (addObject e l s1 tq b).2 := by rw [ha]; rfl
    simp only
    rw [h1, h2]
    split <;> rfl

theorem withObjs_addPair (l : Lib) (s : Session) (hs : s.handle ≠ h) (tp tq : List Entry) (a b : Obj) :
    addPair e (W l) s tp tq a b = withObjs2 h os (addPair e l s tp tq a b) := by
  rw [addPair_eq, addPair_eq, withObjs_addObject l s hs]
  exact withObjs_pairTail _ _ s hs tq b

theorem withObjs_cGenPair (l : Lib) (s : Session) (hs : s.handle ≠ h) (m : Option (Mech × MechParam))
    (tp tq : Option (List Entry)) (p : Bool) :
    cGenPair e (W l) s m tp tq p = withObjs2 h os (cGenPair e l s m tp tq p) := by
  unfold cGenPair
  rw [show (W l).rng = l.rng from rfl]
  split
  · split
    · rfl
    split
    · rfl
    split
    · rfl
    split
    · split
      · split
        · exact withObjs_addPair { l with rng := l.rng + 1 } s hs _ _ _ _
        · rfl
        · rfl
      · rfl
    · rfl
  · rfl

theorem withObjs_cWrap (l : Lib) (s : Session) (hs : s.handle ≠ h) (m : Option (Mech × MechParam)) (wk key : Nat)
    (ob : OutBuf) : cWrap e (W l) s m wk key ob = withObjs2 h os (cWrap e l s m wk key ob) := by
  unfold cWrap
  simp only [withObjs_findObj]
  repeat' split
  all_goals first | rfl | (exact withObjs2_upd l hs _ _ (by intro _; rfl))

theorem withObjs_addRsa (l : Lib) (s : Session) (hs : s.handle ≠ h) (t : List Entry) (d : Bytes) :
    addRsaPrivate e (W l) s t d = withObjs2 h os (addRsaPrivate e l s t d) := by
  unfold addRsaPrivate
  split
  · split
    · rfl
    simp only
    rw [withObjs_addObject l s hs]
    rfl
  · rfl

theorem withObjs_cUnwrap (l : Lib) (s : Session) (hs : s.handle ≠ h) (m : Option (Mech × MechParam)) (wk : Nat)
    (d : Option Bytes) (t : Option (List Entry)) (p : Bool) :
    cUnwrap e (W l) s m wk d t p = withObjs2 h os (cUnwrap e l s m wk d t p) := by
  unfold cUnwrap
  simp only [withObjs_findObj]
  split
  · rfl
  split
  · split
    · rfl
    split
    · rfl
    split
    · rfl
    split
    · rfl
    split
    · rfl
    split
    · exact withObjs2_upd l hs _ _ (by intro _; rfl)
    generalize decrypt e.crypto _ _ _ _ _ = r
    rename_i w _ _ _ _ _
    rw [withObjs_upd l hs (fun u => { u with op := r.1, curr := some w.uid }) (fun _ => rfl)]
    split
    · rfl
    · exact withObjs_addRsa _ s hs _ _
  · rfl

theorem withObjs_cDerive (l : Lib) (s : Session) (hs : s.handle ≠ h) (m : Option DeriveMech) (b : Nat)
    (t : Option (List Entry)) (p : Bool) : cDerive e (W l) s m b t p = withObjs2 h os (cDerive e l s m b t p) := by
  unfold cDerive
  simp only [withObjs_findObj]
  split
  · split
    · rfl
    split
    · rfl
    split
    · rfl
    split
    · split
      · rfl
      · exact withObjs_addObject l s hs _ _
    · rfl
  · rfl

/-- Replacing the objects, on the list. -/
def repl (h : Nat) (os : List Obj) (s : Session) : Session := if s.handle = h then { s with objs := os } else s

theorem repl_handle (s : Session) : (repl h os s).handle = s.handle := by unfold repl; split <;> rfl
theorem repl_use (s : Session) : (repl h os s).use = s.use := by unfold repl; split <;> rfl

theorem dropUnused_map (ss : List Session) : dropUnused (ss.map (repl h os)) = (dropUnused ss).map (repl h os) := by
  induction ss with
  | nil => rfl
  | cons s ss ih =>
    simp only [List.map_cons, dropUnused, repl_use, repl_handle]
    split
    · exact ih
    · rfl

theorem closeDown_map (n : Nat) (ss : List Session) :
    closeDown n (ss.map (repl h os)) = (closeDown n ss).map (repl h os) := by
  induction n generalizing ss with
  | zero => rfl
  | succ n ih =>
    cases ss with
    | nil => rfl
    | cons s ss =>
      simp only [List.map_cons, closeDown, repl_handle]
      split
      · rw [dropUnused_map]; exact ih _
      · rfl

theorem closeDown_sublist (n : Nat) (ss : List Session) : (closeDown n ss).Sublist ss := by
  induction n generalizing ss with
  | zero => exact List.Sublist.refl _
  | succ n ih =>
    cases ss with
    | nil => exact List.Sublist.refl _
    | cons s ss =>
      simp only [closeDown]
      split
      · exact ((ih _).trans (dropUnused_suffix ss).sublist).trans (List.sublist_cons_self ..)
      · exact List.Sublist.refl _

theorem closeOne_map (ss : List Session) {k : Nat} (hk : k ≠ h) :
    closeOne (ss.map (repl h os)) k = (closeOne ss k).map (repl h os) := by
  cases ss with
  | nil => rfl
  | cons s ss =>
    simp only [List.map_cons, closeOne, repl_handle]
    split
    · exact dropUnused_map ss
    have key : ∀ t : Session, (if t.handle = k then sessFinal (repl h os t) else repl h os t) =
        repl h os (if t.handle = k then sessFinal t else t) := by
      intro t
      split
      · rename_i ht
        have : t.handle ≠ h := fun e => hk (ht.symm.trans e)
        unfold repl
        rw [if_neg this, if_neg (by rw [sessFinal_handle]; exact this)]
      · rfl
    rw [List.map_cons, key s, List.map_map, List.map_map]
    congr 1
    apply List.map_congr_left
    intro t _
    simp only [Function.comp, repl_handle]
    exact key t

theorem anyInUse_map (ss : List Session) : anyInUse (ss.map (repl h os)) = anyInUse ss := by
  unfold anyInUse
  rw [List.any_map]
  congr 1
  funext s
  simp only [Function.comp, repl_use]

theorem withObjs_close (l : Lib) {k : Nat} (hk : k ≠ h) :
    closeSession e (W l) k = withObjs2 h os (closeSession e l k) := by
  unfold closeSession withObjs2
  have h1 : (W l).sessions = l.sessions.map (repl h os) := rfl
  simp only [h1, closeOne_map _ hk, anyInUse_map]
  split <;> rfl

/-- A call on another session does the same whatever the objects of session `h` are. -/
theorem withObjs_sessCall (l : Lib) (s : Session) (hs : s.handle ≠ h) (c : SessCall) :
    sessCall e (W l) s c = withObjs2 h os (sessCall e l s c) := by
  cases c with
  | close => exact withObjs_close l hs
  | info p => simp only [sessCall, withObjs_sessState]; split <;> rfl
  | login u p n => exact withObjs_login l u p n
  | logout => rfl
  | initPin p => exact withObjs_initPin l s p
  | setPin o n => exact withObjs_setPin l s o n
  | create t p => exact withObjs_cCreate l s hs t p
  | copy o t p => exact withObjs_cCopy l s hs o t p
  | destroy o => exact withObjs_cDestroy l s hs o
  | size o p => simp only [sessCall, withObjs_findObj]; split <;> rfl
  | getAttr o t => exact withObjs_cGetAttr l s o t
  | setAttr o t => exact withObjs_cSetAttr l s hs o t
  | findInit t => exact withObjs_cFindInit l s hs t
  | findNext p n => exact withObjs_cFindNext l s hs p n
  | findFinal => simp only [sessCall]; exact withObjs2_upd l hs _ _ (by intro _; rfl)
  | cryptInit k m key => exact withObjs_cCryptInit l s hs k m key
  | crypt c => exact withObjs_cCrypt l s hs c
  | genKey m t p => exact withObjs_cGenKey l s hs m t p
  | genPair m a b p => exact withObjs_cGenPair l s hs m a b p
  | wrap m a b o => exact withObjs_cWrap l s hs m a b o
  | unwrap m w d t p => exact withObjs_cUnwrap l s hs m w d t p
  | derive m b t p => exact withObjs_cDerive l s hs m b t p
  | random p n => simp only [sessCall, cRandom]; repeat' split
                  all_goals rfl

theorem withObjs_none {l : Lib} (hn : ∀ s ∈ l.sessions, s.handle ≠ h) : W l = l := by
  unfold withObjs Lib.upd
  have : (l.sessions.map fun s => if s.handle = h then { s with objs := os } else s) = l.sessions := by
    conv => rhs; rw [← List.map_id l.sessions]
    exact List.map_congr_left fun s hs => by rw [if_neg (hn s hs)]; rfl
  rw [this]

end Verif
