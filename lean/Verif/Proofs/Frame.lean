import Verif.Spec.Api

/-!
# What calls on a session leave alone
-/

namespace Verif

/-- Only the session with handle `h` may have changed, its handle and mode have not. -/
structure Frame (h : Nat) (l l' : Lib) : Prop where
  count : l'.count = l.count
  sess : ∃ g : Session → Session, (∀ t, (g t).handle = t.handle ∧ (g t).use = t.use) ∧
    l'.sessions = l.sessions.map fun t => if t.handle = h then g t else t

namespace Frame

theorem of_eq {h : Nat} {l l' : Lib} (hc : l'.count = l.count) (hs : l'.sessions = l.sessions) :
    Frame h l l' :=
  ⟨hc, id, fun _ => ⟨rfl, rfl⟩, by simp [hs]⟩

theorem refl (h : Nat) (l : Lib) : Frame h l l := of_eq rfl rfl

theorem trans {h : Nat} {a b c : Lib} (h1 : Frame h a b) (h2 : Frame h b c) : Frame h a c := by
  obtain ⟨c1, g1, p1, s1⟩ := h1
  obtain ⟨c2, g2, p2, s2⟩ := h2
  refine ⟨c2.trans c1, g2 ∘ g1, fun t => ⟨(p2 _).1.trans (p1 t).1, (p2 _).2.trans (p1 t).2⟩, ?_⟩
  rw [s2, s1, List.map_map]
  refine List.map_congr_left fun t _ => ?_
  simp only [Function.comp_apply]
  by_cases ht : t.handle = h
  · simp [ht, (p1 t).1]
  · simp [ht]

theorem after {h : Nat} {a b c : Lib} (h2 : Frame h b c) (h1 : Frame h a b) : Frame h a c := h1.trans h2

theorem upd {h : Nat} {l : Lib} {f : Session → Session}
    (hf : ∀ t, (f t).handle = t.handle ∧ (f t).use = t.use) : Frame h l (l.upd h f) :=
  ⟨rfl, f, hf, rfl⟩

theorem store (e : Env) (h : Nat) (l : Lib) : Frame h l (Lib.store e l).1 := of_eq rfl rfl

end Frame

/-- Closes the goals of the form `Frame h l l'` where `l'` is a record update of `l`. -/
macro "frame" : tactic =>
  `(tactic| first
    | exact Frame.of_eq rfl rfl
    | exact Frame.upd fun _ => ⟨rfl, rfl⟩)

theorem frame_soLogin (e : Env) (h : Nat) (l : Lib) (pin : Bytes) (now : Int) :
    Frame h l (soLogin e l pin now).1 := by
  unfold soLogin; dsimp only
  repeat' split
  all_goals frame

theorem frame_userLogin (e : Env) (h : Nat) (l : Lib) (pin : Bytes) (now : Int) :
    Frame h l (userLogin e l pin now).1 := by
  unfold userLogin; dsimp only
  repeat' split
  all_goals frame

theorem frame_login (e : Env) (h : Nat) (l : Lib) (u : UserType) (pin : Option Bytes) (now : Int) :
    Frame h l (login e l u pin now).1 := by
  unfold login
  repeat' split
  all_goals first | frame | exact frame_soLogin .. | exact frame_userLogin ..

theorem frame_logout (e : Env) (h : Nat) (l : Lib) : Frame h l (logout e l) := by
  unfold logout; frame

theorem frame_setSoPin (e : Env) (h : Nat) (l : Lib) (p : Bytes) : Frame h l (setSoPin e l p).1 := by
  unfold setSoPin; frame

theorem frame_setUserPin (e : Env) (h : Nat) (l : Lib) (p : Bytes) : Frame h l (setUserPin e l p).1 := by
  unfold setUserPin; frame

theorem frame_initPin (e : Env) (h : Nat) (l : Lib) (s : Session) (p : Option Bytes) :
    Frame h l (initPin e l s p).1 := by
  unfold initPin pinSet
  repeat' split
  all_goals first | frame | exact frame_setUserPin ..

theorem frame_setPin (e : Env) (h : Nat) (l : Lib) (s : Session) (o n : Option Bytes) :
    Frame h l (setPin e l s o n).1 := by
  unfold setPin pinSet
  repeat' split
  all_goals first | frame | exact frame_setUserPin .. | exact frame_setSoPin ..

theorem frame_sessAddObject (e : Env) (l : Lib) (s : Session) (on : Nat) (o : Obj) :
    Frame s.handle l (sessAddObject e l s on o).1 := by
  unfold sessAddObject; dsimp only
  repeat' split
  all_goals first
    | frame
    | exact Frame.after (Frame.upd fun _ => ⟨rfl, rfl⟩) (Frame.of_eq rfl rfl)

theorem frame_add_eq {e : Env} {l l' : Lib} {s : Session} {on : Nat} {o : Obj} {r : Option Nat}
    (h : sessAddObject e l s on o = (l', r)) : Frame s.handle l l' := by
  have := frame_sessAddObject e l s on o
  rwa [h] at this

theorem frame_addObject (e : Env) (l : Lib) (s : Session) (t : List Entry) (o : Obj) :
    Frame s.handle l (addObject e l s t o).1 := by
  unfold addObject
  split
  · frame
  · split <;> rename_i heq <;> exact frame_add_eq heq

theorem frame_cCreate (e : Env) (l : Lib) (s : Session) (t : Option (List Entry)) (p : Bool) :
    Frame s.handle l (cCreate e l s t p).1 := by
  unfold cCreate
  repeat' split
  all_goals first | frame | exact frame_addObject ..

theorem frame_cCopy (e : Env) (l : Lib) (s : Session) (h : Nat) (t : Option (List Entry)) (p : Bool) :
    Frame s.handle l (cCopy e l s h t p).1 := by
  unfold cCopy; dsimp only
  repeat' split
  all_goals first
    | frame
    | (rename_i heq; exact frame_add_eq heq)

theorem frame_cDestroy (e : Env) (l : Lib) (s : Session) (h : Nat) :
    Frame s.handle l (cDestroy e l s h).1 := by
  unfold cDestroy removeToken; dsimp only
  repeat' split
  all_goals frame

theorem frame_cGetAttr (e : Env) (l : Lib) (s : Session) (h : Nat) (t : Option (List Entry)) :
    (cGetAttr e l s h t).1 = l := by
  unfold cGetAttr
  repeat' split
  all_goals rfl

theorem frame_putObj (l : Lib) (s : Session) (h : Nat) (o : Obj) : Frame s.handle l (putObj l s h o) := by
  unfold putObj
  split <;> frame

theorem frame_cSetAttr (e : Env) (l : Lib) (s : Session) (h : Nat) (t : Option (List Entry)) :
    Frame s.handle l (cSetAttr e l s h t).1 := by
  unfold cSetAttr
  repeat' split
  all_goals first | frame | exact frame_putObj ..

theorem frame_cFindInit (e : Env) (l : Lib) (s : Session) (t : Option (List Entry)) :
    Frame s.handle l (cFindInit e l s t).1 := by
  unfold cFindInit; dsimp only
  repeat' split
  all_goals frame

theorem frame_cFindNext (l : Lib) (s : Session) (p : Bool) (m : Nat) :
    Frame s.handle l (cFindNext l s p m).1 := by
  unfold cFindNext; dsimp only
  repeat' split
  all_goals frame

theorem frame_cCryptInit (e : Env) (l : Lib) (s : Session) (k : Kind) (m : Option (Mech × MechParam)) (key : Nat) :
    Frame s.handle l (cCryptInit e l s k m key).1 := by
  unfold cCryptInit; dsimp only
  repeat' split
  all_goals frame

theorem frame_cCrypt (e : Env) (l : Lib) (s : Session) (c : DataCall) :
    Frame s.handle l (cCrypt e l s c).1 := by
  unfold cCrypt; dsimp only
  repeat' split
  all_goals frame

theorem frame_cGenKey (e : Env) (l : Lib) (s : Session) (m : Option (Mech × MechParam))
    (t : Option (List Entry)) (p : Bool) : Frame s.handle l (cGenKey e l s m t p).1 := by
  unfold cGenKey
  repeat' split
  all_goals first
    | frame
    | exact Frame.after (frame_addObject ..) (Frame.of_eq rfl rfl)

theorem find_handle {ss : List Session} {h : Nat} {s : Session}
    (hf : ss.find? (fun t => t.handle == h) = some s) : s.handle = h := by
  simpa using List.find?_some hf

theorem frame_addPair (e : Env) (l : Lib) (s : Session) (tp tq : List Entry) (pub priv : Obj) :
    Frame s.handle l (addPair e l s tp tq pub priv).1 := by
  unfold addPair
  have h1 := frame_addObject e l s tp pub
  dsimp only
  split
  · exact h1
  · split
    · exact h1
    · rename_i s1 hs
      have hh := find_handle hs
      have h2 := frame_addObject e (addObject e l s tp pub).1 s1 tq priv
      rw [hh] at h2
      split
      · exact h1.trans (h2.trans (Frame.of_eq rfl rfl))
      · exact h1.trans h2

theorem frame_cGenPair (e : Env) (l : Lib) (s : Session) (m : Option (Mech × MechParam))
    (tp tq : Option (List Entry)) (p : Bool) : Frame s.handle l (cGenPair e l s m tp tq p).1 := by
  unfold cGenPair
  repeat' split
  all_goals first
    | frame
    | exact Frame.after (frame_addPair ..) (Frame.of_eq rfl rfl)

theorem frame_cWrap (e : Env) (l : Lib) (s : Session) (m : Option (Mech × MechParam)) (wk key : Nat)
    (ob : OutBuf) : Frame s.handle l (cWrap e l s m wk key ob).1 := by
  unfold cWrap; dsimp only
  repeat' split
  all_goals frame

theorem frame_addRsaPrivate (e : Env) (l : Lib) (s : Session) (t : List Entry) (der : Bytes) :
    Frame s.handle l (addRsaPrivate e l s t der).1 := by
  unfold addRsaPrivate
  repeat' split
  all_goals first
    | frame
    | exact frame_addObject ..

theorem frame_cUnwrap (e : Env) (l : Lib) (s : Session) (m : Option (Mech × MechParam)) (wk : Nat)
    (d : Option Bytes) (t : Option (List Entry)) (p : Bool) :
    Frame s.handle l (cUnwrap e l s m wk d t p).1 := by
  unfold cUnwrap; dsimp only
  repeat' split
  all_goals first
    | frame
    | exact Frame.after (frame_addRsaPrivate ..) (Frame.upd fun _ => ⟨rfl, rfl⟩)

theorem frame_cDerive (e : Env) (l : Lib) (s : Session) (m : Option DeriveMech) (b : Nat)
    (t : Option (List Entry)) (p : Bool) : Frame s.handle l (cDerive e l s m b t p).1 := by
  unfold cDerive; dsimp only
  repeat' split
  all_goals first
    | frame
    | exact frame_addObject ..

/-- A call on a session, other than closing it, changes no other session and not the
mode of this one. -/
theorem frame_sessCall (e : Env) (l : Lib) (s : Session) (c : SessCall) (hc : c ≠ .close) :
    Frame s.handle l (sessCall e l s c).1 := by
  cases c <;> simp only [sessCall]
  case close => exact absurd rfl hc
  case info => split <;> frame
  case login => exact frame_login ..
  case logout => exact frame_logout ..
  case initPin => exact frame_initPin ..
  case setPin => exact frame_setPin ..
  case create => exact frame_cCreate ..
  case copy => exact frame_cCopy ..
  case destroy => exact frame_cDestroy ..
  case size => split <;> frame
  case getAttr => exact (frame_cGetAttr ..) ▸ Frame.refl ..
  case setAttr => exact frame_cSetAttr ..
  case findInit => exact frame_cFindInit ..
  case findNext => exact frame_cFindNext ..
  case findFinal => frame
  case cryptInit => exact frame_cCryptInit ..
  case crypt => exact frame_cCrypt ..
  case genKey => exact frame_cGenKey ..
  case genPair => exact frame_cGenPair ..
  case wrap => exact frame_cWrap ..
  case unwrap => exact frame_cUnwrap ..
  case derive => exact frame_cDerive ..
  case random => unfold cRandom; repeat' split
                 all_goals frame

end Verif
