import Verif.Proofs.Alive
import Verif.Proofs.Isolated
import Verif.Spec.ConcObj
/-!
# Token objects stay on the list
-/
namespace Verif

variable {e : Env}

/-- Every object of the token is still there. -/
def Grows (l l' : Lib) : Prop := l.token.objs.map Obj.key ⊆ l'.token.objs.map Obj.key

theorem Grows.refl (l : Lib) : Grows l l := fun _ h => h

theorem Grows.trans {a b c : Lib} (h1 : Grows a b) (h2 : Grows b c) : Grows a c := fun _ h => h2 (h1 h)

theorem Grows.of {l l' : Lib} (h : l'.token.objs.map Obj.key = l.token.objs.map Obj.key) : Grows l l' := by
  intro k hk; rw [h]; exact hk

theorem Grows.store {l l' : Lib} (h : Grows l l') : Grows l (Lib.store e l').1 :=
  h.trans (.of (store_key e l'))

theorem grows_sessAdd (l : Lib) (s : Session) (on : Nat) (o : Obj) : Grows l (sessAddObject e l s on o).1 := by
  unfold sessAddObject
  dsimp only
  repeat' split
  all_goals first
    | exact .refl l
    | (refine Grows.store ?_; intro u hu; exact List.mem_cons_of_mem _ hu)

theorem grows_add_eq {l l' : Lib} {s : Session} {on : Nat} {o : Obj} {r : Option Nat}
    (he : sessAddObject e l s on o = (l', r)) : Grows l l' := by
  have := grows_sessAdd (e := e) l s on o
  rwa [he] at this

theorem grows_addObject (l : Lib) (s : Session) (t : List Entry) (o : Obj) : Grows l (addObject e l s t o).1 := by
  unfold addObject
  split
  · exact .refl l
  · split
    · exact grows_add_eq ‹_›
    · exact grows_add_eq ‹_›

theorem grows_addPair (l : Lib) (s : Session) (tp tq : List Entry) (a b : Obj) : Grows l (addPair e l s tp tq a b).1 := by
  have h1 := grows_addObject (e := e) l s tp a
  unfold addPair
  dsimp only
  split
  · exact h1
  split
  · exact h1
  rename_i s1 _
  have h2 := h1.trans (grows_addObject (e := e) _ s1 tq b)
  split
  · exact h2
  · exact h2

theorem grows_logout (l : Lib) : Grows l (logout e l) := by
  unfold logout
  dsimp only
  split
  · exact .of (sameObjs_encodeAll ..).1
  · exact fun _ h => h

theorem grows_login (l : Lib) (u : UserType) (p : Option Bytes) (n : Int) : Grows l (login e l u p n).1 := by
  have hd : ∀ k, l.token.objs.map Obj.key ⊆ (decodeAll e.store k l.token.objs).2.map Obj.key := by
    intro k
    rw [(sameObjs_decodeAll ..).1]; exact fun _ h => h
  unfold Grows login soLogin userLogin
  dsimp only
  repeat' split
  all_goals first | exact fun _ h => h | exact hd _

theorem grows_addRsa (l : Lib) (s : Session) (t : List Entry) (d : Bytes) : Grows l (addRsaPrivate e l s t d).1 := by
  unfold addRsaPrivate
  repeat' split
  all_goals first | exact .refl l | exact grows_addObject _ _ _ _

theorem grows_sessCall {l : Lib} (hn : (handles l.sessions).Nodup) (hu : UidOk l) {s : Session} (hs : s ∈ l.sessions)
    (c : SessCall) (hd : ∀ k, c ≠ .destroy k) : Grows l (sessCall e l s c).1 := by
  cases c with
  | close =>
    simp only [sessCall, closeSession]
    split
    · exact .refl l
    · exact grows_logout { l with sessions := _ }
  | info p => simp only [sessCall]; split <;> exact .refl l
  | login u p n => exact grows_login _ _ _ _
  | logout => exact grows_logout _
  | initPin p =>
    simp only [sessCall, initPin, pinSet, setUserPin]
    repeat' split
    all_goals first | exact .refl l | exact Grows.store (fun _ h => h)
  | setPin o n =>
    simp only [sessCall, setPin, pinSet, setUserPin, setSoPin]
    repeat' split
    all_goals first | exact .refl l | exact Grows.store (fun _ h => h)
  | create t p =>
    simp only [sessCall, cCreate]
    repeat' split
    all_goals first | exact .refl l | exact grows_addObject _ _ _ _
  | copy o t p =>
    simp only [sessCall, cCopy]
    repeat' split
    all_goals first | exact .refl l | (rename_i heq; exact grows_add_eq heq)
  | destroy k => exact absurd rfl (hd k)
  | size o p => simp only [sessCall]; repeat' split
                all_goals exact .refl l
  | getAttr o t => simp only [sessCall, cGetAttr]; repeat' split
                   all_goals exact .refl l
  | setAttr o t =>
    simp only [sessCall, cSetAttr]
    split; · exact .refl l
    split; · exact .refl l
    split; · exact .refl l
    rename_i t' _ _ p hf
    have hk := setAttributeValue_key e.key true p t'
    unfold putObj
    split
    · rename_i hon
      refine .of ?_
      have hm := (findObj_parts hf).2.1 hon
      refine (replObj_same _ _ ?_).1
      intro q hq hqu
      have hpu : (setAttributeValue e.key true p t').2.uid = p.uid := congrArg (·.2.1) hk.1
      have := uid_inj hu.1 hq hm (hqu.trans hpu)
      subst this
      exact ⟨hk.1.symm, by rw [hk.2]; exact id⟩
    · exact .refl l
  | findInit t =>
    simp only [sessCall, cFindInit]
    repeat' split
    all_goals exact .refl l
  | findNext p n =>
    simp only [sessCall, cFindNext]
    repeat' split
    all_goals exact .refl l
  | findFinal => exact .refl l
  | cryptInit k m key =>
    simp only [sessCall, cCryptInit]
    repeat' split
    all_goals exact .refl l
  | crypt c =>
    simp only [sessCall, cCrypt]
    repeat' split
    all_goals exact .refl l
  | genKey m t p =>
    simp only [sessCall, cGenKey]
    repeat' split
    all_goals first | exact .refl l | exact grows_addObject { l with rng := l.rng + 1 } _ _ _
  | genPair m a b p =>
    simp only [sessCall, cGenPair]
    repeat' split
    all_goals first | exact .refl l | exact grows_addPair { l with rng := l.rng + 1 } _ _ _ _ _
  | wrap m a b ob =>
    simp only [sessCall, cWrap]
    repeat' split
    all_goals exact .refl l
  | unwrap m w d t p =>
    simp only [sessCall, cUnwrap]
    repeat' split
    all_goals first | exact .refl l | exact grows_addRsa (l.upd _ _) _ _ _
  | derive m b t p =>
    simp only [sessCall, cDerive]
    repeat' split
    all_goals first | exact .refl l | exact grows_addObject _ _ _ _
  | random p n => simp only [sessCall, cRandom]; repeat' split
                  all_goals exact .refl l

/-- A call that leaves the object be leaves it on the list. -/
theorem key_step {l : Lib} (hi : SInv l) (hu : UidOk l) (hb : l.bad = false) (hcnt : 0 < l.count) {h k u : Nat} {b : Bool}
    {c : Call} (hc : LeavesBe h k c) (hm : (k, u, b) ∈ l.token.objs.map Obj.key) :
    (k, u, b) ∈ (step e l c).1.token.objs.map Obj.key := by
  obtain ⟨_, _, e3, _⟩ := step_sessions (e := e) hb c
  rw [e3]
  have hcn : ¬ l.count ≤ 0 := by omega
  cases c with
  | cInit =>
    simp only [callBody, cInitialize]
    rw [if_neg (by omega)]
    exact hm
  | cFinal => exact absurd hc (by simp [LeavesBe])
  | slot id c =>
    simp only [callBody, if_neg hcn]
    split
    · exact hm
    cases c with
    | tokenInfo p n => simp only [slotCall]; split <;> exact hm
    | initToken p lb => exact absurd hc (by simp [LeavesBe])
    | openSession rw' ser ptr =>
      simp only [slotCall, openSession]
      repeat' split
      all_goals exact hm
    | closeAll => exact absurd hc (by simp [LeavesBe])
  | sess j c =>
    simp only [callBody, if_neg hcn]
    split
    · exact hm
    · rename_i s hs
      obtain ⟨_, _, hsm⟩ := getSession_handle hs
      by_cases hd : ∃ i, c = .destroy i
      · obtain ⟨i, rfl⟩ := hd
        have hik : i ≠ k := hc
        simp only [sessCall, cDestroy, removeToken]
        split; · exact hm
        split; · exact hm
        rename_i o ho
        split
        · split
          · obtain ⟨p, hp, hpk⟩ := List.mem_map.mp hm
            rw [store_key]
            refine List.mem_map.mpr ⟨p, List.mem_filter.mpr ⟨hp, ?_⟩, hpk⟩
            simp only [bne_iff_ne, ne_eq]
            intro hpo
            have := uid_inj hu.1 hp ((findObj_parts ho).2.1 ‹_›) hpo
            subst this
            have h1 : p.handle = k := congrArg (·.1) hpk
            exact hik ((findObj_parts ho).1.symm.trans h1)
          · exact hm
        · exact hm
      · exact grows_sessCall hi.nodup hu hsm c (fun i hi => hd ⟨i, hi⟩) hm

end Verif
