import Verif.Proofs.ReadOnly
import Verif.Spec.InUse
/-!
# Keys in use exist
-/
namespace Verif

variable {e : Env}

/-- Identities of objects. -/
def uids (os : List Obj) : List Nat := os.map (·.uid)

/-- The session's key exists. -/
def LiveKey (tok : List Nat) (s : Session) : Prop := ∀ u, s.curr = some u → u ∈ uids s.objs ∨ u ∈ tok

/-- Every session's key exists. -/
def Alive (l : Lib) : Prop := ∀ s ∈ l.sessions, LiveKey (uids l.token.objs) s

theorem Alive.upd {l : Lib} (h : Alive l) (k : Nat) (f : Session → Session)
    (hf : ∀ s ∈ l.sessions, s.handle = k → LiveKey (uids l.token.objs) s → LiveKey (uids l.token.objs) (f s)) :
    Alive (l.upd k f) := by
  intro s hs
  simp only [Lib.upd] at hs
  obtain ⟨t, ht, rfl⟩ := List.mem_map.mp hs
  split
  · exact hf t ht ‹_› (h t ht)
  · exact h t ht

theorem Alive.of {l l' : Lib} (h : Alive l) (hs : l'.sessions = l.sessions)
    (ht : uids l.token.objs ⊆ uids l'.token.objs) : Alive l' := by
  intro s hsm u hu
  rw [hs] at hsm
  rcases h s hsm u hu with h | h
  · exact .inl h
  · exact .inr (ht h)

theorem Alive.eq {l l' : Lib} (h : Alive l) (hs : l'.sessions = l.sessions) (ht : l'.token = l.token) : Alive l' :=
  h.of hs (by rw [ht]; exact fun _ h => h)

theorem uids_of_key {os os' : List Obj} (h : os'.map Obj.key = os.map Obj.key) : uids os' = uids os := by
  have := congrArg (List.map fun k : Nat × Nat × Bool => k.2.1) h
  rw [List.map_map, List.map_map] at this
  exact this

theorem uids_store (l : Lib) : uids (Lib.store e l).1.token.objs = uids l.token.objs :=
  uids_of_key (store_key e l)

theorem Alive.store {l : Lib} (h : Alive l) : Alive (Lib.store e l).1 :=
  h.of rfl (by rw [uids_store]; exact fun _ h => h)

theorem uids_repl (o : Obj) (os : List Obj) : uids (replObj o os) = uids os := by
  unfold uids replObj
  rw [List.map_map]
  refine List.map_congr_left fun p _ => ?_
  simp only [Function.comp]
  split
  · exact Eq.symm ‹_›
  · rfl

theorem alive_sessAdd {l : Lib} (h : Alive l) (s : Session) (on : Nat) (o : Obj) :
    Alive (sessAddObject e l s on o).1 := by
  unfold sessAddObject
  dsimp only
  repeat' split
  all_goals first
    | exact h
    | (refine Alive.store (h.of rfl ?_); intro u hu; exact List.mem_cons_of_mem _ hu)
    | (refine Alive.upd (l := { l with uid := l.uid + 1 }) h _ _ ?_
       intro t _ _ ht u hu
       rcases ht u hu with h1 | h1
       · exact .inl (List.mem_cons_of_mem _ h1)
       · exact .inr h1)

theorem alive_add_eq {l l' : Lib} {s : Session} {on : Nat} {o : Obj} {r : Option Nat} (h : Alive l)
    (he : sessAddObject e l s on o = (l', r)) : Alive l' := by
  have := alive_sessAdd (e := e) h s on o
  rwa [he] at this

theorem alive_addObject {l : Lib} (h : Alive l) (s : Session) (t : List Entry) (o : Obj) :
    Alive (addObject e l s t o).1 := by
  unfold addObject
  split
  · exact h
  · split
    · exact alive_add_eq h ‹_›
    · exact alive_add_eq h ‹_›

theorem alive_addPair {l : Lib} (h : Alive l) (s : Session) (tp tq : List Entry) (a b : Obj) :
    Alive (addPair e l s tp tq a b).1 := by
  have h1 := alive_addObject (e := e) h s tp a
  unfold addPair
  dsimp only
  split
  · exact h1
  split
  · exact h1
  rename_i s1 _
  have h2 := alive_addObject (e := e) h1 s1 tq b
  split
  · exact h2.eq rfl rfl
  · exact h2

theorem alive_logout {l : Lib} (h : Alive l) : Alive (logout e l) := by
  refine h.of rfl ?_
  unfold logout
  dsimp only
  split
  · rw [uids_of_key (sameObjs_encodeAll ..).1]; exact fun _ h => h
  · exact fun _ h => h

theorem alive_login {l : Lib} (h : Alive l) (u : UserType) (p : Option Bytes) (n : Int) : Alive (login e l u p n).1 := by
  refine h.of (login_sessions ..) ?_
  have hd : ∀ k, uids l.token.objs ⊆ uids (decodeAll e.store k l.token.objs).2 := by
    intro k
    rw [uids_of_key (sameObjs_decodeAll ..).1]; exact fun _ h => h
  unfold login soLogin userLogin
  dsimp only
  repeat' split
  all_goals first | exact fun _ h => h | exact hd _

/-- The key found by its handle is a live key. -/
theorem live_found {l : Lib} {s t : Session} {k : Nat} {o : Obj} (hn : (handles l.sessions).Nodup)
    (hs : s ∈ l.sessions) (ht : t ∈ l.sessions) (hh : t.handle = s.handle) (hf : findObj l s k = some o) :
    o.uid ∈ uids t.objs ∨ o.uid ∈ uids l.token.objs := by
  have := session_unique hn ht hs hh
  subst this
  unfold findObj at hf
  have hm := List.mem_of_find?_eq_some hf
  split at hm
  · exact .inr (List.mem_map_of_mem (f := fun x : Obj => x.uid) hm)
  · exact .inl (List.mem_map_of_mem (f := fun x : Obj => x.uid) hm)

theorem alive_addRsa {l : Lib} (h : Alive l) (s : Session) (t : List Entry) (d : Bytes) :
    Alive (addRsaPrivate e l s t d).1 := by
  unfold addRsaPrivate
  repeat' split
  all_goals first | exact h | exact alive_addObject h _ _ _

theorem alive_sessCall {l : Lib} (hn : (handles l.sessions).Nodup) (h : Alive l) {s : Session} (hs : s ∈ l.sessions)
    (c : SessCall) (hc : c ≠ .close)
    (hd : ∀ k o, c = .destroy k → findObj l s k = some o → ∀ t ∈ l.sessions, t.curr ≠ some o.uid) :
    Alive (sessCall e l s c).1 := by
  have same : ∀ {f : Session → Session} {k : Nat}, (∀ t, (f t).curr = t.curr ∧ (f t).objs = t.objs) → Alive (l.upd k f) := by
    intro f k hf
    refine h.upd _ _ ?_
    intro t _ _ ht u hu
    rw [(hf t).1] at hu
    rw [(hf t).2]
    exact ht u hu
  cases c with
  | close => exact absurd rfl hc
  | info p => simp only [sessCall]; split <;> exact h
  | login u p n => exact alive_login h _ _ _
  | logout => exact alive_logout h
  | initPin p =>
    simp only [sessCall, initPin, pinSet, setUserPin]
    repeat' split
    all_goals first | exact h | exact Alive.store (h.eq rfl rfl) | exact Alive.store (h.of rfl fun _ h => h)
  | setPin o n =>
    simp only [sessCall, setPin, pinSet, setUserPin, setSoPin]
    repeat' split
    all_goals first | exact h | exact Alive.store (h.of rfl fun _ h => h)
  | create t p =>
    simp only [sessCall, cCreate]
    repeat' split
    all_goals first | exact h | exact alive_addObject h _ _ _
  | copy o t p =>
    simp only [sessCall, cCopy]
    repeat' split
    all_goals first | exact h | (rename_i heq; exact alive_add_eq h heq)
  | destroy k =>
    simp only [sessCall, cDestroy, removeToken]
    have hd' := hd k
    split
    · exact h
    split
    · exact h
    · rename_i o ho
      have hno := hd' o rfl ho
      have keep : ∀ os : List Obj, ∀ u, u ≠ o.uid → u ∈ uids os → u ∈ uids (os.filter fun p => p.uid != o.uid) := by
        intro os u hu hm
        obtain ⟨p, hp, rfl⟩ := List.mem_map.mp hm
        exact List.mem_map_of_mem (f := fun x : Obj => x.uid) (List.mem_filter.mpr ⟨hp, by simpa using hu⟩)
      split
      · split
        · refine Alive.store ?_
          intro t ht u hu
          have hne : u ≠ o.uid := fun he => hno t ht (he ▸ hu)
          rcases h t ht u hu with h1 | h1
          · exact .inl h1
          · exact .inr (keep _ u hne h1)
        · exact h.eq rfl rfl
      · refine h.upd _ _ ?_
        intro t htm _ ht u hu
        have hne : u ≠ o.uid := fun he => hno t htm (he ▸ hu)
        rcases ht u hu with h1 | h1
        · exact .inl (keep _ u hne h1)
        · exact .inr h1
  | size o p => simp only [sessCall]; repeat' split
                all_goals exact h
  | getAttr o t => simp only [sessCall, cGetAttr]; repeat' split
                   all_goals exact h
  | setAttr o t =>
    simp only [sessCall, cSetAttr, putObj]
    repeat' split
    all_goals first
      | exact h
      | exact h.of rfl (by simp only [uids_repl]; exact fun _ h => h)
      | (refine h.upd _ _ ?_
         intro t _ _ ht u hu
         rw [uids_repl]
         exact ht u hu)
  | findInit t =>
    simp only [sessCall, cFindInit]
    repeat' split
    all_goals first | exact h | exact same (by intro _; exact ⟨rfl, rfl⟩)
  | findNext p n =>
    simp only [sessCall, cFindNext]
    repeat' split
    all_goals first | exact h | exact same (by intro _; exact ⟨rfl, rfl⟩)
  | findFinal => exact same (by intro _; exact ⟨rfl, rfl⟩)
  | cryptInit k m key =>
    simp only [sessCall, cCryptInit]
    split
    · exact h
    split
    · exact h
    · rename_i o ho
      split
      · exact h
      refine h.upd _ _ ?_
      intro t ht hh hl u hu
      dsimp only at hu ⊢
      split at hu
      · cases hu; exact live_found hn hs ht hh ho
      · exact hl u hu
  | crypt c =>
    simp only [sessCall, cCrypt]
    repeat' split
    all_goals first | exact h | exact same (by intro _; exact ⟨rfl, rfl⟩)
  | genKey m t p =>
    simp only [sessCall, cGenKey]
    repeat' split
    all_goals first | exact h | exact alive_addObject (l := { l with rng := l.rng + 1 }) h _ _ _
  | genPair m a b p =>
    simp only [sessCall, cGenPair]
    repeat' split
    all_goals first | exact h | exact h.eq rfl rfl | exact alive_addPair (l := { l with rng := l.rng + 1 }) h _ _ _ _ _
  | wrap m a b ob =>
    simp only [sessCall, cWrap]
    split
    · exact h
    split
    · exact h
    split
    · exact h
    split
    · exact h
    split
    · exact h
    rename_i w hw
    repeat' split
    all_goals first
      | exact h
      | exact same (by intro _; exact ⟨rfl, rfl⟩)
      | (refine h.upd _ _ ?_
         intro t ht hh hl u hu
         cases hu; exact live_found (t := t) hn hs ht hh hw)
  | unwrap m w d t p =>
    simp only [sessCall, cUnwrap]
    split
    · exact h
    split
    · split
      · exact h
      split
      · exact h
      rename_i w hw
      have hup : ∀ op, Alive (l.upd s.handle fun u => { u with op := op, curr := some w.uid }) := by
        intro op
        refine h.upd _ _ ?_
        intro t ht hh hl u hu
        cases hu; exact live_found (t := t) hn hs ht hh hw
      repeat' split
      all_goals first
        | exact h
        | exact same (by intro _; exact ⟨rfl, rfl⟩)
        | exact hup _
        | exact alive_addRsa (hup _) _ _ _
    · exact h
  | derive m b t p =>
    simp only [sessCall, cDerive]
    repeat' split
    all_goals first | exact h | exact alive_addObject h _ _ _
  | random p n => simp only [sessCall, cRandom]; repeat' split
                  all_goals exact h

theorem dropUnused_sub {ss : List Session} {s : Session} (h : s ∈ dropUnused ss) : s ∈ ss := mem_dropUnused h

theorem liveKey_final (tok : List Nat) (s : Session) : LiveKey tok (sessFinal s) := by
  intro u hu
  cases hu

theorem Alive.callBody {l : Lib} (hi : SInv l) (h : Alive l) (c : Call) (hc : c.Careful l) :
    Alive (callBody e l c).1 := by
  cases c with
  | cInit =>
    simp only [Verif.callBody, cInitialize]
    split
    · intro s hs
      simp only [addSession, List.mem_cons, List.not_mem_nil, or_false] at hs
      rcases hs with rfl | rfl <;> (intro u hu; cases hu)
    · exact h
  | cFinal =>
    simp only [Verif.callBody, cFinalize]
    split
    · intro s hs; cases hs
    · exact h
  | slot id c =>
    simp only [Verif.callBody]
    split
    · exact h
    split
    · exact h
    cases c with
    | tokenInfo p n => simp only [slotCall]; split <;> exact h
    | initToken p lab =>
      intro s hs u hu
      rw [show (slotCall e l (.initToken p lab)).1.sessions = l.sessions from (initToken_sessions e l p lab).1] at hs
      have hno : s.use = .no := by
        apply Decidable.byContradiction
        intro hne
        have := (getSession_iff hi).mpr ⟨hs, rfl, hne⟩
        rw [hc s.handle] at this
        cases this
      rw [(hi.idle s hs hno).2] at hu
      cases hu
    | closeAll =>
      intro s hs
      simp only [slotCall] at hs ⊢
      unfold Verif.closeAll at hs
      split at hs
      · cases hs
      · rename_i a as heq
        rcases List.mem_cons.mp hs with rfl | h1
        · exact liveKey_final _ _
        · exact h s (mem_closeDown (heq ▸ List.mem_cons_of_mem _ h1))
    | openSession rw' serial ptr =>
      simp only [slotCall]
      split
      · exact h
      split
      · exact h
      unfold openSession
      dsimp only
      split
      · exact h
      split
      · exact h.upd _ _ (by intro t _ _ ht; exact ht)
      · split
        · exact h
        · split
          · rename_i s rest hadd
            intro t ht
            cases hss : l.sessions with
            | nil =>
              rw [hss] at hadd
              simp only [addSession, List.cons.injEq] at hadd
              obtain ⟨rfl, rfl⟩ := hadd
              simp only [List.mem_cons, List.not_mem_nil, or_false] at ht
              subst ht; intro u hu; cases hu
            | cons a as =>
              rw [hss] at hadd
              simp only [addSession, List.cons.injEq] at hadd
              obtain ⟨rfl, rfl⟩ := hadd
              rcases List.mem_cons.mp ht with rfl | ht
              · intro u hu; cases hu
              · exact h t (hss ▸ ht)
          · exact h
  | sess k c =>
    simp only [Verif.callBody]
    split
    · exact h
    split
    · exact h
    · rename_i s hs
      obtain ⟨hsh, hsu, hsm⟩ := getSession_handle hs
      by_cases hcl : c = .close
      · subst hcl
        have hone : Alive { l with sessions := closeOne l.sessions s.handle } := by
          intro t ht
          simp only at ht ⊢
          unfold Verif.closeOne at ht
          split at ht
          · cases ht
          · rename_i heq
            split at ht
            · exact h t (heq ▸ List.mem_cons_of_mem _ (mem_dropUnused ht))
            · obtain ⟨t, htm, rfl⟩ := List.mem_map.mp ht
              split
              · exact liveKey_final _ _
              · exact h t (heq ▸ htm)
        simp only [sessCall, closeSession]
        split
        · exact hone
        · exact alive_logout hone
      · refine alive_sessCall hi.nodup h hsm c hcl ?_
        intro k' o he hf t ht htc
        subst he
        refine hc s o hs hf ⟨t.handle, t, (getSession_iff hi).mpr ⟨ht, rfl, ?_⟩, htc⟩
        intro hno
        rw [(hi.idle t ht hno).2] at htc
        cases htc

theorem Alive.run {l : Lib} (hi : SInv l) (h : Alive l) (cs : List Call) (hc : Careful e l cs) :
    Alive (run e l cs) := by
  induction cs generalizing l with
  | nil => exact h
  | cons c cs ih =>
    refine ih (hi.step e c) ?_ hc.2
    have := Alive.callBody (e := e) hi h c hc.1
    unfold step
    dsimp only
    split
    · exact h
    · split
      · exact this.eq rfl rfl
      · exact this

end Verif
