import Verif.Proofs.Alive
import Verif.Proofs.Disk

/-!
# No session's key is younger than the library's last object
-/

namespace Verif

variable {e : Env}

/-- The identity of every session's key was given to an object, which may be gone. -/
def Aged (l : Lib) : Prop := ∀ s ∈ l.sessions, ∀ u, s.curr = some u → u < l.uid

theorem Aged.of {l l' : Lib} (h : Aged l) (hs : l'.sessions = l.sessions) (hu : l.uid ≤ l'.uid) : Aged l' := by
  intro s hm u he
  rw [hs] at hm
  exact Nat.lt_of_lt_of_le (h s hm u he) hu

theorem Aged.upd {l : Lib} (h : Aged l) (k : Nat) (f : Session → Session)
    (hf : ∀ s ∈ l.sessions, s.handle = k → ∀ u, (f s).curr = some u → u < l.uid) : Aged (l.upd k f) := by
  intro s hs
  simp only [Lib.upd] at hs
  obtain ⟨t, ht, rfl⟩ := List.mem_map.mp hs
  split
  · exact hf t ht ‹_›
  · exact h t ht

theorem Aged.updSame {l : Lib} (h : Aged l) (k : Nat) (f : Session → Session) (hf : ∀ s, (f s).curr = s.curr) : Aged (l.upd k f) :=
  h.upd k f fun s hs _ u hu => h s hs u (hf s ▸ hu)

theorem aged_sessAdd {l : Lib} (h : Aged l) (s : Session) (on : Nat) (o : Obj) : Aged (sessAddObject e l s on o).1 := by
  unfold sessAddObject
  dsimp only
  repeat' split
  all_goals first
    | exact h
    | exact h.of rfl (Nat.le_succ _)
    | exact Aged.updSame (l := { l with uid := l.uid + 1 }) (h.of rfl (Nat.le_succ _)) _ _ fun _ => rfl

theorem aged_add_eq {l l' : Lib} {s : Session} {on : Nat} {o : Obj} {r : Option Nat} (h : Aged l)
    (he : sessAddObject e l s on o = (l', r)) : Aged l' := by
  have := aged_sessAdd (e := e) h s on o
  rwa [he] at this

theorem aged_addObject {l : Lib} (h : Aged l) (s : Session) (t : List Entry) (o : Obj) : Aged (addObject e l s t o).1 := by
  unfold addObject
  split
  · exact h
  · split
    · exact aged_add_eq h ‹_›
    · exact aged_add_eq h ‹_›

theorem aged_addPair {l : Lib} (h : Aged l) (s : Session) (tp tq : List Entry) (a b : Obj) : Aged (addPair e l s tp tq a b).1 := by
  have h1 := aged_addObject (e := e) h s tp a
  unfold addPair
  dsimp only
  split
  · exact h1
  split
  · exact h1
  rename_i s1 _
  have h2 := aged_addObject (e := e) h1 s1 tq b
  split
  · exact h2.of rfl (Nat.le_refl _)
  · exact h2

theorem aged_found {l : Lib} (hp : l.PopA) {s : Session} {k : Nat} {o : Obj} (hs : s ∈ l.sessions) (hf : findObj l s k = some o) : o.uid < l.uid := by
  unfold findObj at hf
  have hm := List.mem_of_find?_eq_some hf
  split at hm
  · exact hp.tokUid _ (List.mem_map_of_mem (f := Obj.key) hm)
  · exact hp.sUid _ (List.mem_map_of_mem (f := Session.key) hs) _ (List.mem_map_of_mem (f := Obj.key) hm)

theorem aged_addRsa {l : Lib} (h : Aged l) (s : Session) (t : List Entry) (d : Bytes) : Aged (addRsaPrivate e l s t d).1 := by
  unfold addRsaPrivate
  repeat' split
  all_goals first | exact h | exact aged_addObject h _ _ _

theorem login_uid (l : Lib) (u : UserType) (p : Option Bytes) (n : Int) : (login e l u p n).1.uid = l.uid := by
  unfold login soLogin userLogin
  dsimp only
  repeat' split
  all_goals rfl

theorem aged_sessCall {l : Lib} (hp : l.PopA) (h : Aged l) {s : Session} (hs : s ∈ l.sessions) (c : SessCall) (hc : c ≠ .close) :
    Aged (sessCall e l s c).1 := by
  have same : ∀ {f : Session → Session} {k : Nat}, (∀ t, (f t).curr = t.curr) → Aged (l.upd k f) := fun hf => h.updSame _ _ hf
  have tok : ∀ {l' : Lib}, l'.sessions = l.sessions → l'.uid = l.uid → Aged l' := fun h1 h2 => h.of h1 (Nat.le_of_eq h2.symm)
  cases c with
  | close => exact absurd rfl hc
  | info p => simp only [sessCall]; split <;> exact h
  | login u p n => exact tok (login_sessions ..) (login_uid ..)
  | logout => exact tok rfl rfl
  | initPin p =>
    simp only [sessCall, initPin, pinSet, setUserPin]
    repeat' split
    all_goals first | exact h | exact tok rfl rfl
  | setPin o n =>
    simp only [sessCall, setPin, pinSet, setUserPin, setSoPin]
    repeat' split
    all_goals first | exact h | exact tok rfl rfl
  | create t p =>
    simp only [sessCall, cCreate]
    repeat' split
    all_goals first | exact h | exact aged_addObject h _ _ _
  | copy o t p =>
    simp only [sessCall, cCopy]
    repeat' split
    all_goals first | exact h | (rename_i heq; exact aged_add_eq h heq)
  | destroy k =>
    simp only [sessCall, cDestroy, removeToken]
    repeat' split
    all_goals first | exact h | exact tok rfl rfl | exact same fun _ => rfl
  | size o p => simp only [sessCall]; repeat' split
                all_goals exact h
  | getAttr o t => simp only [sessCall, cGetAttr]; repeat' split
                   all_goals exact h
  | setAttr o t =>
    simp only [sessCall, cSetAttr, putObj]
    repeat' split
    all_goals first | exact h | exact tok rfl rfl | exact same fun _ => rfl
  | findInit t =>
    simp only [sessCall, cFindInit]
    repeat' split
    all_goals first | exact h | exact same fun _ => rfl
  | findNext p n =>
    simp only [sessCall, cFindNext]
    repeat' split
    all_goals first | exact h | exact same fun _ => rfl
  | findFinal => exact same fun _ => rfl
  | cryptInit k m key =>
    simp only [sessCall, cCryptInit]
    split
    · exact h
    split
    · exact h
    · rename_i o ho
      split
      · exact h
      refine h.upd _ _ ?_
      intro t ht hh u hu
      dsimp only at hu ⊢
      split at hu
      · cases hu; exact aged_found hp hs ho
      · exact h t ht u hu
  | crypt c =>
    simp only [sessCall, cCrypt]
    repeat' split
    all_goals first | exact h | exact same fun _ => rfl
  | genKey m t p =>
    simp only [sessCall, cGenKey]
    repeat' split
    all_goals first | exact h | exact aged_addObject (l := { l with rng := l.rng + 1 }) h _ _ _
  | genPair m a b p =>
    simp only [sessCall, cGenPair]
    repeat' split
    all_goals first | exact h | exact tok rfl rfl | exact aged_addPair (l := { l with rng := l.rng + 1 }) h _ _ _ _ _
  | wrap m a b ob =>
    simp only [sessCall, cWrap]
    split
    · exact h
    split
    · exact h
    split
    · exact h
    split
    · exact h
    split
    · exact h
    rename_i w hw
    repeat' split
    all_goals first
      | exact h
      | exact same fun _ => rfl
      | (refine h.upd _ _ ?_
         intro t ht hh u hu
         cases hu; exact aged_found hp hs hw)
  | unwrap m w d t p =>
    simp only [sessCall, cUnwrap]
    split
    · exact h
    split
    · split
      · exact h
      split
      · exact h
      rename_i w hw
      have hup : ∀ op, Aged (l.upd s.handle fun u => { u with op := op, curr := some w.uid }) := by
        intro op
        refine h.upd _ _ ?_
        intro t ht hh u hu
        cases hu; exact aged_found hp hs hw
      repeat' split
      all_goals first
        | exact h
        | exact same fun _ => rfl
        | exact hup _
        | exact aged_addRsa (hup _) _ _ _
    · exact h
  | derive m b t p =>
    simp only [sessCall, cDerive]
    repeat' split
    all_goals first | exact h | exact aged_addObject h _ _ _
  | random p n => simp only [sessCall, cRandom]; repeat' split
                  all_goals exact h

theorem initToken_uid (l : Lib) (p lab : Option Bytes) : (initToken e l p lab).1.uid = l.uid := by
  unfold initToken pinSet setSoPin
  repeat' split
  all_goals rfl

theorem Aged.callBody {l : Lib} (hp : l.PopA) (h : Aged l) (c : Call) : Aged (callBody e l c).1 := by
  cases c with
  | cInit =>
    simp only [Verif.callBody, cInitialize]
    split
    · intro s hs
      simp only [addSession, List.mem_cons, List.not_mem_nil, or_false] at hs
      rcases hs with rfl | rfl <;> (intro u hu; cases hu)
    · exact h
  | cFinal =>
    simp only [Verif.callBody, cFinalize]
    split
    · intro s hs; cases hs
    · exact h
  | slot id c =>
    simp only [Verif.callBody]
    split
    · exact h
    split
    · exact h
    cases c with
    | tokenInfo p n => simp only [slotCall]; split <;> exact h
    | initToken p lab => exact h.of (initToken_sessions e l p lab).1 (Nat.le_of_eq (initToken_uid l p lab).symm)
    | closeAll =>
      intro s hs
      simp only [slotCall] at hs ⊢
      unfold Verif.closeAll at hs
      split at hs
      · cases hs
      · rename_i a as heq
        rcases List.mem_cons.mp hs with rfl | h1
        · intro u hu; cases hu
        · exact h s (mem_closeDown (heq ▸ List.mem_cons_of_mem _ h1))
    | openSession rw' serial ptr =>
      simp only [slotCall]
      split
      · exact h
      split
      · exact h
      unfold openSession
      dsimp only
      split
      · exact h
      split
      · exact h.updSame _ _ fun _ => rfl
      · split
        · exact h
        · split
          · rename_i s rest hadd
            intro t ht
            cases hss : l.sessions with
            | nil =>
              rw [hss] at hadd
              simp only [addSession, List.cons.injEq] at hadd
              obtain ⟨rfl, rfl⟩ := hadd
              simp only [List.mem_cons, List.not_mem_nil, or_false] at ht
              subst ht; intro u hu; cases hu
            | cons a as =>
              rw [hss] at hadd
              simp only [addSession, List.cons.injEq] at hadd
              obtain ⟨rfl, rfl⟩ := hadd
              rcases List.mem_cons.mp ht with rfl | ht
              · intro u hu; cases hu
              · exact h t (hss ▸ ht)
          · exact h
  | sess k c =>
    simp only [Verif.callBody]
    split
    · exact h
    split
    · exact h
    · rename_i s hs
      obtain ⟨hsh, hsu, hsm⟩ := getSession_handle hs
      by_cases hcl : c = .close
      · subst hcl
        have hone : Aged { l with sessions := closeOne l.sessions s.handle } := by
          intro t ht
          simp only at ht ⊢
          unfold Verif.closeOne at ht
          split at ht
          · cases ht
          · rename_i heq
            split at ht
            · exact h t (heq ▸ List.mem_cons_of_mem _ (mem_dropUnused ht))
            · obtain ⟨t, htm, rfl⟩ := List.mem_map.mp ht
              split
              · intro u hu; cases hu
              · exact h t (heq ▸ htm)
        simp only [sessCall, closeSession]
        split
        · exact hone
        · exact hone.of rfl (Nat.le_refl _)
      · exact aged_sessCall hp h hsm c hcl

theorem Aged.run (hh : HashLen e) (hr : RandLen e) {l : Lib} (hi : SInv l) (hc : CapInv l) (h : Aged l) (cs : List Call) : Aged (run e l cs) := by
  induction cs generalizing l with
  | nil => exact h
  | cons c cs ih =>
    refine ih (hi.step e c) (hc.step hh hr hi c) ?_
    have := Aged.callBody (e := e) hc.pop h c
    unfold step
    dsimp only
    split
    · exact h
    · split
      · exact this.of rfl (Nat.le_refl _)
      · exact this

theorem Start.aged {l : Lib} (h : Start l) : Aged l := by
  intro s hs
  rw [h.sessions] at hs
  cases hs

end Verif
