import Verif.Proofs.Dates
/-!
# The objects of a session are never encrypted
-/
namespace Verif

variable {e : Env}

/-- No object of a session is there only encrypted. -/
def SessClear (l : Lib) : Prop := ∀ s ∈ l.sessions, ∀ o ∈ s.objs, o.encoded = false

theorem SessClear.of {l l' : Lib} (h : SessClear l) (h1 : l'.sessions = l.sessions) : SessClear l' := by
  unfold SessClear; rw [h1]; exact h

theorem SessClear.upd {l : Lib} (h : SessClear l) {k : Nat} {f : Session → Session}
    (hf : ∀ s ∈ l.sessions, ∀ o ∈ (f s).objs, o.encoded = false) : SessClear (l.upd k f) := by
  intro s hs
  obtain ⟨t, ht, rfl⟩ := List.mem_map.mp hs
  split
  · exact hf t ht
  · exact h t ht

theorem SessClear.upd_same {l : Lib} (h : SessClear l) {k : Nat} {f : Session → Session}
    (hf : ∀ s, (f s).objs = s.objs) : SessClear (l.upd k f) :=
  h.upd fun s hs => by rw [hf]; exact h s hs

theorem SessClear.sub {l : Lib} (h : SessClear l) {ss : List Session}
    (hs : ∀ s ∈ ss, s.objs = [] ∨ ∃ t ∈ l.sessions, s.objs = t.objs) : SessClear { l with sessions := ss } := by
  intro s hm
  rcases hs s hm with h1 | ⟨t, ht, h1⟩
  · rw [h1]; intro o ho; cases ho
  · rw [h1]; exact h t ht

theorem setAttributeValue_clear (x : KeyExt) (b : Bool) {o : Obj} (t : List Entry) (h : o.encoded = false) :
    (setAttributeValue x b o t).2.encoded = false :=
  setAttributeValue_inv (P := fun o => o.encoded = false) _ _ _ _
    (fun p v hp => by obtain ⟨d, s, h⟩ := setKey_frame x p v; rw [h]; exact hp)
    (fun p en _ hp => by rw [(setAttr_rest p en).encoded]; exact hp) h

theorem newObject_clear {s : Session} {typ cls : Nat} {t : List Entry} {rv : RV} {o : Obj}
    (h : newObject e s typ cls t = (rv, o)) : o.encoded = false := by
  have := setAttributeValue_clear e.key (s.use == .rw) (o := { newObj 0 typ with cls }) t rfl
  unfold newObject at h
  rw [h] at this
  exact this

theorem createObject_clear {s : Session} {t : List Entry} {o : Obj} (h : createObject e s t = (.ok, o)) : o.encoded = false := by
  unfold createObject at h
  split at h
  · rename_i hr; exact absurd (congrArg Prod.fst h) (templClass_error hr)
  repeat' split at h
  all_goals first
    | exact newObject_clear h
    | (rename_i hr; exact absurd (congrArg Prod.fst h) (templUlong_error hr))
    | (exact absurd (congrArg Prod.fst h) RV.noConfusion)

theorem pairGen_clear {rng : Nat} {m : Mech} {typ : Nat} {gen : Obj → Obj → IRet × Obj × Obj}
    (h : pairGen e rng m = some (typ, gen)) {a b a' b' : Obj} {r : IRet} (hg : gen a b = (r, a', b')) :
    a'.encoded = a.encoded ∧ b'.encoded = b.encoded := by
  unfold pairGen at h
  split at h
  · obtain ⟨_, rfl⟩ := Prod.mk.inj (Option.some.inj h)
    unfold rsaGenerate at hg
    dsimp only at hg
    repeat' split at hg
    all_goals obtain ⟨_, hh⟩ := Prod.mk.inj hg; obtain ⟨rfl, rfl⟩ := Prod.mk.inj hh; exact ⟨rfl, rfl⟩
  · obtain ⟨_, rfl⟩ := Prod.mk.inj (Option.some.inj h)
    unfold ecGenerate at hg
    repeat' split at hg
    all_goals obtain ⟨_, hh⟩ := Prod.mk.inj hg; obtain ⟨rfl, rfl⟩ := Prod.mk.inj hh; exact ⟨rfl, rfl⟩
  · obtain ⟨_, rfl⟩ := Prod.mk.inj (Option.some.inj h)
    unfold dhGenerate at hg
    dsimp only at hg
    repeat' split at hg
    all_goals obtain ⟨_, hh⟩ := Prod.mk.inj hg; obtain ⟨rfl, rfl⟩ := Prod.mk.inj hh; exact ⟨rfl, rfl⟩
  · cases h

theorem deriveTail_clear {x : KeyExt} {o o' : Obj} {b : Bytes} (h : (deriveTail x o b).obj = some o') :
    o'.encoded = o.encoded := by
  have hs : ∀ v, (setSecretKey o v).2.encoded = o.encoded := by
    intro v
    unfold setSecretKey
    repeat' split
    all_goals rfl
  unfold deriveTail at h
  split at h
  · cases h
  dsimp only at h
  split at h
  · cases h
  split at h
  · rename_i heq
    cases h
    have := hs (fun a => if a = .value then some (b.drop (b.length - ‹Nat›)) else none)
    rw [heq] at this
    exact this
  · cases h
  · cases h

theorem clear_sessAdd {l : Lib} (h : SessClear l) (s : Session) (on : Nat) {o : Obj} (ho : o.encoded = false) :
    SessClear (sessAddObject e l s on o).1 := by
  unfold sessAddObject
  dsimp only
  split
  · split; · exact h
    split
    · exact h.of rfl
    · exact h
  · split; · exact h
    refine SessClear.upd (l := { l with uid := l.uid + 1 }) (h.of rfl) ?_
    intro t ht q hq
    rcases List.mem_cons.mp hq with rfl | hq
    · exact ho
    · exact h t ht q hq

theorem clear_addObject {l : Lib} (h : SessClear l) (s : Session) (t : List Entry) {o : Obj} (ho : o.encoded = false) :
    SessClear (addObject e l s t o).1 := by
  unfold addObject
  split
  · exact h
  · rename_i on _
    have := clear_sessAdd (e := e) h s on ho
    split <;> (rename_i heq; rw [heq] at this; exact this)

theorem clear_cCopy {l : Lib} (h : SessClear l) (s : Session) (k : Nat) (t : Option (List Entry)) (p : Bool) :
    SessClear (cCopy e l s k t p).1 := by
  unfold cCopy
  split; · exact h
  split; · exact h
  split; · exact h
  split; · exact h
  split; · exact h
  dsimp only
  split; · exact h
  split; · exact h
  rename_i t _ _ _ o _ _ on _ _ _
  have := clear_sessAdd (e := e) h s on (setAttributeValue_clear e.key true (o := newObj 0 o.typ) (getAttributeValue e.key o t).2 rfl)
  split <;> (rename_i heq; rw [heq] at this; exact this)

theorem clear_cSetAttr {l : Lib} (h : SessClear l) {s : Session} (hs : s ∈ l.sessions) (k : Nat) (t : Option (List Entry)) :
    SessClear (cSetAttr e l s k t).1 := by
  unfold cSetAttr
  split; · exact h
  split; · exact h
  split; · exact h
  rename_i o ho
  dsimp only
  unfold putObj
  split
  · exact h.of rfl
  · rename_i hk
    have hpo : o.encoded = false := by
      have hm := List.mem_of_find?_eq_some (show ((if handleOnToken k then l.token.objs else s.objs).find?
        fun o => o.handle == k) = some o from ho)
      rw [if_neg hk] at hm
      exact h s hs o hm
    refine h.upd fun u hu q hq => ?_
    obtain ⟨a, ha, rfl⟩ := List.mem_map.mp hq
    split
    · exact setAttributeValue_clear e.key true _ hpo
    · exact h u hu a ha

theorem clear_addPair {l : Lib} (h : SessClear l) (s : Session) (tp tq : List Entry) {a b : Obj} (ha : a.encoded = false)
    (hb : b.encoded = false) : SessClear (addPair e l s tp tq a b).1 := by
  have h1 := clear_addObject (e := e) h s tp ha
  unfold addPair
  dsimp only
  split
  · exact h1
  split
  · exact h1
  rename_i s1 _
  have h2 := clear_addObject (e := e) h1 s1 tq hb
  split
  · exact h2.of rfl
  · exact h2

theorem clear_cGenPair {l : Lib} (h : SessClear l) (s : Session) (m : Option (Mech × MechParam))
    (tp tq : Option (List Entry)) (p : Bool) : SessClear (cGenPair e l s m tp tq p).1 := by
  unfold cGenPair
  split
  rotate_left; · exact h
  split; · exact h
  split; · exact h
  rename_i typ gen hp
  split; · exact h
  split
  rotate_left; · exact h
  rename_i pub hpub
  split
  rotate_left; · exact h
  rename_i priv hpriv
  split
  · rename_i pub' priv' hg
    obtain ⟨h1, h2⟩ := pairGen_clear hp hg
    exact clear_addPair (l := { l with rng := l.rng + 1 }) (h.of rfl) s _ _ (h1.trans (newObject_clear hpub)) (h2.trans (newObject_clear hpriv))
  · exact h
  · exact h.of rfl

theorem clear_close {l : Lib} (h : SessClear l) (k : Nat) : SessClear (closeSession e l k).1 := by
  have h1 : SessClear { l with sessions := closeOne l.sessions k } := by
    refine h.sub ?_
    cases hss : l.sessions with
    | nil => intro s hs; cases hs
    | cons a ss =>
      unfold closeOne
      dsimp only
      split
      · intro s hs
        exact .inr ⟨s, List.mem_cons_of_mem _ ((dropUnused_suffix ss).subset hs), rfl⟩
      · intro s hs
        obtain ⟨t, ht, rfl⟩ := List.mem_map.mp hs
        split
        · rcases sessFinal_or t with h2 | h2
          · exact .inl h2
          · exact .inr ⟨t, ht, h2⟩
        · exact .inr ⟨t, ht, rfl⟩
  unfold closeSession
  dsimp only
  split
  · exact h1
  · exact h1.of rfl

theorem clear_sessCall {l : Lib} (h : SessClear l) {s : Session} (hs : s ∈ l.sessions) (c : SessCall) :
    SessClear (sessCall e l s c).1 := by
  cases c with
  | close => exact clear_close h _
  | info p => simp only [sessCall]; split <;> exact h
  | login u p n =>
    simp only [sessCall, login, soLogin, userLogin]
    repeat' split
    all_goals first | exact h | exact h.of rfl
  | logout => exact h.of rfl
  | initPin p =>
    simp only [sessCall, initPin, setUserPin]
    repeat' split
    all_goals first | exact h | exact h.of rfl
  | setPin o n =>
    simp only [sessCall, setPin, setUserPin, setSoPin]
    repeat' split
    all_goals first | exact h | exact h.of rfl
  | create t p =>
    simp only [sessCall, cCreate]
    repeat' split
    all_goals first | exact h | (rename_i heq; exact clear_addObject h s _ (createObject_clear heq))
  | copy o t p => exact clear_cCopy h s o t p
  | destroy o =>
    simp only [sessCall, cDestroy]
    repeat' split
    all_goals first | exact h | exact h.of rfl | exact h.upd fun t ht q hq => h t ht q (List.mem_filter.mp hq).1
  | size o p => simp only [sessCall]; repeat' split
                all_goals exact h
  | getAttr o t => simp only [sessCall, cGetAttr]; repeat' split
                   all_goals exact h
  | setAttr o t => exact clear_cSetAttr h hs o t
  | findInit t =>
    simp only [sessCall, cFindInit]
    repeat' split
    all_goals first | exact h | exact h.upd_same (by intro _; rfl)
  | findNext p n =>
    simp only [sessCall, cFindNext]
    repeat' split
    all_goals first | exact h | exact h.upd_same (by intro _; rfl)
  | findFinal => exact h.upd_same (by intro _; rfl)
  | cryptInit k m key =>
    simp only [sessCall, cCryptInit]
    repeat' split
    all_goals first | exact h | exact h.upd_same (by intro _; rfl)
  | crypt c =>
    simp only [sessCall, cCrypt]
    repeat' split
    all_goals first | exact h | exact h.upd_same (by intro _; rfl)
  | genKey m t p =>
    simp only [sessCall, cGenKey]
    repeat' split
    all_goals first | exact h | (rename_i heq; exact clear_addObject (l := { l with rng := l.rng + 1 }) (h.of rfl) s _ (by have := newObject_clear heq; exact this))
  | genPair m a b p => exact clear_cGenPair h s m a b p
  | wrap m a b o =>
    simp only [sessCall, cWrap]
    repeat' split
    all_goals first | exact h | exact h.upd_same (by intro _; rfl)
  | unwrap m w d t p =>
    have key : ∀ {l : Lib} (_ : SessClear l) (t : List Entry) (d : Bytes), SessClear (addRsaPrivate e l s t d).1 := by
      intro l h t d
      unfold addRsaPrivate
      repeat' split
      all_goals first | exact h | (rename_i heq _ _ _; exact clear_addObject h s t (by have := newObject_clear heq; exact this))
    simp only [sessCall, cUnwrap]
    repeat' split
    all_goals first | exact h | exact h.upd_same (by intro _; rfl) | exact key (h.upd_same (by intro _; rfl)) _ _
  | derive m b t p =>
    simp only [sessCall, cDerive]
    repeat' split
    all_goals first
      | exact h
      | (rename_i heq _ _ ho; exact clear_addObject h s _ ((deriveTail_clear ho).trans (createObject_clear heq)))
  | random p n => simp only [sessCall, cRandom]; repeat' split
                  all_goals exact h.of rfl

theorem clear_callBody {l : Lib} (h : SessClear l) (c : Call) : SessClear (callBody e l c).1 := by
  cases c with
  | cInit =>
    simp only [callBody, cInitialize]
    split
    · intro s hs
      simp only [addSession, List.mem_cons, List.not_mem_nil, or_false] at hs
      rcases hs with rfl | rfl <;> (intro o ho; cases ho)
    · exact h.of rfl
  | cFinal =>
    simp only [callBody, cFinalize]
    split
    · intro s hs; cases hs
    · exact h.of rfl
  | slot id c =>
    simp only [callBody]
    split; · exact h
    split; · exact h
    cases c with
    | tokenInfo p n => simp only [slotCall]; split <;> exact h
    | initToken p lab =>
      simp only [slotCall, initToken]
      repeat' split
      all_goals first | exact h | exact h.of rfl
    | closeAll =>
      refine h.sub ?_
      unfold closeAll
      cases hc : closeDown l.sessions.length l.sessions with
      | nil => intro s hs; cases hs
      | cons a ss =>
        have hm : ∀ t ∈ a :: ss, t ∈ l.sessions := fun t ht => mem_closeDown (by rw [hc]; exact ht)
        intro s hs
        rcases List.mem_cons.mp hs with rfl | hs
        · rcases sessFinal_or a with h2 | h2
          · exact .inl h2
          · exact .inr ⟨a, hm a List.mem_cons_self, h2⟩
        · exact .inr ⟨s, hm s (List.mem_cons_of_mem _ hs), rfl⟩
    | openSession rw2 serial ptr =>
      simp only [slotCall, openSession]
      split; · exact h
      split; · exact h
      split; · exact h
      split; · exact h.upd_same (by intro _; rfl)
      split; · exact h
      split
      · rename_i s rest heq
        intro t ht
        unfold addSession at heq
        split at heq
        · cases heq
          rcases List.mem_cons.mp ht with rfl | ht
          · intro o ho; cases ho
          · cases ht
        · cases heq
          rcases List.mem_cons.mp ht with rfl | ht
          · intro o ho; cases ho
          · exact h t ht
      · exact h
  | sess k c =>
    simp only [callBody]
    split; · exact h
    split
    · exact h
    · rename_i s hg
      exact clear_sessCall h (getSession_handle hg).2.2 c

theorem clear_run {l : Lib} (h : SessClear l) (cs : List Call) : SessClear (run e l cs) := by
  induction cs generalizing l with
  | nil => exact h
  | cons c cs ih =>
    refine ih ?_
    unfold step
    split
    · exact h
    · have := clear_callBody (e := e) h c
      dsimp only
      split
      · exact this.of rfl
      · exact this

/-- After any history no object of a session is encrypted. -/
theorem sessClear {l : Lib} (h : Start l) (cs : List Call) : SessClear (run e l cs) :=
  clear_run (by intro s hs; rw [h.sessions] at hs; cases hs) cs

end Verif
