import Verif.Proofs.Look
import Verif.Spec.ReadOnly
import Verif.Props.Private
/-!
# Calls on read-only sessions
-/
namespace Verif

variable {e : Env}

theorem newObject_ro {s : Session} (hs : s.use ≠ .rw) (typ cls : Nat) (t : List Entry) :
    (newObject e s typ cls t).1 = .sessionReadOnly := by
  have : (s.use == .rw) = false := by simpa using hs
  unfold newObject setAttributeValue
  rw [this]
  rfl

theorem createObject_ro {s : Session} (hs : s.use ≠ .rw) (t : List Entry) : (createObject e s t).1 ≠ .ok := by
  unfold createObject
  have hn := newObject_ro (e := e) hs
  have hc : ∀ rv, templClass t = .error rv → rv ≠ .ok := by
    intro rv h
    unfold templClass at h
    repeat' split at h
    all_goals first | (cases h; done) | (cases h; simp)
  have hu : ∀ a rv, templUlong t a = .error rv → rv ≠ .ok := by
    intro a rv h
    unfold templUlong at h
    repeat' split at h
    all_goals first | (cases h; done) | (cases h; simp)
  split
  · exact hc _ ‹_›
  · split
    · split
      · exact hu _ _ ‹_›
      · split
        · rw [hn]; simp
        · simp
    · split
      · exact hu _ _ ‹_›
      · split
        · rw [hn]; simp
        · simp

theorem sessState_ro {l : Lib} {s : Session} (hs : s.use ≠ .rw) (hl : l.token.login ≠ .so) :
    sessState l s = .roPublic ∨ sessState l s = .roUser := by
  unfold sessState
  cases h : l.token.login <;> cases hu : s.use <;> simp_all

/-- What a call on a session that is not read/write leaves. -/
theorem ro_kept {l : Lib} {s : Session} (hs : s.use ≠ .rw) (hl : l.token.login ≠ .so) (c : SessCall)
    (hc : c.logsInOut = false) : Kept l (sessCall e l s c).1 := by
  have hst := sessState_ro hs hl
  cases c with
  | close => cases hc
  | info p => simp only [sessCall]; split <;> exact .refl l
  | login u p n => cases hc
  | logout => cases hc
  | initPin p =>
    simp only [sessCall, initPin]
    split
    · exact .refl l
    · rw [if_pos (by rcases hst with h | h <;> rw [h] <;> simp)]; exact .refl l
  | setPin o n =>
    simp only [sessCall, setPin]
    repeat' split
    all_goals first
      | exact .refl l
      | (rename_i h _; rcases hst with h' | h' <;> rw [h'] at h <;> cases h)
      | (rename_i h _ _; rcases hst with h' | h' <;> rw [h'] at h <;> cases h)
  | create t p =>
    simp only [sessCall, cCreate, hs, ne_eq, not_false_eq_true, if_true]
    repeat' split
    all_goals exact .refl l
  | copy o t p =>
    simp only [sessCall, cCopy, hs, ne_eq, not_false_eq_true, if_true]
    repeat' split
    all_goals exact .refl l
  | destroy o =>
    simp only [sessCall, cDestroy, hs, ne_eq, not_false_eq_true, if_true]
    exact .refl l
  | size o p => simp only [sessCall]; repeat' split
                all_goals exact .refl l
  | getAttr o t => simp only [sessCall, cGetAttr]; repeat' split
                   all_goals exact .refl l
  | setAttr o t =>
    simp only [sessCall, cSetAttr, hs, ne_eq, not_false_eq_true, if_true]
    repeat' split
    all_goals exact .refl l
  | findInit t =>
    simp only [sessCall, cFindInit]
    repeat' split
    all_goals first | exact .refl l | exact .upd _ _ _ (by intro _; rfl)
  | findNext p n =>
    simp only [sessCall, cFindNext]
    repeat' split
    all_goals first | exact .refl l | exact .upd _ _ _ (by intro _; rfl)
  | findFinal => exact .upd _ _ _ (by intro _; rfl)
  | cryptInit k m key =>
    simp only [sessCall, cCryptInit]
    repeat' split
    all_goals first | exact .refl l | exact .upd _ _ _ (by intro _; rfl)
  | crypt c =>
    simp only [sessCall, cCrypt]
    repeat' split
    all_goals first | exact .refl l | exact .upd _ _ _ (by intro _; rfl)
  | genKey m t p =>
    simp only [sessCall, cGenKey]
    repeat' split
    all_goals first
      | exact .refl l
      | (rename_i h; have h2 := (congrArg Prod.fst h).symm.trans (newObject_ro hs _ _ _); cases h2)
  | genPair m a b p =>
    simp only [sessCall, cGenPair]
    split
    · split
      · exact .refl l
      · split
        · exact .refl l
        · split
          · exact .refl l
          · split
            · rename_i h
              have h2 := (congrArg Prod.fst h).symm.trans (newObject_ro hs _ _ _)
              cases h2
            · exact .refl l
    · exact .refl l
  | wrap m a b o =>
    simp only [sessCall, cWrap, hs, ne_eq, not_false_eq_true, if_true]
    repeat' split
    all_goals exact .refl l
  | unwrap m w d t p =>
    simp only [sessCall, cUnwrap, hs, ne_eq, not_false_eq_true, if_true]
    exact .refl l
  | derive m b t p =>
    simp only [sessCall, cDerive]
    repeat' split
    all_goals first
      | exact .refl l
      | (rename_i h _ _ _; exact absurd (congrArg Prod.fst h) (createObject_ro hs _))
  | random p n =>
    simp only [sessCall, cRandom]
    split
    · exact .refl l
    split
    · exact .refl l
    · exact ⟨rfl, rfl, rfl, rfl, rfl, rfl⟩

/-! ## Only read/write sessions have objects -/

/-- Only read/write sessions have objects. -/
def RoEmpty (l : Lib) : Prop := ∀ s ∈ l.sessions, s.use ≠ .rw → s.objs = []

theorem Kept.roEmpty {l l' : Lib} (h : Kept l l') (hr : RoEmpty l) : RoEmpty l' := by
  intro s hs hu
  have : s.mine ∈ l.sessions.map Session.mine := h.sess ▸ List.mem_map_of_mem (f := Session.mine) hs
  obtain ⟨t, ht, he⟩ := List.mem_map.mp this
  simp only [Session.mine, Prod.mk.injEq] at he
  rw [← he.2.2]
  exact hr t ht (by rw [he.2.1]; exact hu)

theorem login_sessions (l : Lib) (u : UserType) (p : Option Bytes) (n : Int) :
    (login e l u p n).1.sessions = l.sessions := by
  simp only [login, soLogin, userLogin]
  repeat' split
  all_goals rfl

theorem RoEmpty.closeOne {ss : List Session} (hr : ∀ s ∈ ss, s.use ≠ .rw → s.objs = []) (h : Nat) :
    ∀ s ∈ closeOne ss h, s.use ≠ .rw → s.objs = [] := by
  intro s hs hu
  have hf : ∀ t ∈ ss, (sessFinal t).objs = [] := fun t ht => sessFinal_objs fun h => hr t ht (by rw [h]; simp)
  unfold Verif.closeOne at hs
  split at hs
  · cases hs
  · split at hs
    · exact hr s (List.mem_cons_of_mem _ (mem_dropUnused hs)) hu
    · obtain ⟨t, ht, rfl⟩ := List.mem_map.mp hs
      split
      · exact hf t ht
      · rename_i hne; rw [if_neg hne] at hu; exact hr t ht hu

theorem RoEmpty.closeAll {ss : List Session} (hr : ∀ s ∈ ss, s.use ≠ .rw → s.objs = []) :
    ∀ s ∈ closeAll ss, s.use ≠ .rw → s.objs = [] := by
  intro s hs hu
  have hf : ∀ t ∈ ss, (sessFinal t).objs = [] := fun t ht => sessFinal_objs fun h => hr t ht (by rw [h]; simp)
  unfold Verif.closeAll at hs
  split at hs
  · cases hs
  · rename_i t rest heq
    rcases List.mem_cons.mp hs with rfl | h1
    · exact hf t (mem_closeDown (heq ▸ List.mem_cons_self))
    · exact hr s (mem_closeDown (heq ▸ List.mem_cons_of_mem _ h1)) hu

theorem RoEmpty.sessCall {l : Lib} (hi : SInv l) (hr : RoEmpty l) {h : Nat} {s : Session}
    (hs : getSession l h = some s) (c : SessCall) : RoEmpty (sessCall e l s c).1 := by
  obtain ⟨hsh, hsu, hsm⟩ := getSession_handle hs
  by_cases hc : c = .close
  · subst hc
    intro t ht
    exact RoEmpty.closeOne hr s.handle t (by rw [← (closeSession_sessions e l s.handle).1]; exact ht)
  by_cases hl : c.logsInOut = true
  · cases c with
    | login u p n => intro t ht; exact hr t (by rw [← login_sessions (e := e) l u p n]; exact ht)
    | logout => exact hr
    | close => exact absurd rfl hc
    | _ => cases hl
  · by_cases hu : s.use = .rw
    · have hf := frame_sessCall e l s c hc
      intro t' ht' hu'
      obtain ⟨g, hg, hss⟩ := hf.sess
      rw [hss] at ht'
      obtain ⟨t, ht, rfl⟩ := List.mem_map.mp ht'
      split
      · rename_i he
        rw [if_pos he] at hu'
        have := session_unique hi.nodup ht hsm he
        subst this
        rw [(hg t).2] at hu'
        exact absurd hu hu'
      · rename_i he
        rw [if_neg he] at hu'
        exact hr t ht hu'
    · have hro : s.use = .ro := by cases h : s.use <;> simp_all
      exact (ro_kept hu (fun h => hi.so h s hsm hro) c (by simpa using hl)).roEmpty hr

theorem RoEmpty.callBody {l : Lib} (hi : SInv l) (hr : RoEmpty l) (c : Call) : RoEmpty (callBody e l c).1 := by
  cases c with
  | cInit =>
    simp only [Verif.callBody, cInitialize]
    split
    · intro s hs _
      simp only [addSession, List.mem_cons, List.not_mem_nil, or_false] at hs
      rcases hs with rfl | rfl <;> rfl
    · exact hr
  | cFinal =>
    simp only [Verif.callBody, cFinalize]
    split
    · intro s hs; cases hs
    · exact hr
  | slot id c =>
    simp only [Verif.callBody]
    split
    · exact hr
    split
    · exact hr
    cases c with
    | tokenInfo p n => simp only [slotCall]; split <;> exact hr
    | initToken p lab =>
      intro s hs
      exact hr s (by rw [← (initToken_sessions e l p lab).1]; exact hs)
    | closeAll => exact RoEmpty.closeAll hr
    | openSession rw' serial ptr =>
      simp only [slotCall]
      split
      · exact hr
      split
      · exact hr
      unfold openSession
      dsimp only
      split
      · exact hr
      split
      · rename_i s hf
        have hno : s.use = .no := by simpa using List.find?_some hf
        have hm := List.mem_of_find?_eq_some hf
        intro t ht hu
        simp only [Lib.upd] at ht
        obtain ⟨t, htm, rfl⟩ := List.mem_map.mp ht
        clear ht
        split
        · rename_i he
          have := session_unique hi.nodup htm hm he
          subst this
          exact (hi.idle t hm hno).1
        · rename_i he
          rw [if_neg he] at hu
          exact hr t htm hu
      · split
        · exact hr
        · split
          · rename_i s rest hadd
            intro t ht hu
            cases hss : l.sessions with
            | nil =>
              rw [hss] at hadd
              simp only [addSession, List.cons.injEq] at hadd
              obtain ⟨rfl, rfl⟩ := hadd
              simp only [List.mem_cons, List.not_mem_nil, or_false] at ht
              subst ht; rfl
            | cons a as =>
              rw [hss] at hadd
              simp only [addSession, List.cons.injEq] at hadd
              obtain ⟨rfl, rfl⟩ := hadd
              rcases List.mem_cons.mp ht with rfl | ht
              · rfl
              · exact hr t (hss ▸ ht) hu
          · exact hr
  | sess h c =>
    simp only [Verif.callBody]
    split
    · exact hr
    split
    · exact hr
    · exact RoEmpty.sessCall hi hr ‹_› c

theorem RoEmpty.step {l : Lib} (hi : SInv l) (hr : RoEmpty l) (c : Call) : RoEmpty (step e l c).1 := by
  have := RoEmpty.callBody (e := e) hi hr c
  unfold Verif.step
  dsimp only
  split
  · exact hr
  · split <;> exact this

theorem RoEmpty.run {l : Lib} (hi : SInv l) (hr : RoEmpty l) (cs : List Call) : RoEmpty (run e l cs) := by
  induction cs generalizing l with
  | nil => exact hr
  | cons c cs ih => exact ih (hi.step e c) (RoEmpty.step hi hr c)

theorem Start.roEmpty {l : Lib} (h : Start l) : RoEmpty l := by
  intro s hs
  rw [h.sessions] at hs
  cases hs

end Verif
