import Verif.Spec.Fault
import Verif.Proofs.Look
import Verif.Proofs.Disk
import Verif.Props.Objs
import Verif.Props.Reload
import Verif.Props.Pin

/-!
# C96, C97: storage that fails
-/

namespace Verif

variable {e : Env}

theorem write_seen {d : Disk} {w : Write} {x : Fault} (hx : ∀ b, x ≠ .lost b) (h : (d.write w x).2 = true) :
    x = .none := by
  cases x with
  | none => rfl
  | refuse => cases h
  | short b => cases h
  | lost b => exact absurd rfl (hx b)

theorem nextFault_seen {f : List Fault} (hf : Seen f) (b : Bytes) : nextFault f ≠ .lost b := by
  cases f with
  | nil => intro h; cases h
  | cons x f => intro h; exact hf b (by rw [← show x = .lost b from h]; exact List.mem_cons_self)

theorem Seen.tail {f : List Fault} (hf : Seen f) : Seen f.tail := fun b h => hf b (List.mem_of_mem_tail h)

/-- The files of an object: that of the object and at most one more. -/
theorem storeObj_two (x : StoreExt) (k : Bytes) (r : Nat) (o : Obj) (i : Nat) :
    (storeObj x k r o i).wr = [((.object, i), wrObject o)] ∨
    ∃ w, (storeObj x k r o i).wr = [((.object, i), wrObject o), w] := by
  unfold storeObj
  dsimp only
  repeat' split
  all_goals first | exact .inl rfl | exact .inr ⟨_, rfl⟩

theorem storeObjF_seen (x : StoreExt) (k : Bytes) (r : Nat) (o : Obj) (i : Nat) {f : List Fault} (hf : Seen f) (d : Disk) :
    Seen (storeObjF x k r o i f d).left ∧
    (((storeObjF x k r o i f d).ok = true ∨ f = []) →
      storeObjF x k r o i f d = ⟨d.puts (storeObj x k r o i).wr, (storeObjF x k r o i f d).left, (storeObj x k r o i).obj,
        (storeObj x k r o i).rng, (storeObj x k r o i).ok⟩ ∧ (f = [] → (storeObjF x k r o i f d).left = [])) := by
  unfold storeObjF
  dsimp only
  by_cases ha : (d.write ((.object, i), wrObject o) (nextFault f)).2 = true
  · have h1 := write_seen (nextFault_seen hf) ha
    rw [h1] at ha ⊢
    simp only [Disk.write, Bool.not_true, Bool.false_eq_true, if_false]
    rcases storeObj_two x k r o i with hw | ⟨w, hw⟩
    · rw [hw]
      refine ⟨hf.tail, fun _ => ⟨rfl, fun h => by rw [h]; rfl⟩⟩
    · rw [hw]
      dsimp only [List.tail_cons]
      split
      · rename_i h2
        refine ⟨hf.tail.tail, fun h => ?_⟩
        rcases h with h | h
        · cases h
        · rw [h] at h2; cases h2
      · refine ⟨hf.tail.tail, fun h => ⟨?_, fun h => by rw [h]; rfl⟩⟩
        have h2 : nextFault f.tail = .none := by
          rcases h with h | h
          · rw [Bool.and_eq_true] at h
            exact write_seen (nextFault_seen hf.tail) h.2
          · rw [h]; rfl
        rw [h2, Bool.and_true]
        rfl
  · rw [if_pos (by simpa using ha)]
    refine ⟨hf.tail, fun h => ?_⟩
    rcases h with h | h
    · cases h
    · rw [h] at ha; exact absurd rfl ha

theorem storeObjsF_seen (x : StoreExt) (k : Bytes) (os : List Obj) (r : Nat) {f : List Fault} (hf : Seen f) (d : Disk)
    (h : (storeObjsF x k r os f d).ok = true ∨ f = []) :
    storeObjsF x k r os f d = ⟨d.puts (storeObjs x k r os).1, (storeObjsF x k r os f d).left, (storeObjs x k r os).2.1,
      (storeObjs x k r os).2.2.1, (storeObjs x k r os).2.2.2⟩ := by
  induction os generalizing r f d with
  | nil => rfl
  | cons o os ih =>
    obtain ⟨hl, ho⟩ := storeObjF_seen x k r o os.length hf d
    have hok : (storeObjF x k r o os.length f d).ok = true ∨ f = [] := by
      rcases h with h | h
      · left
        simp only [storeObjsF] at h
        split at h
        · assumption
        · cases h
      · exact .inr h
    obtain ⟨h1, h2⟩ := ho hok
    simp only [storeObjsF, storeObjs]
    simp only [storeObjsF] at h
    by_cases hk : (storeObj x k r o os.length).ok = true
    · have hk' : (storeObjF x k r o os.length f d).ok = true := by rw [h1]; exact hk
      rw [if_pos hk'] at h ⊢
      rw [if_pos hk]
      have e1 : (storeObjF x k r o os.length f d).rng = (storeObj x k r o os.length).rng := by rw [h1]
      have e2 : (storeObjF x k r o os.length f d).disk = d.puts (storeObj x k r o os.length).wr := by rw [h1]
      have e3 : (storeObjF x k r o os.length f d).val = (storeObj x k r o os.length).obj := by rw [h1]
      rw [e1, e2] at h ⊢
      have := ih (storeObj x k r o os.length).rng hl (d.puts (storeObj x k r o os.length).wr)
        (h.imp id (fun hf => h2 hf))
      rw [this, e3]
      dsimp only
      rw [puts_append]
    · have hk' : ¬ (storeObjF x k r o os.length f d).ok = true := by rw [h1]; exact hk
      rw [if_neg hk', if_neg hk, h1]

/-- Without failures, or with failures that are all seen and success, storing is what it is
on storage that works. -/
theorem storeF_seen {f : List Fault} (hf : Seen f) {l : Lib} (h : (Lib.storeF e f l).2 = true ∨ f = []) :
    Lib.storeF e f l = Lib.store e l := by
  have hw : nextFault f = .none := by
    rcases h with h | h
    · unfold Lib.storeF at h
      dsimp only at h
      split at h
      · cases h
      · rename_i h1
        exact write_seen (nextFault_seen hf) (by simpa using h1)
    · rw [h]; rfl
  unfold Lib.storeF at h ⊢
  unfold Lib.store
  rw [hw] at h ⊢
  simp only [Disk.write, Bool.not_true, Bool.false_eq_true, if_false] at h ⊢
  rw [storeObjsF_seen _ _ _ _ hf.tail _ (h.imp id (fun h => by rw [h]; rfl))]
  rfl

theorem storeF_nil (l : Lib) : Lib.storeF e [] l = Lib.store e l := storeF_seen (fun _ h => by cases h) (.inr rfl)

theorem emptyF_nil (d : Disk) (ws : List Write) : emptyF d ws [] = (d.puts ws, []) := by
  induction ws generalizing d with
  | nil => rfl
  | cons w ws ih => unfold emptyF; rw [List.tail_nil, ih]; rfl

theorem storeObjF_left_nil (x : StoreExt) (k : Bytes) (r : Nat) (o : Obj) (i : Nat) (d : Disk) :
    (storeObjF x k r o i [] d).left = [] := by
  unfold storeObjF
  dsimp only
  repeat' split
  all_goals rfl

theorem storeObjsF_left_nil (x : StoreExt) (k : Bytes) (r : Nat) (os : List Obj) (d : Disk) :
    (storeObjsF x k r os [] d).left = [] := by
  induction os generalizing r d with
  | nil => rfl
  | cons o os ih =>
    simp only [storeObjsF]
    split
    · rw [storeObjF_left_nil]; exact ih _ _
    · exact storeObjF_left_nil ..

theorem storeLeft_nil (l : Lib) : Lib.storeLeft e [] l = [] := by
  unfold Lib.storeLeft
  dsimp only
  split
  · rfl
  · exact storeObjsF_left_nil ..

theorem sessAddObjectF_nil (l : Lib) (s : Session) (on : Nat) (o : Obj) :
    sessAddObjectF e [] l s on o = (sessAddObject e l s on o, []) := by
  simp only [sessAddObjectF, sessAddObject, storeF_nil, storeLeft_nil]
  repeat' split
  all_goals rfl

theorem addObjectF_nil (l : Lib) (s : Session) (t : List Entry) (o : Obj) :
    addObjectF e [] l s t o = (addObject e l s t o, []) := by
  unfold addObjectF addObject
  cases tokenByte t 0 with
  | error rv => rfl
  | ok on =>
    dsimp only
    rw [sessAddObjectF_nil]
    rcases sessAddObject e l s on o with ⟨l', _ | h⟩ <;> rfl

theorem addPairF_nil (l : Lib) (s : Session) (tp tq : List Entry) (pub priv : Obj) :
    addPairF e [] l s tp tq pub priv = addPair e l s tp tq pub priv := by
  unfold addPairF addPair
  simp only [addObjectF_nil]
  rfl

/-- Without failures the calls do what they do in the rest of the model. -/
theorem stepF_none (l : Lib) (c : Call) : stepF e [] l c = step e l c := by
  have : callBodyF e [] l c = callBody e l c := by
    cases c with
    | cInit => rfl
    | cFinal => simp only [callBodyF, callBody, cFinalizeF, cFinalize, storeF_nil]
    | slot id c =>
      cases c with
      | initToken p lb =>
        simp only [callBodyF, callBody, slotCall, initTokenF, initToken, setSoPinF, setSoPin, storeF_nil]
        rfl
      | _ => rfl
    | sess h c =>
      simp only [callBodyF, callBody]
      split
      · rfl
      · cases getSession l h with
        | none => rfl
        | some s =>
          cases c with
          | initPin p =>
            simp only [sessCall, initPinF, initPin, setUserPinF, setUserPin, storeF_nil]
            rfl
          | setPin o n =>
            simp only [sessCall, setPinF, setPin, setUserPinF, setUserPin, setSoPinF, setSoPin, storeF_nil]
            rfl
          | create t p =>
            simp only [sessCall, cCreateF, cCreate, addObjectF_nil]
            rfl
          | copy k t p =>
            simp only [sessCall, cCopyF, cCopy, sessAddObjectF_nil]
            cases t with
            | none => rfl
            | some t =>
              dsimp only
              by_cases h1 : (!p) = true
              · rw [if_pos h1, if_pos h1]
              rw [if_neg h1, if_neg h1]
              by_cases h2 : s.use ≠ .rw
              · rw [if_pos h2, if_pos h2]
              rw [if_neg h2, if_neg h2]
              cases findObj l s k with
              | none => rfl
              | some o =>
                dsimp only
                cases tokenByte t 0 with
                | error rv => rfl
                | ok on =>
                  dsimp only
                  by_cases h3 : (getAttributeValue e.key o t).1 ≠ .ok
                  · rw [if_pos h3, if_pos h3]
                  rw [if_neg h3, if_neg h3]
                  by_cases h4 : (setAttributeValue e.key true (newObj 0 o.typ) (getAttributeValue e.key o t).2).1 ≠ .ok
                  · rw [if_pos h4, if_pos h4]
                  rw [if_neg h4, if_neg h4]
                  rcases sessAddObject e l s on (setAttributeValue e.key true (newObj 0 o.typ) (getAttributeValue e.key o t).2).2 with
                    ⟨l', _ | h⟩ <;> rfl
          | genKey m t p =>
            simp only [sessCall, cGenKeyF, cGenKey, addObjectF_nil]
            rfl
          | genPair m tp tq p =>
            simp only [sessCall, cGenPairF, cGenPair, addPairF_nil]
            rfl
          | unwrap m wk d t p =>
            simp only [sessCall, cUnwrapF, cUnwrap, addRsaPrivateF, addRsaPrivate, addObjectF_nil]
            rfl
          | derive m b t p =>
            simp only [sessCall, cDeriveF, cDerive, addObjectF_nil]
            rfl
          | destroy k =>
            have : ∀ o, removeTokenF e [] l o = removeToken e l o := by
              intro o
              simp only [removeTokenF, removeToken, emptyF_nil, storeF_nil]
            simp only [sessCall, cDestroyF, cDestroy, this]
            rfl
          | _ => rfl
  unfold stepF step
  rw [this]

/-! ## C96: success means stored -/

theorem stepF_good {f : List Fault} {l : Lib} (hb : l.bad = false) {c : Call} (hub : (callBodyF e f l c).2.rv ≠ .ub) :
    stepF e f l c = callBodyF e f l c := by
  unfold stepF
  rw [hb]
  exact if_neg hub

theorem answerF_good {f : List Fault} {l : Lib} {c : Call} {rv : RV} (h : (answerF e f l c).rv = rv) (hr : rv ≠ .ub) :
    l.bad = false ∧ (callBodyF e f l c).2.rv = rv ∧ stepF e f l c = callBodyF e f l c := by
  unfold answerF at h
  cases hb : l.bad with
  | true => rw [show stepF e f l c = (l, { rv := .ub }) by unfold stepF; rw [hb]; rfl] at h; exact absurd h.symm hr
  | false =>
    have hub : (callBodyF e f l c).2.rv ≠ .ub := by
      intro hu
      unfold stepF at h
      rw [hb] at h
      dsimp only at h
      simp only [Bool.false_eq_true, if_false, if_pos hu] at h
      exact hr (h ▸ hu)
    exact ⟨rfl, by rw [stepF_good hb hub] at h; exact h, stepF_good hb hub⟩

/-- A call that sets a PIN is refused without a change, whatever failures happen, or comes
to storing the token with the new PIN. -/
theorem pinCall_cases (l : Lib) {c : Call} (hc : SetsPin c) :
    (∃ rv, rv ≠ .ok ∧ rv ≠ .ub ∧ ∀ f, callBodyF e f l c = (l, { rv })) ∨
    ∃ l1 : Lib, (∀ f, callBodyF e f l c = pinSet (Lib.storeF e f l1)) ∧
      l1.disk = l.disk ∧ (l1.token.objs = l.token.objs ∨ l1.token.objs = []) := by
  by_cases h0 : l.count ≤ 0
  · left
    refine ⟨.cryptokiNotInitialized, by simp, by simp, fun f => ?_⟩
    unfold SetsPin at hc
    split at hc
    · simp only [callBodyF, if_pos h0]
    · simp only [callBodyF, if_pos h0]
    · simp only [callBodyF, if_pos h0]
    · exact hc.elim
  unfold SetsPin at hc
  split at hc
  · rename_i id p lb
    by_cases h1 : id ≠ 1
    · exact .inl ⟨.slotIdInvalid, by simp, by simp, fun f => by simp only [callBodyF, if_neg h0, if_pos h1]⟩
    simp only [callBodyF, if_neg h0, if_neg h1]
    cases p with
    | none => exact .inl ⟨.argumentsBad, by simp, by simp, fun f => rfl⟩
    | some pin =>
      cases lb with
      | none => exact .inl ⟨.argumentsBad, by simp, by simp, fun f => rfl⟩
      | some lab =>
        simp only [initTokenF]
        by_cases h2 : (!pinLenOk pin) = true
        · exact .inl ⟨.pinIncorrect, by simp, by simp, fun f => by rw [if_pos h2]⟩
        simp only [if_neg h2]
        by_cases h3 : (l.token.init && anyInUse l.sessions) = true
        · exact .inl ⟨.sessionExists, by simp, by simp, fun f => by rw [if_pos h3]⟩
        simp only [if_neg h3]
        by_cases h4 : (l.token.init && checkPin e l.token l.token.so pin != .ok) = true
        · exact .inl ⟨.pinIncorrect, by simp, by simp, fun f => by rw [if_pos h4]⟩
        simp only [if_neg h4]
        exact .inr ⟨_, fun f => rfl, rfl, .inr rfl⟩
  · rename_i h p
    cases hs : getSession l h with
    | none => exact .inl ⟨.sessionHandleInvalid, by simp, by simp, fun f => by simp only [callBodyF, if_neg h0, hs]⟩
    | some s =>
      simp only [callBodyF, if_neg h0, hs]
      cases p with
      | none => exact .inl ⟨.argumentsBad, by simp, by simp, fun f => rfl⟩
      | some pin =>
        simp only [initPinF]
        by_cases h2 : sessState l s ≠ .rwSo
        · exact .inl ⟨.userNotLoggedIn, by simp, by simp, fun f => by rw [if_pos h2]⟩
        simp only [if_neg h2]
        by_cases h3 : (!pinLenOk pin) = true
        · exact .inl ⟨.pinIncorrect, by simp, by simp, fun f => by rw [if_pos h3]⟩
        simp only [if_neg h3]
        exact .inr ⟨_, fun f => rfl, rfl, .inl rfl⟩
  · rename_i h o n
    cases hs : getSession l h with
    | none => exact .inl ⟨.sessionHandleInvalid, by simp, by simp, fun f => by simp only [callBodyF, if_neg h0, hs]⟩
    | some s =>
      simp only [callBodyF, if_neg h0, hs]
      cases o with
      | none => exact .inl ⟨.argumentsBad, by simp, by simp, fun f => rfl⟩
      | some old =>
        cases n with
        | none => exact .inl ⟨.argumentsBad, by simp, by simp, fun f => rfl⟩
        | some new =>
          simp only [setPinF]
          by_cases h2 : (!pinLenOk old) = true
          · exact .inl ⟨.pinIncorrect, by simp, by simp, fun f => by rw [if_pos h2]⟩
          simp only [if_neg h2]
          by_cases h3 : (!pinLenOk new) = true
          · exact .inl ⟨.pinIncorrect, by simp, by simp, fun f => by rw [if_pos h3]⟩
          simp only [if_neg h3]
          cases hss : sessState l s with
          | rwSo =>
            dsimp only
            cases hk : checkPin e l.token l.token.so old with
            | notSet => exact .inl ⟨.userPinNotInitialized, by simp, by simp, fun f => rfl⟩
            | invalid => exact .inl ⟨.pinIncorrect, by simp, by simp, fun f => rfl⟩
            | ok => exact .inr ⟨_, fun f => rfl, rfl, .inl rfl⟩
          | roPublic => exact .inl ⟨.sessionReadOnly, by simp, by simp, fun f => rfl⟩
          | roUser => exact .inl ⟨.sessionReadOnly, by simp, by simp, fun f => rfl⟩
          | rwPublic =>
            dsimp only
            cases hk : checkPin e l.token l.token.user old with
            | notSet => exact .inl ⟨.userPinNotInitialized, by simp, by simp, fun f => rfl⟩
            | invalid => exact .inl ⟨.pinIncorrect, by simp, by simp, fun f => rfl⟩
            | ok => exact .inr ⟨_, fun f => rfl, rfl, .inl rfl⟩
          | rwUser =>
            dsimp only
            cases hk : checkPin e l.token l.token.user old with
            | notSet => exact .inl ⟨.userPinNotInitialized, by simp, by simp, fun f => rfl⟩
            | invalid => exact .inl ⟨.pinIncorrect, by simp, by simp, fun f => rfl⟩
            | ok => exact .inr ⟨_, fun f => rfl, rfl, .inl rfl⟩
  · exact hc.elim

theorem pinSet_ok {r : Lib × Bool} (h : (pinSet r).2.rv = .ok) : r.2 = true := by
  cases hk : r.2 with
  | true => rfl
  | false => simp [pinSet, hk] at h

/-- **C96** (partial).  A call that sets a PIN and reports success has done everything it
does on storage that works, the writing of all files included, whatever failures the library
saw meanwhile.
Missing: failures it does not see (`c96_violated_unseen`), and the calls that make and destroy
objects, which do not look (`c96_violated_create`, `c96_violated_destroy`). -/
theorem c96_pins_partial {f : List Fault} (hf : Seen f) (l : Lib) (c : Call) (hc : SetsPin c)
    (hok : (answerF e f l c).rv = .ok) : stepF e f l c = step e l c := by
  obtain ⟨hb, hrv, hst⟩ := answerF_good hok (by simp)
  rw [← stepF_none]
  rcases pinCall_cases (e := e) l hc with ⟨rv, h1, _, h2⟩ | ⟨l1, h2, _, _⟩
  · rw [h2] at hrv; exact absurd hrv h1
  · rw [hst, stepF_good hb (by rw [h2]; exact pinSet_ub _), h2, h2, storeF_nil]
    rw [h2] at hrv
    rw [storeF_seen hf (.inl (pinSet_ok hrv))]

/-- **C96** (partial), across the end of the process.  When such a call has succeeded and the
process ends at once, the next one finds the label, the PINs, the seeds and the counters as they
were, and the same objects -- provided the objects of the token are keys that can be stored. -/
theorem c96_durable_partial (hx : StoreLaws e.store) {f : List Fault} (hf : Seen f) (l : Lib) (c : Call) (hc : SetsPin c)
    (hok : (answerF e f l c).rv = .ok) (ho : ∀ o ∈ tokenObjs l, o.Storable) (hfit : (stepF e f l c).1.token.toRec.Fits) :
    let l' := (stepF e f l c).1
    let m := run e (afterDeath l') [.cInit]
    m.token.init = true ∧ m.token.toRec = l'.token.toRec ∧
    (tokenObjs m).map Obj.record = (tokenObjs l').map Obj.record ∧
    (tokenObjs m).map (·.keyData) = (tokenObjs l').map (·.keyData) := by
  intro l' m
  obtain ⟨hb, hrv, hst⟩ := answerF_good hok (by simp)
  rcases pinCall_cases (e := e) l hc with ⟨rv, h1, _, h2⟩ | ⟨l1, h2, hd, ho1⟩
  · rw [h2] at hrv; exact absurd hrv h1
  · have hl' : l' = (Lib.store e l1).1 := by
      show (stepF e f l c).1 = _
      rw [h2] at hrv
      rw [hst, h2, storeF_seen hf (.inl (pinSet_ok hrv))]
      rfl
    have hob : ∀ o ∈ l1.token.objs, o.Storable := by
      rcases ho1 with h | h <;> rw [h]
      · exact ho
      · intro o ho; cases ho
    have hobj : l'.token.objs = l1.token.objs := by
      rw [hl']
      show (storeObjs e.store l1.token.key l1.rng l1.token.objs).2.1 = _
      rw [(storeObjs_storable hx hob l1.rng).1]
    have htok : l'.token = l1.token := by
      have : l'.token = { l1.token with objs := l'.token.objs } := by rw [hl']; rfl
      rw [this, hobj]
    have hdisk : l'.disk = l1.disk.puts (storeToken e.store l1.rng l1.token).wr := by rw [hl']; rfl
    have hm : m.token = loadToken e.store l'.disk l'.uid := rfl
    have hfit1 : l1.token.toRec.Fits := by rw [← htok]; exact hfit
    rw [hdisk, loadToken_stored hx hfit1 hob] at hm
    have hmap : ∀ {α : Type} (g : Obj → α), (∀ u o, g (o.reloaded u) = g o) → m.token.objs.map g = l'.token.objs.map g := by
      intro α g hg
      rw [hm, htok]
      exact reloadAll_map g hg _ _
    refine ⟨by rw [hm], ?_, hmap _ (fun _ _ => rfl), hmap _ (fun _ _ => rfl)⟩
    have hty := hmap (·.typ) (fun _ _ => rfl)
    unfold Token.toRec
    rw [hty, hm, htok]

/-! ## C97: a PIN change that fails -/

/-- **C97** (partial).  When the token's file cannot be opened, a call that sets a PIN does not
succeed and no file is changed: a process started later knows the PINs from before.
Missing: this process (`c97_violated`), and failures after the file was opened
(`c97_violated_file`). -/
theorem c97_partial (f : List Fault) (l : Lib) (c : Call) (hc : SetsPin c) :
    (answerF e (.refuse :: f) l c).rv ≠ .ok ∧ (stepF e (.refuse :: f) l c).1.disk = l.disk := by
  have hbody : (callBodyF e (.refuse :: f) l c).2.rv ≠ .ok ∧ (callBodyF e (.refuse :: f) l c).2.rv ≠ .ub ∧
      (callBodyF e (.refuse :: f) l c).1.disk = l.disk := by
    rcases pinCall_cases (e := e) l hc with ⟨rv, h1, h1', h2⟩ | ⟨l1, h2, hd, _⟩
    · rw [h2]; exact ⟨h1, h1', rfl⟩
    · rw [h2]
      refine ⟨fun h => ?_, pinSet_ub _, hd⟩
      have := pinSet_ok h
      cases this
  cases hb : l.bad with
  | true =>
    unfold answerF
    rw [show stepF e (.refuse :: f) l c = (l, { rv := .ub }) by unfold stepF; rw [hb]; rfl]
    exact ⟨by simp, rfl⟩
  | false =>
    unfold answerF
    rw [stepF_good hb hbody.2.1]
    exact ⟨hbody.1, hbody.2.2⟩

/-! ## C98: objects in the running process -/

theorem storeObjF_view (x : StoreExt) (k : Bytes) (r : Nat) (o : Obj) (i : Nat) (f : List Fault) (d : Disk) :
    (storeObjF x k r o i f d).val.view = o.view := by
  unfold storeObjF
  dsimp only
  split
  · rfl
  · split
    · exact storeObj_view x k r o i
    · split
      · dsimp only; split <;> rfl
      · exact storeObj_view x k r o i

theorem storeObjsF_view (x : StoreExt) (k : Bytes) (r : Nat) (os : List Obj) (f : List Fault) (d : Disk) :
    (storeObjsF x k r os f d).val.map Obj.view = os.map Obj.view := by
  induction os generalizing r f d with
  | nil => rfl
  | cons o os ih =>
    simp only [storeObjsF]
    split
    · simp only [List.map_cons, storeObjF_view, ih]
    · simp only [List.map_cons, storeObjF_view]

theorem pairs_of_view {os os' : List Obj} (h : os'.map Obj.view = os.map Obj.view) :
    AllPairs (fun o o' : Obj => o' = { o with iv := o'.iv, keyData := o'.keyData }) os os' := by
  induction os generalizing os' with
  | nil => cases os' with
    | nil => exact .nil
    | cons => cases h
  | cons o os ih => cases os' with
    | nil => cases h
    | cons o' os' =>
      simp only [List.map_cons, List.cons.injEq] at h
      refine .cons ?_ (ih h.2)
      have := h.1
      cases o; cases o'
      simp only [Obj.view, Obj.mk.injEq] at this ⊢
      simp [this]

theorem storeF_view (f : List Fault) (l : Lib) :
    (Lib.storeF e f l).1.token.objs.map Obj.view = l.token.objs.map Obj.view := by
  unfold Lib.storeF
  dsimp only
  split
  · rfl
  · exact storeObjsF_view ..

theorem view_of_pairs {os os' : List Obj} (h : AllPairs (fun o o' : Obj => o' = { o with iv := o'.iv, keyData := o'.keyData }) os os') :
    os'.map Obj.view = os.map Obj.view := by
  induction h with
  | nil => rfl
  | cons h _ ih =>
    rw [List.map_cons, List.map_cons, ih, h]
    rfl

theorem storeF_rest (f : List Fault) (l : Lib) : (Lib.storeF e f l).1.count = l.count ∧ (Lib.storeF e f l).1.sessions = l.sessions ∧
    (Lib.storeF e f l).1.uid = l.uid ∧ (Lib.storeF e f l).1.bad = l.bad ∧
    (Lib.storeF e f l).1.token = { l.token with objs := (Lib.storeF e f l).1.token.objs } := by
  unfold Lib.storeF
  dsimp only
  split
  · exact ⟨rfl, rfl, rfl, rfl, rfl⟩
  · exact ⟨rfl, rfl, rfl, rfl, rfl⟩

/-- Libraries that are the same inside stay so when they are stored, each with its failures. -/
theorem SameInside.storeF {l m : Lib} (h : SameInside l m) (f g : List Fault) :
    SameInside (Lib.storeF e f l).1 (Lib.storeF e g m).1 := by
  obtain ⟨a1, a2, a3, a4, a5⟩ := storeF_rest (e := e) f l
  obtain ⟨b1, b2, b3, b4, b5⟩ := storeF_rest (e := e) g m
  obtain ⟨h1, h2, h3, h4, h5, h6⟩ := h
  refine ⟨by rw [a1, b1, h1], by rw [a2, b2, h2], by rw [a3, b3, h3], by rw [a4, b4, h4], ?_, pairs_of_view ?_⟩
  · rw [a5, b5, h5]
  · rw [storeF_view, storeF_view, view_of_pairs h6]

theorem storeF_inside (f g : List Fault) (l m : Lib) (h : l = { m with disk := l.disk }) :
    SameInside (Lib.storeF e f l).1 (Lib.storeF e g m).1 := by
  refine SameInside.storeF ?_ f g
  rw [h]
  exact ⟨rfl, rfl, rfl, rfl, rfl, pairs_of_view rfl⟩

theorem pairs_refl (os : List Obj) : AllPairs (fun o o' : Obj => o' = { o with iv := o'.iv, keyData := o'.keyData }) os os :=
  pairs_of_view rfl

theorem SameInside.refl (l : Lib) : SameInside l l := ⟨rfl, rfl, rfl, rfl, rfl, pairs_refl _⟩

/-- Adding an object to libraries that are the same inside, each with its failures. -/
theorem SameInside.add {l m : Lib} (h : SameInside l m) (f g : List Fault) (s : Session) (on : Nat) (o : Obj) :
    (sessAddObjectF e g m s on o).1.2 = (sessAddObjectF e f l s on o).1.2 ∧
    SameInside (sessAddObjectF e f l s on o).1.1 (sessAddObjectF e g m s on o).1.1 := by
  have hv := view_of_pairs h.2.2.2.2.2
  have hlen : m.token.objs.length = l.token.objs.length := by
    have := congrArg List.length hv
    simpa only [List.length_map] using this
  have hnext : nextHandle m.token.objs on = nextHandle l.token.objs on := by
    unfold nextHandle
    cases hl : l.token.objs with
    | nil =>
      cases hm : m.token.objs with
      | nil => rfl
      | cons => rw [hl, hm] at hlen; cases hlen
    | cons p os =>
      cases hm : m.token.objs with
      | nil => rw [hl, hm] at hlen; cases hlen
      | cons q os' =>
        rw [hl, hm, List.map_cons, List.map_cons, List.cons.injEq] at hv
        have : q.handle = p.handle := (congrArg (·.handle) hv.1 :)
        dsimp only
        rw [this]
  have hkey : m.token.key = l.token.key := by rw [h.2.2.2.2.1]
  obtain ⟨h1, h2, h3, h4, h5, h6⟩ := h
  unfold sessAddObjectF
  dsimp only
  rw [hlen, hnext, hkey, h3]
  split
  · split
    · exact ⟨rfl, h1, h2, h3, h4, h5, h6⟩
    · split
      · refine ⟨rfl, SameInside.storeF ?_ f g⟩
        refine ⟨h1, h2, rfl, h4, ?_, pairs_of_view ?_⟩
        · dsimp only
          rw [h5]
        · dsimp only
          rw [List.map_cons, List.map_cons, hv]
      · exact ⟨rfl, h1, h2, h3, h4, h5, h6⟩
  · split
    · exact ⟨rfl, h1, h2, h3, h4, h5, h6⟩
    · refine ⟨rfl, h1, ?_, rfl, h4, h5, h6⟩
      unfold Lib.upd
      dsimp only
      rw [h2]

theorem SameInside.added {l m : Lib} (h : SameInside l m) (f g : List Fault) (s : Session) (on : Nat) (o : Obj) :
    (addedF (sessAddObjectF e g m s on o).1).2 = (addedF (sessAddObjectF e f l s on o).1).2 ∧
    SameInside (addedF (sessAddObjectF e f l s on o).1).1 (addedF (sessAddObjectF e g m s on o).1).1 := by
  obtain ⟨h1, h2⟩ := h.add (e := e) f g s on o
  rcases hx : (sessAddObjectF e f l s on o).1 with ⟨l1, r1⟩
  rcases hy : (sessAddObjectF e g m s on o).1 with ⟨l2, r2⟩
  rw [hx, hy] at h1 h2
  dsimp only at h1 h2
  subst h1
  cases r2 <;> exact ⟨rfl, h2⟩

theorem SameInside.addObject {l m : Lib} (h : SameInside l m) (f g : List Fault) (s : Session) (t : List Entry) (o : Obj) :
    (addObjectF e g m s t o).1.2 = (addObjectF e f l s t o).1.2 ∧
    SameInside (addObjectF e f l s t o).1.1 (addObjectF e g m s t o).1.1 := by
  unfold addObjectF
  cases tokenByte t 0 with
  | error rv => exact ⟨rfl, h⟩
  | ok on => exact h.added f g s on o

theorem SameInside.addRsa {l m : Lib} (h : SameInside l m) (f g : List Fault) (s : Session) (t : List Entry) (der : Bytes) :
    (addRsaPrivateF e g m s t der).2 = (addRsaPrivateF e f l s t der).2 ∧
    SameInside (addRsaPrivateF e f l s t der).1 (addRsaPrivateF e g m s t der).1 := by
  unfold addRsaPrivateF
  split
  · split
    · exact ⟨rfl, h⟩
    · rename_i o _ _ k _
      obtain ⟨h1, h2⟩ := h.addObject (e := e) f g s t { o with data := .rsa k }
      dsimp only
      rw [h1]
      exact ⟨rfl, h2⟩
  · exact ⟨rfl, h⟩

theorem SameInside.addPair {l m : Lib} (h : SameInside l m) (f g : List Fault) (s : Session) (tp tq : List Entry) (pub priv : Obj) :
    (addPairF e g m s tp tq pub priv).2 = (addPairF e f l s tp tq pub priv).2 ∧
    SameInside (addPairF e f l s tp tq pub priv).1 (addPairF e g m s tp tq pub priv).1 := by
  obtain ⟨h1, h2⟩ := h.addObject (e := e) f g s tp pub
  unfold addPairF
  dsimp only
  rw [h1]
  split
  · exact ⟨rfl, h2⟩
  · rw [h2.2.1]
    split
    · exact ⟨rfl, h2⟩
    · rename_i s1 _
      obtain ⟨h3, h4⟩ := h2.addObject (e := e) (addObjectF e f l s tp pub).2 (addObjectF e g m s tp pub).2 s1 tq priv
      rw [h3]
      split
      · exact ⟨rfl, h4.1, h4.2.1, h4.2.2.1, rfl, h4.2.2.2.2⟩
      · exact ⟨rfl, h4⟩

/-- **C98**: failures of the storage do not show in the running process.  Whatever failures
happen, the calls that make objects and `C_DestroyObject` answer as on storage that works, and leave the
library as they leave it there, up to the files and the encrypted form of keys. -/
theorem c98_inside (f : List Fault) (l : Lib) (c : Call) (hc : MakesOrDestroys c) :
    answerF e f l c = answer e l c ∧ SameInside (step e l c).1 (stepF e f l c).1 := by
  have hbody : (callBodyF e f l c).2 = (callBodyF e [] l c).2 ∧ SameInside (callBodyF e [] l c).1 (callBodyF e f l c).1 := by
    cases c with
    | cInit => exact hc.elim
    | cFinal => exact hc.elim
    | slot => exact hc.elim
    | sess h c =>
      simp only [callBodyF]
      split
      · exact ⟨rfl, .refl _⟩
      cases getSession l h with
      | none => exact ⟨rfl, .refl _⟩
      | some s =>
        cases c <;> first | exact hc.elim | skip
        all_goals dsimp only
        case create t p =>
          unfold cCreateF
          repeat' split
          all_goals first | exact ⟨rfl, .refl _⟩ | exact (SameInside.refl _).addObject _ _ _ _ _
        case copy k t p =>
          unfold cCopyF
          dsimp only
          repeat' split
          all_goals first | exact ⟨rfl, .refl _⟩ | skip
          all_goals
            refine ⟨?_, ((SameInside.refl l).added _ _ _ _ _).2⟩
            rw [((SameInside.refl l).added (e := e) [] f _ _ _).1]
        case genKey m t p =>
          unfold cGenKeyF
          repeat' split
          all_goals first | exact ⟨rfl, .refl _⟩ | exact (SameInside.refl _).addObject _ _ _ _ _
        case genPair m tp tq p =>
          unfold cGenPairF
          repeat' split
          all_goals first | exact ⟨rfl, .refl _⟩ | exact (SameInside.refl _).addPair _ _ _ _ _ _ _
        case unwrap m wk d t p =>
          unfold cUnwrapF
          by_cases h1 : s.use ≠ .rw
          · rw [if_pos h1, if_pos h1]; exact ⟨rfl, .refl _⟩
          rw [if_neg h1, if_neg h1]
          cases m with
          | none => exact ⟨rfl, .refl _⟩
          | some m =>
            cases d with
            | none => exact ⟨rfl, .refl _⟩
            | some d =>
              cases t with
              | none => exact ⟨rfl, .refl _⟩
              | some t =>
                dsimp only
                repeat' split
                all_goals first | exact ⟨rfl, .refl _⟩ | exact (SameInside.refl _).addRsa _ _ _ _ _
        case derive m b t p =>
          unfold cDeriveF
          dsimp only
          repeat' split
          all_goals first | exact ⟨rfl, .refl _⟩ | exact (SameInside.refl _).addObject _ _ _ _ _
        case destroy k =>
          unfold cDestroyF
          repeat' split
          all_goals first | exact ⟨rfl, .refl _⟩ | exact ⟨rfl, storeF_inside _ _ _ _ rfl⟩
  unfold answerF answer
  rw [← stepF_none]
  unfold stepF
  split
  · exact ⟨rfl, .refl _⟩
  · obtain ⟨h1, h2⟩ := hbody
    dsimp only
    rw [h1]
    split
    · refine ⟨rfl, ?_⟩
      obtain ⟨a1, a2, a3, a4, a5, a6⟩ := h2
      exact ⟨a1, a2, a3, rfl, a5, a6⟩
    · exact ⟨h1, h2⟩

/-! ## Where the properties fail -/

namespace Demo

/-- The user in a new process on what this one has left. -/
def next (pin : Bytes) : List Call := [.cInit, openCall true, loginCall 65538 .user pin 0]

set_option maxRecDepth 20000 in
/-- C96 fails for objects that are made: the storage refuses everything, `C_CreateObject`
reports success, and the next process does not have the object. -/
theorem c96_violated_create :
    let l := run env fresh setup
    let f := List.replicate 10 Fault.refuse
    let c := createCall 65538 (openTmpl true 7)
    (answerF env f l c).rv = .ok ∧
    (answer env (stepF env f l c).1 (readValue tok1)).rv = .ok ∧
    rvs env (afterDeath (stepF env f l c).1) (next userPin) = [.ok, .ok, .ok] ∧
    (answer env (run env (afterDeath (stepF env f l c).1) (next userPin)) (readValue tok1)).rv = .objectHandleInvalid := by
  decide

set_option maxRecDepth 20000 in
/-- C96 fails for objects that are destroyed: the storage refuses everything,
`C_DestroyObject` reports success, and the next process has the object, key included. -/
theorem c96_violated_destroy :
    let l := run env fresh withKey
    let f := List.replicate 10 Fault.refuse
    let c : Call := .sess 65538 (.destroy tok1)
    answerF env f l c = { rv := .ok } ∧
    (answer env (stepF env f l c).1 (readValue tok1)).rv = .objectHandleInvalid ∧
    shownValue env (run env (afterDeath (stepF env f l c).1) (next userPin)) tok1 =
      some [(16, some (List.replicate 16 7))] := by
  decide

set_option maxRecDepth 20000 in
/-- C96 fails for failures that only `fflush` reports, as on a full disk: `C_InitToken` reports
success, and in the next process nobody can log in and the token cannot be initialised. -/
theorem c96_violated_unseen :
    let l := run env fresh [.cInit]
    let f := [Fault.lost []]
    let c : Call := .slot 1 (.initToken (some soPin) (some label))
    answerF env f l c = { rv := .ok } ∧
    rvs env (afterDeath (stepF env f l c).1) [.cInit, c, openCall true, loginCall 65538 .so soPin 0] =
      [.ok, .pinIncorrect, .ok, .userPinNotInitialized] := by
  decide

/-- Another PIN. -/
def otherPin : Bytes := [9, 9, 9, 9]

set_option maxRecDepth 20000 in
/-- C97 fails in the running process: `C_SetPIN` reports failure, but the old PIN does not work
any more and the new one does, until the process ends: then it is the other way round. -/
theorem c97_violated :
    let l := run env fresh setup
    let f := [Fault.refuse]
    let c : Call := .sess 65538 (.setPin (some userPin) (some otherPin))
    answerF env f l c = { rv := .functionFailed } ∧
    rvs env (stepF env f l c).1 [.sess 65538 .logout, loginCall 65538 .user userPin 0, loginCall 65538 .user otherPin 0] =
      [.ok, .pinIncorrect, .ok] ∧
    rvs env (afterDeath (stepF env f l c).1) [.cInit, openCall true, loginCall 65538 .user otherPin 0, loginCall 65538 .user userPin 0] =
      [.ok, .ok, .pinIncorrect, .ok] := by
  decide

set_option maxRecDepth 20000 in
/-- C97 fails after the token's file was opened: `C_SetPIN` reports failure, and in the next
process neither PIN works and the key on the token is gone. -/
theorem c97_violated_file :
    let l := run env fresh withKey
    let f := [Fault.short []]
    let c : Call := .sess 65538 (.setPin (some userPin) (some otherPin))
    answerF env f l c = { rv := .functionFailed } ∧
    rvs env (afterDeath (stepF env f l c).1) [.cInit, openCall true, loginCall 65538 .user otherPin 0, loginCall 65538 .user userPin 0] =
      [.ok, .ok, .userPinNotInitialized, .userPinNotInitialized] ∧
    (answer env (run env (afterDeath (stepF env f l c).1) [.cInit, openCall true]) (readValue tok1)).rv = .objectHandleInvalid := by
  decide

end Demo

set_option maxRecDepth 20000 in
/-- The hypotheses of `c96_pins_partial` and `c96_durable_partial`: the user changes the PIN of a
token with a key on it, and the failure would only have come with the fourth file. -/
example :
    let f := [Fault.none, .none, .none, .refuse]
    let l := run Demo.env Demo.fresh Demo.withKey
    let c : Call := .sess 65538 (.setPin (some Demo.userPin) (some Demo.otherPin))
    Seen f ∧ SetsPin c ∧ (answerF Demo.env f l c).rv = .ok ∧ (∀ o ∈ tokenObjs l, o.Storable) ∧
    (stepF Demo.env f l c).1.token.toRec.Fits := by
  refine ⟨?_, trivial, by decide, fun o h => (Demo.withKey_storable o h).1, ?_⟩
  · intro b h
    simp at h
  · refine ⟨by decide, ⟨by decide, by decide, ?_, ?_, ?_⟩, ⟨by decide, by decide, ?_, ?_, ?_⟩, by decide, ?_, ?_⟩
    · unfold IsInt; decide
    · unfold IsTime; decide
    · unfold IsTime; decide
    · unfold IsInt; decide
    · unfold IsTime; decide
    · unfold IsTime; decide
    · have h : (stepF Demo.env [.none, .none, .none, .refuse] (run Demo.env Demo.fresh Demo.withKey)
          (.sess 65538 (.setPin (some Demo.userPin) (some Demo.otherPin)))).1.token.toRec.types = [CKK_AES] := by decide
      rw [h]; decide
    · have h : (stepF Demo.env [.none, .none, .none, .refuse] (run Demo.env Demo.fresh Demo.withKey)
          (.sess 65538 (.setPin (some Demo.userPin) (some Demo.otherPin)))).1.token.toRec.types = [CKK_AES] := by decide
      rw [h]; decide

/-- A call of `c98_inside` that is hit by failures. -/
example : MakesOrDestroys (createCall 65538 (Demo.openTmpl true 7)) ∧
    (stepF Demo.env [.refuse] (run Demo.env Demo.fresh Demo.setup) (createCall 65538 (Demo.openTmpl true 7))).1.disk (.object, 0) = none ∧
    (step Demo.env (run Demo.env Demo.fresh Demo.setup) (createCall 65538 (Demo.openTmpl true 7))).1.disk (.object, 0) ≠ none := by
  refine ⟨trivial, by decide, by decide⟩

end Verif
