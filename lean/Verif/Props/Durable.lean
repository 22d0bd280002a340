import Verif.Proofs.Durable
import Verif.Props.KeyKept

/-!
# A key of the token when processes end at any moment between two calls (C109)
-/

namespace Verif

variable {e : Env}

theorem Durable.live (hx : StoreLaws e.store) (hh : HashLen e) (hr : RandLen e) {ov : Obj} (hcert : ov.cls ≠ CKO_CERTIFICATE)
    (hk : handleOnToken ov.handle = true) {q : Bytes} (vs : List Event) :
    ∀ {n : Nat} {l : Lib}, Durable e ov q n l → n + 2 * vs.length < 2 ^ 28 → BoolToken (callsOf vs) →
      GentleLife e ov.handle l vs → (live e l vs).bad = false → Durable e ov q (n + 2 * vs.length) (live e l vs) := by
  have hbad : ∀ (vs : List Event) (l : Lib), (Verif.live e l vs).bad = false → l.bad = false := by
    intro vs
    induction vs with
    | nil => exact fun l h => h
    | cons v vs ih =>
      intro l h
      have := ih _ h
      cases v with
      | call c => exact (step_good this).1
      | killed => exact this
  induction vs with
  | nil => intro n l h _ _ _ _; exact h
  | cons v vs ih =>
    intro n l h hn hb hg hgood
    have hn' : n + 2 * (vs.length + 1) < 2 ^ 28 := hn
    rw [show n + 2 * (v :: vs).length = n + 2 + 2 * vs.length by simp only [List.length_cons]; omega]
    cases v with
    | call c =>
      have hb' : BoolToken (c :: callsOf vs) := hb
      exact ih (h.step hx hh hr hcert (by omega) (fun d hd => hb' d (by simp at hd; simp [hd])) hk hg.1 hg.2.1
        (hbad vs _ hgood)) (by omega) (fun d hd => hb' d (List.mem_cons_of_mem _ hd)) hg.2.2 hgood
    | killed => exact ih (h.killed hx hh hr hcert (by omega)) (by omega) hb hg hgood

/-- **C109**, except for what `Gentle` rules out: a key of the token that the directory holds is
neither lost nor changed when processes end at any moment between two calls.  The user is
logged in after some history, the handle `k` names a key of the token, and the directory holds
the token as it is.  Then any number of calls is made and any number of processes ends, without
`C_Finalize`, wherever that may be; and at the end the user is logged in.  In each of the user's
sessions the handle names an object with the same key, and every attribute reads as before.
Missing: changes of the user's PIN (`c39_violated_finalize`), attributes of token objects that
are changed (`c109_violated_setAttr`), ends of processes inside a call (`c35_violated_inside`), certificates. -/
theorem c109_partial (hx : StoreLaws e.store) (hh : HashLen e) (hr : RandLen e) {l₀ : Lib} (h₀ : Start l₀)
    (hd : NoToken l₀) (cs : List Call) (vs : List Event) (h h' k : Nat) (o : Obj)
    (hb : BoolToken (cs ++ callsOf vs)) (hn : 2 * (cs.length + vs.length) < 2 ^ 28)
    (hu : UserIn e (run e l₀ cs) h)
    (ha : Addressed (run e l₀ cs) h k o) (hk : handleOnToken k = true) (hcert : o.cls ≠ CKO_CERTIFICATE)
    (hset : Settled e (run e l₀ cs)) (hone : OnePin e (run e l₀ cs))
    (hvs : GentleLife e k (run e l₀ cs) vs) (hgood : (live e (run e l₀ cs) vs).bad = false)
    (hu' : UserIn e (live e (run e l₀ cs) vs) h') :
    (∃ o', Addressed (live e (run e l₀ cs) vs) h' k o' ∧ o'.shown = o.shown) ∧
    (∀ o', Addressed (live e (run e l₀ cs) vs) h' k o' → o'.data = o.data) ∧
    ∀ t, answer e (live e (run e l₀ cs) vs) (readCall h' k t) = answer e (run e l₀ cs) (readCall h k t) := by
  have hb1 : BoolToken cs := fun d hd => hb d (List.mem_append_left _ hd)
  obtain ⟨hi, hc, hx1⟩ := reach_inv hh hr h₀ hd cs hb1 (by omega)
  have hK := h₀.kinv.run hh cs (e := e)
  generalize run e l₀ cs = l at *
  have hx1' := hx1
  obtain ⟨s, hs, hbad, hcnt, hlog⟩ := user_of_state hi hu
  unfold HandleInv at hx1
  rw [if_pos hcnt] at hx1
  have hfind := addressed_find hx1 (by omega) hs ha
  obtain ⟨p1, p2, _⟩ := findObj_parts hfind
  have hstart : NotLost e o.shown l := (NotLost.user hcnt hlog).mpr ⟨o, p2 hk, rfl⟩
  obtain ⟨q, q1, q2, q3, q4⟩ := hset.writable.current hlog
  have hlen : ∀ {p : Bytes}, pinLenOk p = true → 4 ≤ p.length ∧ p.length ≤ 32 := by
    intro p hp; simpa [pinLenOk] using hp
  have hall : ∀ p : Bytes, pinLenOk p = true → Matches e l.token.user p → p = q :=
    fun p g1 g2 => hone p q (hlen g1).1 (hlen g1).2 q1 q2 g2 q3
  have hin : InDirLib e q l := by
    refine (InDirLib.on hcnt).mpr ⟨by simp [pinLenOk, q1, q2], q3, hall, hset.writable.objects, ?_, fun _ => ⟨?_, q4⟩, hset.record, ?_⟩
    · intro o ho
      exact ⟨o.shown, o, rfl, (q4 o ho).1, (q4 o ho).2, ⟨_, _, rfl⟩, fun _ => ⟨rfl, rfl⟩⟩
    · obtain ⟨p, g1, g2, g3⟩ := hK hlog
      rw [g3, hall p g1 g2]
    · rw [storeObjs_files (os := l.token.objs) hx hset.writable.objects (k := l.token.key) (k' := l.token.key) (r := 0) (r' := l.rng)]
      exact hset.objects
  have hdur : Durable e o.shown q (2 * cs.length) l := ⟨hi, hc, hK, hx1', hin, hstart⟩
  have hvs' : GentleLife e o.shown.handle l vs := by
    rw [show o.shown.handle = o.handle from rfl, p1]; exact hvs
  have hend := hdur.live hx hh hr (show o.shown.cls ≠ _ from hcert) (by rw [show o.shown.handle = o.handle from rfl, p1]; exact hk)
    vs (by omega) (fun d hd => hb d (List.mem_append_right _ hd)) hvs' hgood
  generalize live e l vs = l' at *
  obtain ⟨s', hs', hbad', hcnt', hlog'⟩ := user_of_state hend.sinv hu'
  have hx2 := hend.handles
  unfold HandleInv at hx2
  rw [if_pos hcnt'] at hx2
  obtain ⟨o', ho', hv⟩ := (NotLost.user hcnt' hlog').mp hend.notLost
  have hh' : o'.handle = k := by
    have : o'.shown.handle = o.shown.handle := congrArg (·.handle) hv
    exact this.trans p1
  have ha' : Addressed l' h' k o' := ⟨List.mem_append_right _ ho', hh'⟩
  have hfind' := addressed_find hx2 (by omega) hs' ha'
  refine ⟨⟨o', ha', hv⟩, fun q hq => ?_, fun t => ?_⟩
  · rw [addressed_unique hx2 (by omega) hs' hq ha']
    have : o'.shown.data = o.shown.data := congrArg (fun o : Obj => o.data) hv
    exact this
  · unfold readCall answer
    rw [step_resp hbad, step_resp hbad']
    simp only [callBody, hs, hs', if_neg (show ¬ l.count ≤ 0 by omega), if_neg (show ¬ l'.count ≤ 0 by omega),
      sessCall, cGetAttr, hfind, hfind']
    rw [← shown_getAttributeValue e.key o', hv, shown_getAttributeValue]

/-! ## When the directory holds the token -/

/-- The token after an object was added to it. -/
theorem add_settles (hx : StoreLaws e.store) {l l' : Lib} {s : Session} {on k : Nat} {o : Obj}
    (hadd : sessAddObject e l s on o = (l', some k)) (hold : ∀ z ∈ l.token.objs, z.keyData.isSome = true)
    (hfit : l'.token.toRec.Fits) (hst : ∀ z ∈ l'.token.objs, z.Storable) :
    (l'.token = l.token ∧ l'.disk = l.disk) ∨
      ((∀ w ∈ (storeObjs e.store l'.token.key 0 l'.token.objs).1, l'.disk w.1 = some w.2) ∧ RecordOnDisk l'.token l'.disk) := by
  rcases sessAdd_stores hadd with h | ⟨p, hl', hp⟩
  · exact .inl h
  right
  have hr : ∀ z ∈ p :: l.token.objs, z.Ready := by
    intro z hz
    rcases List.mem_cons.mp hz with rfl | hz
    · exact hp
    · exact fun _ => hold z hz
  obtain ⟨g1, g2⟩ := store_ready (e := e) (l := { l with uid := l.uid + 1, token := { l.token with objs := p :: l.token.objs } })
    hr (by rw [← hl']; exact fun z hz => (hst z hz).form.1)
  rw [← hl'] at g1 g2
  rw [← g1] at g2
  have hd : ∀ w ∈ (storeObjs e.store l'.token.key l.rng l'.token.objs).1, l'.disk w.1 = some w.2 := by
    intro w hw
    rw [g2]
    exact storeObjs_onDisk hx (d := l.disk.put ((.token, 0), wrToken l'.token.toRec)) (key := l'.token.key) (r := l.rng) hst w hw
  refine ⟨?_, l'.token.toRec, hfit, ?_, rfl, rfl, rfl, ⟨rfl, rfl⟩, rfl, rfl⟩
  · intro w hw
    refine hd w ?_
    rw [storeObjs_files hx hst (k := l'.token.key) (k' := l'.token.key) (r := l.rng) (r' := 0)]
    exact hw
  · rw [g2]
    show (l.disk.put ((.token, 0), wrToken l'.token.toRec)).puts (storeObjs e.store l'.token.key l.rng l'.token.objs).1 _ = _
    rw [puts_other fun w hw h => by
      have := (storeObjs_wr e.store l'.token.key l.rng l'.token.objs w hw).1
      rw [h] at this; exact this rfl]
    exact if_pos rfl

/-- What an added object leaves behind has its kept form. -/
theorem add_some {l l' : Lib} {s : Session} {on k : Nat} {o : Obj}
    (hadd : sessAddObject e l s on o = (l', some k)) (hold : ∀ z ∈ l.token.objs, z.keyData.isSome = true)
    (hno : ∀ z ∈ l'.token.objs, z.cls ≠ CKO_CERTIFICATE) : ∀ z ∈ l'.token.objs, z.keyData.isSome = true := by
  rcases sessAdd_stores hadd with ⟨h, _⟩ | ⟨p, hl', hp⟩
  · rw [h]; exact hold
  have hr : ∀ z ∈ p :: l.token.objs, z.Ready := by
    intro z hz
    rcases List.mem_cons.mp hz with rfl | hz
    · exact hp
    · exact fun _ => hold z hz
  obtain ⟨g1, _⟩ := store_ready (e := e) (l := { l with uid := l.uid + 1, token := { l.token with objs := p :: l.token.objs } })
    hr (by rw [← hl']; exact hno)
  rw [← hl'] at g1
  intro z hz
  have hz' := hz
  rw [g1] at hz'
  exact hr z hz' (hno z hz)

/-- The classes of the objects stay. -/
theorem add_cls {l l' : Lib} {s : Session} {on k : Nat} {o : Obj}
    (hadd : sessAddObject e l s on o = (l', some k)) (hno : ∀ z ∈ l'.token.objs, z.cls ≠ CKO_CERTIFICATE) :
    ∀ z ∈ l.token.objs, z.cls ≠ CKO_CERTIFICATE := by
  rcases sessAdd_stores hadd with ⟨h, _⟩ | ⟨p, hl', hp⟩
  · rw [← h]; exact hno
  have hcls : l'.token.objs.map (·.cls) = p.cls :: l.token.objs.map (·.cls) := by
    rw [hl']
    exact storeObjs_cls (p :: l.token.objs)
  intro z hz hc
  have : z.cls ∈ l'.token.objs.map (·.cls) := by
    rw [hcls]; exact List.mem_cons_of_mem _ (List.mem_map_of_mem hz)
  obtain ⟨w, hw, hwc⟩ := List.mem_map.mp this
  exact hno w hw (by rw [hwc, hc])

/-- **C109**: after a call that made an object on the token, the directory holds the token as it
is, so that the process may end without a further call.  The objects are keys in a form that
can be written. -/
theorem c109_settled (hx : StoreLaws e.store) (l : Lib) (h : Nat) (c : SessCall) (hb : BoolToken [.sess h c])
    (hcr : c.creates ≠ []) (hok : (answer e l (.sess h c)).rv = .ok)
    (hnew : tokenObjs (step e l (.sess h c)).1 ≠ tokenObjs l)
    (hold : ∀ z ∈ tokenObjs l, z.Storable) (hw : Writable e (step e l (.sess h c)).1) :
    Settled e (step e l (.sess h c)).1 := by
  suffices hmain : (∀ w ∈ (storeObjs e.store (step e l (.sess h c)).1.token.key 0 (step e l (.sess h c)).1.token.objs).1,
      (step e l (.sess h c)).1.disk w.1 = some w.2) ∧
      RecordOnDisk (step e l (.sess h c)).1.token (step e l (.sess h c)).1.disk by
    refine ⟨hw, fun w hw' => hmain.1 w ?_, hmain.2⟩
    rw [storeObjs_files (os := (step e l (.sess h c)).1.token.objs) hx hw.objects (k := (step e l (.sess h c)).1.token.key)
      (k' := (step e l (.sess h c)).1.token.key) (r := 0) (r' := (step e l (.sess h c)).1.rng)]
    exact hw'
  obtain ⟨_, _, s, hs, hstep⟩ := sess_step hok
  have hok' : (sessCall e l s c).2.rv = .ok := by
    unfold answer at hok
    rw [hstep] at hok; exact hok
  have hkd : ∀ z ∈ l.token.objs, z.keyData.isSome = true := by
    intro z hz
    obtain ⟨d, hd, _⟩ := (hold z hz).kept
    rw [hd]; rfl
  rw [hstep] at hnew hw ⊢
  have hfit := hw.record
  have hst : ∀ z ∈ (sessCall e l s c).1.token.objs, z.Storable := hw.objects
  clear hw hstep
  have hb' : ∀ t ∈ c.creates, TokOk (· ≤ 1) t := boolToken_tokOk (cs := []) hb
  rcases creates_made (e := e) l s c hcr hb' with hm | ⟨hm, _⟩
  · generalize sessCall e l s c = r at *
    cases hm with
    | kept hk => exact absurd (congrArg (·.objs) hk.tok) hnew
    | @one l₀ l' _ _ _ _ hk hadd =>
      rcases add_settles hx hadd (by rw [hk.tok]; exact hkd) hfit hst with ⟨h1, _⟩ | h1
      · exact absurd (congrArg (·.objs) (h1.trans hk.tok)) hnew
      · exact h1
  · generalize sessCall e l s c = r at *
    cases hm with
    | kept hk h1 => exact absurd hok' h1
    | broken _ h1 => exact absurd hok' h1
    | ub h1 => rw [hok'] at h1; cases h1
    | @two l₀ l₁ l' _ _ _ _ _ _ _ _ hk hadd _ _ _ hadd₁ =>
      have hno : ∀ z ∈ l'.token.objs, z.cls ≠ CKO_CERTIFICATE := fun z hz => (hst z hz).form.1
      have hkd₀ : ∀ z ∈ l₀.token.objs, z.keyData.isSome = true := by rw [hk.tok]; exact hkd
      rcases add_settles hx hadd₁ (add_some hadd hkd₀ (add_cls hadd₁ hno)) hfit hst with ⟨h1, h2⟩ | h1
      · have hfit₁ : l₁.token.toRec.Fits := by rw [← h1]; exact hfit
        have hst₁ : ∀ z ∈ l₁.token.objs, z.Storable := by rw [← h1]; exact hst
        rcases add_settles hx hadd hkd₀ hfit₁ hst₁ with ⟨h3, _⟩ | h3
        · exact absurd (congrArg (·.objs) (h1.trans (h3.trans hk.tok))) hnew
        · show (∀ w ∈ (storeObjs e.store l'.token.key 0 l'.token.objs).1, l'.disk w.1 = some w.2) ∧ RecordOnDisk l'.token l'.disk
          rw [h1, h2]; exact h3
      · exact h1

namespace Demo

/-- The fields of a token record fit their C types, as a computation. -/
def recOk (r : TokenRec) : Bool :=
  let acc (a : Account) : Bool := decide (a.pin.length ≤ 32) && decide (a.seed.length = 16) &&
    decide (-2 ^ 31 ≤ a.fails ∧ a.fails < 2 ^ 31) && decide (-2 ^ 63 ≤ a.last ∧ a.last < 2 ^ 63) && decide (-2 ^ 63 ≤ a.timeout ∧ a.timeout < 2 ^ 63)
  decide (r.label.length = 32) && acc r.so && acc r.user && decide (r.seed.length = 16) && decide (r.types.length < 2 ^ 31) &&
    r.types.all (fun t => decide (t < 2 ^ 64))

theorem recOk_fits {r : TokenRec} (h : recOk r = true) : r.Fits := by
  simp only [recOk, Bool.and_eq_true, decide_eq_true_eq, List.all_eq_true] at h
  obtain ⟨⟨⟨⟨⟨h1, h2⟩, h3⟩, h4⟩, h5⟩, h6⟩ := h
  obtain ⟨⟨⟨⟨a1, a2⟩, a3⟩, a4⟩, a5⟩ := h2
  obtain ⟨⟨⟨⟨b1, b2⟩, b3⟩, b4⟩, b5⟩ := h3
  exact ⟨h1, ⟨a1, a2, a3, a4, a5⟩, ⟨b1, b2, b3, b4, b5⟩, h4, h5, h6⟩

/-- The token can be written, and its objects are AES keys kept under this PIN. -/
def canWrite (pin : Bytes) (l : Lib) : Bool :=
  recOk l.token.toRec && decide (4 ≤ pin.length ∧ pin.length ≤ 30) && decide (l.token.user.pin = env.store.hash pin l.token.user.seed) &&
  l.token.objs.all fun o => o.typ == CKK_AES && o.cls == CKO_SECRET_KEY && o.symm.length == 16 &&
    decide (o.data = .symm o.symm) && o.iv.length == 12 && decide (o.handle < 2 ^ 64) && decide (o.keyGenMech < 2 ^ 64) &&
    o.startDate.length == 8 && o.endDate.length == 8 && o.keyId.length == 0 && o.label.length == 0 &&
    decide (o.keyData.map (·.length) = some 32) && decide (o.keyData = o.sealedKey env.store (env.store.hash pin l.token.seed))

theorem canWrite_objs {pin : Bytes} {l : Lib} (h : canWrite pin l = true) :
    ∀ o ∈ tokenObjs l, o.Storable ∧ o.IsKey ∧ o.KeptUnder env.store (env.store.hash pin l.token.seed) := by
  intro o ho
  simp only [canWrite, Bool.and_eq_true] at h
  have := List.all_eq_true.mp h.2 o ho
  simp only [Bool.and_eq_true, beq_iff_eq, decide_eq_true_eq] at this
  obtain ⟨⟨⟨⟨⟨⟨⟨⟨⟨⟨⟨⟨a1, a2⟩, a3⟩, a4⟩, a5⟩, a6⟩, a7⟩, a8⟩, a9⟩, a10⟩, a11⟩, a12⟩, a13⟩ := this
  obtain ⟨c, hc, hl⟩ := Option.map_eq_some_iff.mp a12
  have hk := aesOnly_isKey a1 a2 a3 a4
  exact ⟨⟨hk.form, ⟨a5, a6, by rw [a2]; decide, a7, a8, a9, by rw [a10]; decide, by rw [a11]; decide⟩, c, hc, by rw [hl]; decide⟩,
    hk, c, by rw [← a13]; exact hc, hc⟩

theorem canWrite_writable {pin : Bytes} {l : Lib} (h : canWrite pin l = true) : Writable env l := by
  have hobj := canWrite_objs h
  simp only [canWrite, Bool.and_eq_true, decide_eq_true_eq] at h
  obtain ⟨⟨⟨h1, h2⟩, h3⟩, _⟩ := h
  refine ⟨recOk_fits h1, fun o ho => (hobj o ho).1, fun _ => ⟨pin, h2.1, by omega, ?_, fun o ho => (hobj o ho).2⟩⟩
  unfold Matches
  rw [h3, hashLen]
  refine ⟨fun hx => ?_, by rw [List.take_of_length_le (by rw [hashLen]; decide)]⟩
  have := congrArg List.length hx
  rw [hashLen] at this
  cases this

/-- Gentle calls, as a computation. -/
def gentleOk (pin : Bytes) (l : Lib) : Call → Bool
  | .cInit | .cFinal | .slot _ (.openSession ..) | .slot _ .closeAll | .sess _ (.login ..) | .sess _ .logout | .sess _ .close => true
  | .sess h (.create t p) => decide (l.token.login = .user) && canWrite pin (step env l (.sess h (.create t p))).1
  | _ => false

/-- Gentle lives, as a computation. -/
def lifeOk (pin : Bytes) : Lib → List Event → Bool
  | _, [] => true
  | l, .call c :: vs => (decide (l.count ≤ 0) || recOk l.token.toRec) && gentleOk pin l c && lifeOk pin (step env l c).1 vs
  | l, .killed :: vs => lifeOk pin (Event.killed.next env l) vs

theorem lifeOk_gentle {pin : Bytes} {k : Nat} (vs : List Event) : ∀ {l : Lib}, lifeOk pin l vs = true → GentleLife env k l vs := by
  induction vs with
  | nil => intro l _; trivial
  | cons v vs ih =>
    intro l h
    cases v with
    | killed => exact ih (l := Event.killed.next env l) h
    | call c =>
      simp only [lifeOk, Bool.and_eq_true, Bool.or_eq_true, decide_eq_true_eq] at h
      obtain ⟨⟨h1, h2⟩, h3⟩ := h
      refine ⟨fun hc => ?_, ?_, ih h3⟩
      · rcases h1 with h1 | h1
        · omega
        · exact recOk_fits h1
      · unfold gentleOk at h2
        split at h2
        all_goals first
          | trivial
          | (intro hx; exact absurd rfl hx)
          | (cases h2; done)
          | (simp only [Bool.and_eq_true, decide_eq_true_eq] at h2
             exact fun _ => .inr ⟨h2.1, canWrite_writable h2.2⟩)

set_option maxRecDepth 100000 in
/-- By `c109_settled` the directory holds the token after the key was made. -/
theorem withKey_settled : Settled env (run env fresh withKey) := by
  have hrun : run env fresh withKey = (step env (run env fresh setup) (createCall 65538 (openTmpl true 7))).1 := by
    unfold withKey; rw [run_append]; rfl
  rw [hrun]
  refine c109_settled store_laws (run env fresh setup) 65538 _ (by unfold BoolToken; decide +kernel) (by decide +kernel) (by decide +kernel) ?_ ?_ ?_
  · intro hx
    have := congrArg List.length hx
    revert this
    decide +kernel
  · have : tokenObjs (run env fresh setup) = [] := by decide +kernel
    rw [this]; intro z hz; cases hz
  · exact canWrite_writable (pin := userPin) (by decide +kernel)

/-- The process ends without `C_Finalize`; a second one makes another key and ends while the
user is logged in; in a third one the user tries a wrong PIN, and it ends; in a fourth one the
user logs in. -/
def fourLives : List Event :=
  [.killed] ++ [Call.cInit, openCall true, loginCall 65538 .user userPin 0, createCall 65538 (openTmpl true 9)].map .call ++ [.killed] ++
    [Call.cInit, openCall true, loginCall 65538 .user newPin 0].map .call ++ [.killed] ++
    [Call.cInit, openCall true, loginCall 65538 .user userPin 0].map .call

set_option maxRecDepth 100000 in
/-- The hypotheses of `c109_partial` are met by these lives; the key is named and reads the same
at the end. -/
example : BoolToken (withKey ++ callsOf fourLives) ∧ handleOnToken tok1 = true ∧
    stateOf env (run env fresh withKey) 65538 = some .rwUser ∧
    (∃ o, Addressed (run env fresh withKey) 65538 tok1 o ∧ o.cls ≠ CKO_CERTIFICATE) ∧
    Settled env (run env fresh withKey) ∧ OnePin env (run env fresh withKey) ∧
    GentleLife env tok1 (run env fresh withKey) fourLives ∧ (live env (run env fresh withKey) fourLives).bad = false ∧
    stateOf env (live env (run env fresh withKey) fourLives) 65538 = some .rwUser ∧
    (tokenObjs (live env (run env fresh withKey) fourLives)).length = 2 ∧
    shownValue env (live env (run env fresh withKey) fourLives) tok1 = some [(16, some (List.replicate 16 7))] := by
  refine ⟨by unfold BoolToken; decide +kernel, by decide, by decide +kernel, ?_, withKey_settled,
    onePin_of (p := userPin) (by decide +kernel) (by decide), lifeOk_gentle (pin := userPin) _ (by decide +kernel), by decide +kernel,
    by decide +kernel, by decide +kernel, by decide +kernel⟩
  exact ⟨_, ⟨List.mem_append_right _ (List.mem_cons_self (l := [])), by decide⟩, by decide⟩

/-- A label is set, and the process ends. -/
def relabelled : List Event :=
  [.call (.sess 65538 (.setAttr tok1 (some [.of .label [5]]))), .killed, .call .cInit, .call (openCall true),
   .call (loginCall 65538 .user userPin 0)]

set_option maxRecDepth 100000 in
/-- **C109 violated** for changes of attributes: `C_SetAttributeValue` succeeds and the label reads
as set, but it is only in memory; the next process finds the old one. -/
theorem c109_violated_setAttr :
    (answer env (run env fresh withKey) (.sess 65538 (.setAttr tok1 (some [.of .label [5]])))).rv = .ok ∧
    (answer env (live env (run env fresh withKey) (relabelled.take 1)) (readCall 65538 tok1 [.of .label [0]])).tmpl.map (·.map fun en => (en.len, en.mem)) =
      some [(1, some [5])] ∧
    (answer env (live env (run env fresh withKey) relabelled) (readCall 65538 tok1 [.of .label [0]])).tmpl.map (·.map fun en => (en.len, en.mem)) =
      some [(0, some [0])] := by
  decide +kernel

end Demo

end Verif
