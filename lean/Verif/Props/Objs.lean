import Verif.Proofs.Create
import Verif.Proofs.DemoEnv

/-!
# C17, C18, C19, C32: caps, handles and creation of objects
-/

namespace Verif

variable {e : Env}

/-! ## C17 -/

theorem sessObjs_mem {l : Lib} {h : Nat} (hs : sessObjs l h ≠ []) : ∃ s ∈ l.sessions, sessObjs l h = s.objs ∧
    getSession l h = some s := by
  unfold sessObjs at hs ⊢
  cases hg : getSession l h with
  | none => rw [hg] at hs; exact absurd rfl hs
  | some s => exact ⟨s, (getSession_handle hg).2.2, rfl, rfl⟩

/-- **C17**: never more than 64 token objects and 8 objects in a session. -/
theorem c17_caps (hh : HashLen e) (hr : RandLen e) {l₀ : Lib} (h₀ : Start l₀) (hd : NoToken l₀) (cs : List Call) :
    (tokenObjs (run e l₀ cs)).length ≤ 64 ∧ ∀ h, (sessObjs (run e l₀ cs) h).length ≤ 8 := by
  have hc := (Start.capInv h₀ hd).run hh hr h₀.sinv cs
  refine ⟨by have := hc.pop.tokLen; simpa [tokenObjs] using this, fun h => ?_⟩
  by_cases hs : sessObjs (run e l₀ cs) h = []
  · rw [hs]; exact Nat.zero_le _
  · obtain ⟨s, hm, h1, _⟩ := sessObjs_mem hs
    have := hc.pop.sLen s.key (List.mem_map.mpr ⟨s, hm, rfl⟩)
    rw [h1]
    simpa [Session.key] using this

/-- **C17**, by handles: at no time does a session know more than 64 + 8 object
handles. -/
theorem c17_handles (hh : HashLen e) (hr : RandLen e) {l₀ : Lib} (h₀ : Start l₀) (hd : NoToken l₀) (cs : List Call)
    (h : Nat) (ks : List Nat) (hn : ks.Nodup) (hk : ∀ k ∈ ks, Names e (run e l₀ cs) h k) : ks.length ≤ 72 := by
  obtain ⟨h1, h2⟩ := c17_caps hh hr h₀ hd cs
  have h2 := h2 h
  have hsub : ks ⊆ ((tokenObjs (run e l₀ cs)).map (·.handle)) ++ ((sessObjs (run e l₀ cs) h).map (·.handle)) := by
    intro k hkm
    obtain ⟨_, _, o, ho⟩ := names_iff.mp (hk k hkm)
    unfold look at ho
    cases hg : getSession (run e l₀ cs) h with
    | none => rw [hg] at ho; cases ho
    | some s =>
      rw [hg] at ho
      obtain ⟨p, hp, _⟩ := Option.map_eq_some_iff.mp (Option.some.inj ho)
      have hpk : p.handle = k := by
        have := List.find?_some hp
        simpa using this
      have hmem := List.mem_of_find?_eq_some hp
      rw [List.mem_append]
      split at hmem
      · exact .inl (List.mem_map.mpr ⟨p, hmem, hpk⟩)
      · refine .inr (List.mem_map.mpr ⟨p, ?_, hpk⟩)
        unfold sessObjs
        rw [hg]; exact hmem
  have := hn.length_le_of_subset hsub
  simp only [List.length_append, List.length_map] at this
  omega

/-- The token byte of a template whose object was added. -/
theorem tokenByte_zero {t : List Entry} {on : Nat} (h : tokenByte t 0 = .ok on) : on ≠ 0 ↔ ForToken t := by
  unfold tokenByte at h
  unfold ForToken
  split at h
  · rename_i hf
    cases h
    simp [hf]
  · rename_i en hf
    split at h
    · cases h
    split at h
    · cases h
    cases h
    rw [hf]
    constructor
    · intro hx
      exact ⟨en, rfl, fun h0 => hx (by rw [h0]; rfl)⟩
    · rintro ⟨en', h1, h2⟩ h0
      cases h1
      exact h2 (UInt8.toNat_inj.mp h0)

theorem create_answer {l : Lib} {h : Nat} {t : List Entry} (hok : (answer e l (createCall h t)).rv = .ok) :
    ∃ s o on k l', l.bad = false ∧ 0 < l.count ∧ getSession l h = some s ∧ s.use = .rw ∧
      createObject e s t = (.ok, o) ∧ tokenByte t 0 = .ok on ∧ sessAddObject e l s on o = (l', some k) ∧
      step e l (createCall h t) = (l', { rv := .ok, handle := some k }) := by
  unfold answer createCall at hok
  cases hb : l.bad with
  | true => rw [step_bad hb] at hok; cases hok
  | false =>
    rw [step_resp hb] at hok
    have hstep : step e l (createCall h t) = callBody e l (createCall h t) :=
      step_eq hb (by unfold createCall; rw [hok]; simp)
    unfold createCall at hstep
    have hok' := hok
    simp only [callBody] at hok
    split at hok
    · cases hok
    rename_i hc
    split at hok
    · cases hok
    rename_i s hs
    simp only [sessCall, cCreate, Bool.not_true, Bool.false_eq_true, if_false] at hok
    split at hok
    · cases hok
    rename_i hu
    split at hok
    · rename_i o ho
      unfold addObject at hok
      split at hok
      · rename_i rv hrv
        rw [tokenByte_error hrv] at hok; cases hok
      rename_i on hon
      split at hok
      · cases hok
      rename_i l' k hadd
      refine ⟨s, o, on, k, l', rfl, by omega, hs, Decidable.not_not.mp hu, ho, hon, hadd, ?_⟩
      unfold createCall
      rw [hstep]
      simp only [callBody, if_neg hc, hs, sessCall, cCreate, Bool.not_true, Bool.false_eq_true, if_false, if_neg hu, ho,
        addObject, hon, hadd]
    · rename_i hne _
      exact absurd hok hne

theorem encodeObj_ok (x : StoreExt) (k₁ k₂ : Bytes) (o : Obj) (u₁ u₂ : Nat) (b : Bool) :
    (encodeObj x k₁ false { o with onToken := b, uid := u₁ }).1 =
    (encodeObj x k₂ false { o with onToken := b, uid := u₂ }).1 := by
  unfold encodeObj encodeKey encodeRsa encodeEcc encodeDh encodeSymm
  simp only [Bool.false_eq_true, false_and, if_false]
  repeat' split
  all_goals first
    | rfl
    | (simp only [Obj.rsa, Obj.ec, Option.isSome_map]; done)
    | (simp only [Obj.rsa, Obj.ec, Option.isSome_map]; rfl)

theorem createObject_congr {s s' : Session} (h : s.use = s'.use) (t : List Entry) :
    createObject e s t = createObject e s' t := by
  unfold createObject newObject
  rw [h]

/-- **C17**: a template that can be used to create an object at all can be used whenever
there is room: below 64 token objects, or below 8 objects in the session; the number of
objects then grows by exactly one. -/
theorem c17_room {l₁ : Lib} {h₁ : Nat} {t : List Entry} (hok : (answer e l₁ (createCall h₁ t)).rv = .ok)
    {l₀ : Lib} (h₀ : Start l₀) (cs : List Call) {h : Nat} (ho : OpenAs e (run e l₀ cs) h true)
    (hroom : if ForToken t then (tokenObjs (run e l₀ cs)).length < 64 else (sessObjs (run e l₀ cs) h).length < 8) :
    (answer e (run e l₀ cs) (createCall h t)).rv = .ok ∧
    (tokenObjs (run e l₀ (cs ++ [createCall h t]))).length =
      (tokenObjs (run e l₀ cs)).length + (if ForToken t then 1 else 0) ∧
    (sessObjs (run e l₀ (cs ++ [createCall h t])) h).length =
      (sessObjs (run e l₀ cs) h).length + (if ForToken t then 0 else 1) := by
  obtain ⟨s₁, o, on, k, l', hb1, hc1, hs1, hu1, hcr, hon, hadd, _⟩ := create_answer hok
  have hi := h₀.sinv.run e cs
  obtain ⟨hb, s, hs, hu⟩ := (openAs_iff hi).mp ho
  have hc := count_pos_of_open hi hs
  generalize hl : run e l₀ cs = l at *
  have hu : s.use = .rw := by simpa using hu
  have hcr' : createObject e s t = (.ok, o) := by rw [createObject_congr (s' := s₁) (by rw [hu, hu1])]; exact hcr
  have hso : sessObjs l h = s.objs := by unfold sessObjs; rw [hs]; rfl
  have hadd' : ∃ k' l'', sessAddObject e l s on o = (l'', some k') := by
    by_cases h0 : on = 0
    · subst h0
      have hft : ¬ ForToken t := fun h => (tokenByte_zero hon).mpr h rfl
      rw [if_neg hft, hso] at hroom
      unfold sessAddObject
      have : ¬ s.objs.length ≥ sessObjMax := by unfold sessObjMax; omega
      simp only [ne_eq, not_true_eq_false, if_false, this]
      exact ⟨_, _, rfl⟩
    · have hft : ForToken t := (tokenByte_zero hon).mp h0
      rw [if_pos hft] at hroom
      have hlen : ¬ l.token.objs.length ≥ tokenObjMax := by unfold tokenObjMax; unfold tokenObjs at hroom; omega
      have henc : (encodeObj e.store l₁.token.key false { o with onToken := decide (on % 2 = 1), uid := l₁.uid }).1 = true := by
        unfold sessAddObject at hadd
        dsimp only at hadd
        rw [if_pos h0] at hadd
        split at hadd
        · cases hadd
        split at hadd
        · rename_i hx; exact hx
        · cases hadd
      rw [encodeObj_ok e.store _ l.token.key o _ l.uid] at henc
      unfold sessAddObject
      dsimp only
      rw [if_pos h0, if_neg hlen, if_pos henc]
      exact ⟨_, _, rfl⟩
  obtain ⟨k', l'', hadd'⟩ := hadd'
  have hbody : callBody e l (createCall h t) = (l'', { rv := .ok, handle := some k' }) := by
    have hc' : ¬ l.count ≤ 0 := by omega
    have hu' : ¬ s.use ≠ .rw := by simp [hu]
    simp only [createCall, callBody, if_neg hc', hs, sessCall, cCreate, Bool.not_true, Bool.false_eq_true, if_false,
      if_neg hu', hcr', addObject, hon, hadd']
  have hstep : step e l (createCall h t) = (l'', { rv := .ok, handle := some k' }) := by
    rw [step_eq hb (by rw [hbody]; simp)]; exact hbody
  refine ⟨by unfold answer; rw [hstep], ?_⟩
  have hrun : run e l₀ (cs ++ [createCall h t]) = l'' := by
    rw [run_append, hl]
    simp only [run, hstep]
  rw [hrun]
  obtain ⟨_, ⟨h0, _, _, hv, hss⟩ | ⟨h0, _, _, rfl⟩⟩ := sessAdd_some hadd'
  · have hft := (tokenByte_zero hon).mp h0
    have := congrArg List.length hv
    simp only [List.length_map, List.length_cons] at this
    rw [if_pos hft, if_pos hft]
    refine ⟨this, ?_⟩
    unfold sessObjs
    rw [getSession_congr hss]; rfl
  · subst h0
    have hft : ¬ ForToken t := fun h => (tokenByte_zero hon).mpr h rfl
    rw [if_neg hft, if_neg hft]
    refine ⟨rfl, ?_⟩
    have hsh := (getSession_handle hs).1
    unfold sessObjs
    rw [hsh, getSession_upd_eq (f := fun t => { t with objs := o.added l.uid 0 k' :: t.objs }) (fun _ => ⟨rfl, rfl⟩)]
    rw [show getSession { l with uid := l.uid + 1 } h = some s from hs, hs]
    rfl

/-- **C17**: at the cap `C_CreateObject` refuses and changes no object, in memory or in
storage. -/
theorem c17_refused (l : Lib) (h : Nat) (t : List Entry)
    (hfull : if ForToken t then 64 ≤ (tokenObjs l).length else 8 ≤ (sessObjs l h).length) :
    (answer e l (createCall h t)).rv ≠ .ok ∧ tokenObjs (step e l (createCall h t)).1 = tokenObjs l ∧
    (∀ h', sessObjs (step e l (createCall h t)).1 h' = sessObjs l h') ∧ (step e l (createCall h t)).1.disk = l.disk := by
  have h1 : (answer e l (createCall h t)).rv ≠ .ok := by
    intro hok
    obtain ⟨s, o, on, k, l', _, _, hs, _, _, hon, hadd, _⟩ := create_answer hok
    have hso : sessObjs l h = s.objs := by unfold sessObjs; rw [hs]; rfl
    obtain ⟨_, ⟨h0, hl, _⟩ | ⟨h0, hl, _⟩⟩ := sessAdd_some hadd
    · rw [if_pos ((tokenByte_zero hon).mp h0)] at hfull
      unfold tokenObjs at hfull; omega
    · subst h0
      rw [if_neg (fun h => (tokenByte_zero hon).mpr h rfl), hso] at hfull
      omega
  refine ⟨h1, ?_⟩
  have hk : Kept l (callBody e l (createCall h t)).1 ∨ (callBody e l (createCall h t)).2.rv = .ok := by
    unfold createCall callBody
    dsimp only
    split
    · exact .inl (.refl l)
    split
    · exact .inl (.refl l)
    rename_i s hs
    have hm := made_cCreate (e := e) (ok := fun _ => True) l s (some t) true (fun _ _ _ _ => trivial)
    simp only [sessCall]
    generalize cCreate e l s (some t) true = r at hm ⊢
    cases hm with
    | kept h => exact .inl h
    | one _ _ _ h => exact .inr h
  have hk' : (step e l (createCall h t)).1.token = l.token ∧ (step e l (createCall h t)).1.disk = l.disk ∧
      (step e l (createCall h t)).1.sessions.map Session.mine = l.sessions.map Session.mine := by
    cases hb : l.bad with
    | true => rw [step_bad hb]; exact ⟨rfl, rfl, rfl⟩
    | false =>
      obtain ⟨g1, _, g3, g4⟩ := step_sessions (e := e) hb (createCall h t)
      rw [g1, g3, g4]
      rcases hk with hk | hk
      · exact ⟨hk.tok, hk.disk, hk.sess⟩
      · refine absurd ?_ h1
        unfold answer
        rw [step_resp hb]; exact hk
  refine ⟨by unfold tokenObjs; rw [hk'.1], fun h' => ?_, hk'.2.1⟩
  have := getSession_mine hk'.2.2 h'
  unfold sessObjs
  cases g1 : getSession (step e l (createCall h t)).1 h' <;> cases g2 : getSession l h' <;> rw [g1, g2] at this
  · cases this
  · cases this
  · exact congrArg (fun x => (x.map (·.2.2)).getD []) this

/-! ### Concrete cases -/

namespace Demo

/-- A template for an AES key, in the session or on the token. -/
def aesTmpl (tok : Bool) (v : UInt8) : List Entry :=
  [.of .cls (ulong CKO_SECRET_KEY), .of .keyType (ulong CKK_AES), .of .token [if tok then 1 else 0],
   .of .value (List.replicate 16 v)]

theorem hashLen : HashLen env := by
  intro p s
  show (([UInt8.ofNat p.length, s.headD 0] ++ p ++ List.replicate 32 0).take 32).length = 32
  simp only [List.length_take, List.length_append, List.length_replicate, List.length_cons, List.length_nil]
  omega

theorem randLen : RandLen env := by intro k n; simp [env, store]

theorem noToken : NoToken fresh := fun _ => rfl

/-- Nine session objects are one too many. -/
example : (answers env fresh (setup ++ List.replicate 9 (createCall 65538 (aesTmpl false 1)))).map (·.rv) =
    List.replicate 15 .ok ++ [.functionFailed] := by decide

example : ForToken (aesTmpl true 1) ∧ ¬ ForToken (aesTmpl false 1) := by decide

set_option maxRecDepth 20000 in
/-- The hypotheses of `c17_room` for a token object and of `c17_refused` for a session
object are met. -/
example : (answer env (run env fresh setup) (createCall 65538 (aesTmpl true 1))).rv = .ok ∧
    (answer env (run env fresh setup) (createCall 65538 (aesTmpl true 1))).handle = some (2 ^ 28 + 1) ∧
    8 ≤ (sessObjs (run env fresh (setup ++ List.replicate 8 (createCall 65538 (aesTmpl false 1)))) 65538).length := by
  decide

end Demo

/-! ## C18 -/

/-- What is known after a history. -/
theorem reach_inv (hh : HashLen e) (hr : RandLen e) {l₀ : Lib} (h₀ : Start l₀) (hd : NoToken l₀) (cs : List Call)
    (hb : BoolToken cs) (hn : 2 * cs.length < 2 ^ 28) :
    SInv (run e l₀ cs) ∧ CapInv (run e l₀ cs) ∧ HandleInv (2 * cs.length) (run e l₀ cs) := by
  refine ⟨h₀.sinv.run e cs, (Start.capInv h₀ hd).run hh hr h₀.sinv cs, ?_⟩
  have := (Start.handleInv h₀ hd).run hh hr h₀.sinv (Start.capInv h₀ hd) cs hb (by omega)
  rwa [Nat.zero_add] at this

/-- **C18**: different objects of the token have different handles, so do different
objects of one session, and no session object has the handle of a token object. -/
theorem c18_distinct (hh : HashLen e) (hr : RandLen e) {l₀ : Lib} (h₀ : Start l₀) (hd : NoToken l₀) (cs : List Call)
    (hb : BoolToken cs) (hn : 2 * cs.length < 2 ^ 28) :
    ((tokenObjs (run e l₀ cs)).map (·.handle)).Nodup ∧
    ∀ h, ((sessObjs (run e l₀ cs) h).map (·.handle)).Nodup ∧
      ∀ o ∈ sessObjs (run e l₀ cs) h, ∀ p ∈ tokenObjs (run e l₀ cs), o.handle ≠ p.handle := by
  obtain ⟨hi, hc, hx⟩ := reach_inv hh hr h₀ hd cs hb hn
  generalize run e l₀ cs = l at *
  have hmap : ∀ os : List Obj, (os.map Obj.hb).map (·.1) = os.map (·.handle) := by
    intro os; rw [List.map_map]; rfl
  by_cases hpos : 0 < l.count
  · unfold HandleInv at hx
    rw [if_pos hpos] at hx
    refine ⟨by rw [← hmap]; exact hx.tok.nodup, fun h => ?_⟩
    by_cases hs : sessObjs l h = []
    · rw [hs]; exact ⟨List.nodup_nil, by simp⟩
    · obtain ⟨s, hm, h1, _⟩ := sessObjs_mem hs
      rw [h1]
      refine ⟨by rw [← hmap]; exact (hx.sess s hm).nodup, ?_⟩
      intro o ho p hp he
      have r1 := ((hx.sess s hm).range o.hb (List.mem_map.mpr ⟨o, ho, rfl⟩)).2
      have r2 := (hx.tok.range p.hb (List.mem_map.mpr ⟨p, hp, rfl⟩)).1
      simp only [Obj.hb] at r1 r2
      omega
  · have hl : l.count ≤ 0 := by omega
    have h1 := (hc.off hl).1
    have h2 : l.sessions = [] := by
      rcases hi.shape with ⟨_, h⟩ | ⟨h, _⟩
      · exact h
      · omega
    unfold tokenObjs
    rw [h1]
    refine ⟨List.nodup_nil, fun h => ?_⟩
    have : sessObjs l h = [] := by
      unfold sessObjs getSession
      simp [h2]
    rw [this]
    exact ⟨List.nodup_nil, by simp⟩

/-- The calls that create no object answer no object handle. -/
theorem no_handle (l : Lib) (s : Session) (c : SessCall) (hc : c.creates = []) (hok : (sessCall e l s c).2.rv = .ok) :
    (sessCall e l s c).2.handle = none ∧ (sessCall e l s c).2.priv = none := by
  cases c with
  | create t p =>
    cases t with
    | some t => cases hc
    | none => simp [sessCall, cCreate] at hok
  | copy o t p =>
    cases t with
    | some t => cases hc
    | none => simp [sessCall, cCopy] at hok
  | genKey m t p =>
    cases t with
    | some t => cases hc
    | none => rcases m with _ | ⟨m, q⟩ <;> simp [sessCall, cGenKey] at hok
  | genPair m t q p =>
    cases t with
    | some t => simp [SessCall.creates] at hc
    | none => rcases m with _ | ⟨m, r⟩ <;> simp [sessCall, cGenPair] at hok
  | unwrap m w d t p =>
    cases t with
    | some t => cases hc
    | none =>
      simp only [sessCall, cUnwrap] at hok ⊢
      split at hok
      · cases hok
      · rcases m with _ | ⟨m, r⟩ <;> rcases d with _ | d <;> cases hok
  | derive m b t p =>
    cases t with
    | some t => cases hc
    | none => rcases m with _ | m <;> simp [sessCall, cDerive] at hok
  | close => exact ⟨rfl, rfl⟩
  | info p => simp only [sessCall]; split <;> exact ⟨rfl, rfl⟩
  | login u p n => simp only [sessCall, login]; repeat' split
                   all_goals exact ⟨rfl, rfl⟩
  | logout => exact ⟨rfl, rfl⟩
  | initPin p => simp only [sessCall, initPin, pinSet]; repeat' split
                 all_goals exact ⟨rfl, rfl⟩
  | setPin o n => simp only [sessCall, setPin, pinSet]; repeat' split
                  all_goals exact ⟨rfl, rfl⟩
  | destroy o => simp only [sessCall, cDestroy]; repeat' split
                 all_goals exact ⟨rfl, rfl⟩
  | size o p => simp only [sessCall]; split <;> exact ⟨rfl, rfl⟩
  | getAttr o t => simp only [sessCall, cGetAttr]; repeat' split
                   all_goals exact ⟨rfl, rfl⟩
  | setAttr o t => simp only [sessCall, cSetAttr]; repeat' split
                   all_goals exact ⟨rfl, rfl⟩
  | findInit t => simp only [sessCall, cFindInit]; repeat' split
                  all_goals exact ⟨rfl, rfl⟩
  | findNext p n => simp only [sessCall, cFindNext]; split <;> exact ⟨rfl, rfl⟩
  | findFinal => exact ⟨rfl, rfl⟩
  | cryptInit k m o => simp only [sessCall, cCryptInit]; repeat' split
                       all_goals exact ⟨rfl, rfl⟩
  | crypt c => simp only [sessCall, cCrypt]; repeat' split
               all_goals exact ⟨rfl, rfl⟩
  | wrap m w k o => simp only [sessCall, cWrap]; repeat' split
                    all_goals exact ⟨rfl, rfl⟩
  | random p n => simp only [sessCall, cRandom]; repeat' split
                  all_goals exact ⟨rfl, rfl⟩

/-- What `Made` and `Made2` say about handles. -/
theorem Kept.hinv {n : Nat} {l l' : Lib} (h : Kept l l') (hi : HInv n l) : HInv n l' := by
  refine ⟨by rw [h.tok]; exact hi.tok, ?_, by rw [h.tok]; exact hi.ivs, by rw [h.tok, h.disk]; exact hi.disk⟩
  intro s' hs'
  have : s'.mine ∈ l'.sessions.map Session.mine := List.mem_map.mpr ⟨s', hs', rfl⟩
  rw [h.sess] at this
  obtain ⟨s, hs, he⟩ := List.mem_map.mp this
  have ho : s'.objs = s.objs := congrArg (·.2.2) he.symm
  rw [ho]; exact hi.sess s hs

theorem Kept.getSession {l l' : Lib} (h : Kept l l') {k : Nat} {s : Session} (hg : Verif.getSession l k = some s) :
    ∃ s', Verif.getSession l' k = some s' ∧ s'.objs = s.objs := by
  have := getSession_mine h.sess k
  rw [hg] at this
  cases h1 : Verif.getSession l' k with
  | none => rw [h1] at this; cases this
  | some s' => rw [h1] at this; exact ⟨s', rfl, congrArg (·.2.2) (Option.some.inj this)⟩

/-- The creating calls with one object. -/
theorem made_look {n : Nat} {l l' : Lib} {r : Resp} {h : Nat} {s : Session} (hm : Made e (· ≤ 1) l s (l', r)) (hi : HInv n l)
    (hn : n + 1 < 2 ^ 28) (hg : getSession l h = some s) :
    (∀ k, r.rv = .ok → r.handle = some k → look l h k = some none ∧ ∃ o, look l' h k = some (some o)) ∧
    (∀ h' k' p, look l h' k' = some (some p) → look l' h' k' = some (some p)) ∧
    (r.rv ≠ .ok → ∀ h' k', look l' h' k' = look l h' k') ∧ (l'.bad = l.bad ∧ l'.count = l.count) := by
  obtain ⟨hh, _, _⟩ := getSession_handle hg
  cases hm with
  | kept h1 h2 _ =>
    refine ⟨fun k hok hk => ?_, fun h' k' p hp => by rw [h1.look]; exact hp, fun _ h' k' => h1.look h' k', h1.bad, h1.count⟩
    rw [h2 hok] at hk; cases hk
  | one h1 h2 h3 h4 h5 _ =>
    rename_i l₀ on k o
    obtain ⟨s', g1, g2⟩ := h1.getSession hg
    obtain ⟨q1, q2, q3, q4⟩ := look_add h2 (h1.hinv hi) hn h3 g1 (getSession_handle g1).2.2 hh g2
    obtain ⟨⟨b1, b2, _⟩, _⟩ := sessAdd_some h2
    refine ⟨fun k' hok hk => ?_, fun h' k' p hp => q4 h' k' p (by rw [h1.look]; exact hp), fun h => absurd h4 h,
      b1.trans h1.bad, b2.trans h1.count⟩
    rw [h5] at hk
    cases hk
    exact ⟨by rw [← h1.look]; exact q1, _, q2⟩

/-- Adding two objects one after the other. -/
theorem two_look (hr : RandLen e) {n : Nat} {l l₀ l₁ l' : Lib} {h : Nat} {s s₁ : Session} {on₁ on₂ k₁ k₂ : Nat} {o₁ o₂ : Obj}
    (h1 : Kept l l₀) (h2 : sessAddObject e l₀ s on₁ o₁ = (l₁, some k₁)) (h3 : on₁ ≤ 1) (i1 : o₁.iv.length = 12)
    (h4 : l₁.sessions.find? (fun t => t.handle == s.handle) = some s₁)
    (h5 : sessAddObject e l₁ s₁ on₂ o₂ = (l', some k₂)) (h6 : on₂ ≤ 1)
    (hi : HInv n l) (hs : SInv l) (hp : l.PopA) (hn : n + 2 < 2 ^ 28) (hg : getSession l h = some s) :
    k₁ ≠ k₂ ∧ look l h k₁ = some none ∧ look l h k₂ = some none ∧
    (∃ u, look l' h k₁ = some (some (o₁.added u on₁ k₁).view)) ∧ (∃ u, look l' h k₂ = some (some (o₂.added u on₂ k₂).view)) ∧
    (∀ h' k' p, look l h' k' = some (some p) → look l' h' k' = some (some p)) ∧ (l'.bad = l.bad ∧ l'.count = l.count) := by
  obtain ⟨hh, hu, hmem⟩ := getSession_handle hg
  obtain ⟨s', g1, g2⟩ := h1.getSession hg
  obtain ⟨hh', hu', hm'⟩ := getSession_handle g1
  have hi0 := h1.hinv hi
  obtain ⟨q1, q2, q3, q4⟩ := look_add h2 hi0 (by omega) h3 g1 hm' hh g2
  obtain ⟨⟨b1, b2, _⟩, _⟩ := sessAdd_some h2
  have hhand : handles l₀.sessions = handles l.sessions := by
    have := congrArg (List.map (·.1)) h1.sess
    simp only [List.map_map] at this
    exact this
  have hnd : (handles l₀.sessions).Nodup := by rw [hhand]; exact hs.nodup
  have hp0 : l₀.PopA := by
    unfold Lib.PopA at hp ⊢
    have : l₀.sessions.map Session.key = l.sessions.map Session.key := by
      have := congrArg (List.map fun x : Nat × Use × List Obj => (x.1, x.2.1, x.2.2.map Obj.key)) h1.sess
      simp only [List.map_map] at this
      exact this
    rw [h1.tok, this, h1.uid]; exact hp
  obtain ⟨m, hm1, heff⟩ := eff_add_eq (e := e) (ok := (· ≤ 1)) (s := s) ⟨s', hm', hh'.trans hh.symm, g2⟩ h3 i1 h2
  have hi1 := (heff.hinv hr hnd hp0 hi0 (by omega)).mono (m := n + 1) (by omega)
  have hf := frame_add_eq h2
  obtain ⟨s'', f1, f2⟩ := hf.getSession_eq (by rw [hh]; exact g1)
  rw [hh] at f1
  have hs1 : s₁ = s'' := by
    have e1 : l₁.sessions.find? (fun t => t.handle == s.handle) = some s'' := by
      have hnd1 : (handles l₁.sessions).Nodup := by rw [hf.handles]; exact hnd
      exact (find_iff hnd1).mpr ⟨(getSession_handle f1).2.2, by rw [(getSession_handle f1).1, hh]⟩
    rw [e1] at h4
    exact (Option.some.inj h4).symm
  subst hs1
  obtain ⟨w1, w2, w3, w4⟩ := look_add h5 hi1 (by omega) h6 f1 (getSession_handle f1).2.2 (getSession_handle f1).1 rfl
  obtain ⟨⟨b3, b4, _⟩, _⟩ := sessAdd_some h5
  have hne : k₁ ≠ k₂ := by
    rintro rfl
    rw [q2] at w1; cases w1
  refine ⟨hne, by rw [← h1.look]; exact q1, ?_, ⟨_, w4 _ _ _ q2⟩, ⟨_, w2⟩, ?_,
    by rw [b3, b1, h1.bad], by rw [b4, b2, h1.count]⟩
  · rw [← h1.look, ← q3 h k₂ (Ne.symm hne)]
    exact w1
  · intro h' k' p hp
    exact w4 _ _ _ (q4 _ _ _ (by rw [h1.look]; exact hp))

/-- `C_GenerateKeyPair`. -/
theorem made2_look (hr : RandLen e) {n : Nat} {l l' : Lib} {r : Resp} {h : Nat} {s : Session} (hm : Made2 e (· ≤ 1) l s (l', r))
    (hi : HInv n l) (hs : SInv l) (hp : l.PopA) (hn : n + 2 < 2 ^ 28) (hg : getSession l h = some s) (hok : r.rv = .ok) :
    ∃ k₁ k₂, r.handle = some k₁ ∧ r.priv = some k₂ ∧ k₁ ≠ k₂ ∧ look l h k₁ = some none ∧ look l h k₂ = some none ∧
    (∃ o, look l' h k₁ = some (some o)) ∧ (∃ o, look l' h k₂ = some (some o)) ∧
    (∀ h' k' p, look l h' k' = some (some p) → look l' h' k' = some (some p)) ∧ (l'.bad = l.bad ∧ l'.count = l.count) := by
  cases hm with
  | kept _ h => exact absurd hok h
  | broken _ h => exact absurd hok h
  | ub h => rw [hok] at h; cases h
  | two h1 h2 h3 i1 h4 h5 h6 i2 h7 h8 h9 =>
    obtain ⟨a, b, c, ⟨_, d⟩, ⟨_, f⟩, g⟩ := two_look hr h1 h2 h3 i1 h4 h5 h6 hi hs hp hn hg
    exact ⟨_, _, h8, h9, a, b, c, ⟨_, d⟩, ⟨_, f⟩, g⟩

/-- A creating call is one of these. -/
theorem creates_made (l : Lib) (s : Session) (c : SessCall) (hc : c.creates ≠ [])
    (ht : ∀ t ∈ c.creates, TokOk (· ≤ 1) t) :
    Made e (· ≤ 1) l s (sessCall e l s c) ∨
    (Made2 e (· ≤ 1) l s (sessCall e l s c) ∧ ∃ m p q b, c = .genPair m p q b) := by
  cases c with
  | create t p => exact .inl (made_cCreate _ _ _ _ fun q hq => ht q (by simp [SessCall.creates, hq]))
  | copy o t p => exact .inl (made_cCopy _ _ _ _ _ fun q hq => ht q (by simp [SessCall.creates, hq]))
  | genKey m t p => exact .inl (made_cGenKey _ _ _ _ _ fun q hq => ht q (by simp [SessCall.creates, hq]))
  | genPair m t u p =>
    exact .inr ⟨made_cGenPair _ _ _ _ _ _ (fun q hq => ht q (by simp [SessCall.creates, hq]))
      (fun q hq => ht q (by simp [SessCall.creates, hq])), _, _, _, _, rfl⟩
  | unwrap m w d t p => exact .inl (made_cUnwrap _ _ _ _ _ _ _ fun q hq => ht q (by simp [SessCall.creates, hq]))
  | derive m b t p => exact .inl (made_cDerive _ _ _ _ _ _ fun q hq => ht q (by simp [SessCall.creates, hq]))
  | _ => exact absurd rfl hc

theorem boolToken_tokOk {cs : List Call} {h : Nat} {c : SessCall} (hb : BoolToken (cs ++ [.sess h c])) :
    ∀ t ∈ c.creates, TokOk (· ≤ 1) t :=
  fun t ht => tokOk_of_bool (hb (.sess h c) (by simp) t ht)

/-- A session call that does not end in undefined behaviour. -/
theorem sess_step {l : Lib} {h : Nat} {c : SessCall} (hok : (answer e l (.sess h c)).rv = .ok) :
    l.bad = false ∧ 0 < l.count ∧ ∃ s, getSession l h = some s ∧ step e l (.sess h c) = sessCall e l s c := by
  unfold answer at hok
  cases hb : l.bad with
  | true => rw [step_bad hb] at hok; cases hok
  | false =>
    rw [step_resp hb] at hok
    rw [step_eq hb (by rw [hok]; simp)]
    simp only [callBody] at hok ⊢
    split at hok
    · cases hok
    rename_i hc
    split at hok
    · cases hok
    rename_i s hs
    exact ⟨trivial, by omega, s, hs, by rw [if_neg hc]⟩

/-- **C18**: the handle a call returns for an object was not in use in the session, and
denotes an object after the call; of a pair both do, and they differ. -/
theorem c18_new (hh : HashLen e) (hr : RandLen e) {l₀ : Lib} (h₀ : Start l₀) (hd : NoToken l₀) (cs : List Call)
    (h : Nat) (c : SessCall) (hb : BoolToken (cs ++ [.sess h c])) (hn : 2 * (cs.length + 1) < 2 ^ 28)
    (hok : (answer e (run e l₀ cs) (.sess h c)).rv = .ok) :
    (∀ k, (answer e (run e l₀ cs) (.sess h c)).handle = some k ∨ (answer e (run e l₀ cs) (.sess h c)).priv = some k →
      ¬ Names e (run e l₀ cs) h k ∧ Names e (run e l₀ (cs ++ [.sess h c])) h k) ∧
    (∀ k₁ k₂, (answer e (run e l₀ cs) (.sess h c)).handle = some k₁ →
      (answer e (run e l₀ cs) (.sess h c)).priv = some k₂ → k₁ ≠ k₂) := by
  have hb1 : BoolToken cs := fun d hd => hb d (List.mem_append_left _ hd)
  obtain ⟨hi, hc, hx⟩ := reach_inv hh hr h₀ hd cs hb1 (by omega)
  have hrun : run e l₀ (cs ++ [.sess h c]) = (step e (run e l₀ cs) (.sess h c)).1 := by rw [run_append]; rfl
  rw [hrun]
  generalize run e l₀ cs = l at *
  obtain ⟨hbad, hpos, s, hs, hstep⟩ := sess_step hok
  unfold answer at hok ⊢
  rw [hstep] at hok ⊢
  unfold HandleInv at hx
  rw [if_pos hpos] at hx
  by_cases hcr : c.creates = []
  · obtain ⟨n1, n2⟩ := no_handle l s c hcr hok
    rw [n1, n2]
    exact ⟨by simp, by simp⟩
  have key : ∀ k, look l h k = some none → (∃ o, look (sessCall e l s c).1 h k = some (some o)) →
      (sessCall e l s c).1.bad = l.bad → (sessCall e l s c).1.count = l.count →
      ¬ Names e l h k ∧ Names e (sessCall e l s c).1 h k := by
    intro k k1 k2 k3 k4
    refine ⟨fun hx => ?_, names_iff.mpr ⟨k3.trans hbad, by rw [k4]; exact hpos, k2⟩⟩
    obtain ⟨_, _, o, ho⟩ := names_iff.mp hx
    rw [k1] at ho; cases ho
  rcases creates_made (e := e) l s c hcr (boolToken_tokOk hb) with hm | ⟨hm, _⟩
  · generalize hr' : sessCall e l s c = r at *
    obtain ⟨l', r⟩ := r
    obtain ⟨q1, q2, q3, q4, q5⟩ := made_look hm hx (by omega) hs
    have hpriv : r.priv = none := by cases hm <;> assumption
    refine ⟨fun k hk => ?_, fun k₁ k₂ _ h2 => ?_⟩
    · rcases hk with hk | hk
      · obtain ⟨w1, w2⟩ := q1 k hok hk
        exact key k w1 w2 q4 q5
      · simp only at hk; rw [hpriv] at hk; cases hk
    · simp only at h2; rw [hpriv] at h2; cases h2
  · generalize hr' : sessCall e l s c = r at *
    obtain ⟨l', r⟩ := r
    obtain ⟨k₁, k₂, a1, a2, a3, a4, a5, a6, a7, a8, a9, a10⟩ := made2_look hr hm hx hi hc.pop (by omega) hs hok
    refine ⟨fun k hk => ?_, fun k₁' k₂' h1 h2 => ?_⟩
    · rcases hk with hk | hk
      · simp only at hk; rw [a1] at hk; cases hk
        exact key _ a4 a6 a9 a10
      · simp only at hk; rw [a2] at hk; cases hk
        exact key _ a5 a7 a9 a10
    · simp only at h1 h2
      rw [a1] at h1; rw [a2] at h2
      cases h1; cases h2
      exact a3

/-- The answer to a read is determined by the object denoted. -/
theorem read_congr {l l' : Lib} {h k : Nat} (hb : l'.bad = l.bad) (hc : l'.count = l.count)
    (hl : look l' h k = look l h k) (t : Option (List Entry)) :
    answer e l' (.sess h (.getAttr k t)) = answer e l (.sess h (.getAttr k t)) := by
  rw [getAttr_answer, getAttr_answer, hb, hc, hl]

/-- **C18**: creating an object leaves what every other handle denotes: each attribute
reads as before. -/
theorem c18_others (hh : HashLen e) (hr : RandLen e) {l₀ : Lib} (h₀ : Start l₀) (hd : NoToken l₀) (cs : List Call)
    (h : Nat) (c : SessCall) (hb : BoolToken (cs ++ [.sess h c])) (hn : 2 * (cs.length + 1) < 2 ^ 28)
    (hcr : c.creates ≠ []) (hok : (answer e (run e l₀ cs) (.sess h c)).rv = .ok) (h' k : Nat)
    (hk : Names e (run e l₀ cs) h' k) (t : List Entry) :
    answer e (run e l₀ (cs ++ [.sess h c])) (readCall h' k t) = answer e (run e l₀ cs) (readCall h' k t) := by
  have hb1 : BoolToken cs := fun d hd => hb d (List.mem_append_left _ hd)
  obtain ⟨hi, hc, hx⟩ := reach_inv hh hr h₀ hd cs hb1 (by omega)
  have hrun : run e l₀ (cs ++ [.sess h c]) = (step e (run e l₀ cs) (.sess h c)).1 := by rw [run_append]; rfl
  rw [hrun]
  generalize run e l₀ cs = l at *
  obtain ⟨hbad, hpos, s, hs, hstep⟩ := sess_step hok
  unfold answer at hok
  rw [hstep] at hok ⊢
  unfold HandleInv at hx
  rw [if_pos hpos] at hx
  obtain ⟨_, _, o, ho⟩ := names_iff.mp hk
  unfold readCall
  rcases creates_made (e := e) l s c hcr (boolToken_tokOk hb) with hm | ⟨hm, _⟩
  · generalize hr' : sessCall e l s c = r at *
    obtain ⟨l', r⟩ := r
    obtain ⟨q1, q2, q3, q4, q5⟩ := made_look hm hx (by omega) hs
    exact read_congr q4 q5 (by rw [q2 h' k o ho, ho]) _
  · generalize hr' : sessCall e l s c = r at *
    obtain ⟨l', r⟩ := r
    obtain ⟨k₁, k₂, a1, a2, a3, a4, a5, a6, a7, a8, a9, a10⟩ := made2_look hr hm hx hi hc.pop (by omega) hs hok
    exact read_congr a9 a10 (by rw [a8 h' k o ho, ho]) _

namespace Demo

/-- A history with a session object and a token object. -/
def two : List Call := setup ++ [createCall 65538 (aesTmpl false 1), createCall 65538 (aesTmpl true 2)]

theorem bool_two (c : Call) (h : ∀ t ∈ c.creates, ∀ en, findAttr t .token = some en → en.val = [0] ∨ en.val = [1]) :
    BoolToken (two ++ [c]) := by
  intro d hd
  simp only [two, setup, List.cons_append, List.nil_append, List.mem_cons, List.not_mem_nil, or_false] at hd
  rcases hd with rfl | rfl | rfl | rfl | rfl | rfl | rfl | rfl | rfl | rfl
  iterate 7 (intro t ht; simp [Call.creates, SessCall.creates, openCall] at ht)
  · intro t ht en hen
    simp only [createCall, Call.creates, SessCall.creates, Option.toList_some, List.mem_singleton] at ht
    subst ht
    obtain rfl := Option.some.inj hen
    exact .inl rfl
  · intro t ht en hen
    simp only [createCall, Call.creates, SessCall.creates, Option.toList_some, List.mem_singleton] at ht
    subst ht
    obtain rfl := Option.some.inj hen
    exact .inr rfl
  · exact h

/-- The hypotheses of `c18_new` and `c18_others` are met; the handles are those expected. -/
example : (answer env (run env fresh two) (createCall 65538 (aesTmpl false 3))).rv = .ok ∧
    (answer env (run env fresh two) (createCall 65538 (aesTmpl false 3))).handle = some 2 ∧
    Names env (run env fresh two) 65538 1 ∧ Names env (run env fresh two) 65538 (2 ^ 28 + 1) ∧
    2 * (two.length + 1) < 2 ^ 28 := by
  unfold Names
  decide

example : BoolToken (two ++ [createCall 65538 (aesTmpl false 3)]) :=
  bool_two _ (by
    intro t ht en hen
    simp only [createCall, Call.creates, SessCall.creates, Option.toList_some, List.mem_singleton] at ht
    subst ht
    obtain rfl := Option.some.inj hen
    exact .inl rfl)

end Demo

/-! ## C32 -/

/-- **C32** for `C_CreateObject`, `C_CopyObject`, `C_GenerateKey`, `C_UnwrapKey` and
`C_DeriveKey`: when the call fails, in every session every handle denotes what it denoted
before (the same object with the same attributes, or nothing), and storage is unchanged.
`C_GenerateKeyPair` is missing: see `c32_violated`. -/
theorem c32_partial (l : Lib) (h : Nat) (c : SessCall)
    (hcr : c.creates ≠ []) (hg : ∀ m p q b, c ≠ .genPair m p q b) (hok : (answer e l (.sess h c)).rv ≠ .ok)
    (hub : (answer e l (.sess h c)).rv ≠ .ub) :
    (∀ h' k, Names e (step e l (.sess h c)).1 h' k ↔ Names e l h' k) ∧
    (∀ h' k t, answer e (step e l (.sess h c)).1 (readCall h' k t) = answer e l (readCall h' k t)) ∧
    (step e l (.sess h c)).1.disk = l.disk := by
  have hk : Kept l (step e l (.sess h c)).1 := by
    unfold answer at hok hub
    cases hb : l.bad with
    | true => rw [step_bad hb]; exact .refl l
    | false =>
      rw [step_resp hb] at hok hub
      rw [step_eq hb hub]
      simp only [callBody] at hok ⊢
      split
      · exact .refl l
      rename_i hc
      rw [if_neg hc] at hok
      split
      · exact .refl l
      rename_i s hs
      rw [hs] at hok
      simp only at hok
      have hm : Made e (fun _ => True) l s (sessCall e l s c) := by
        cases c with
        | create t p => exact made_cCreate _ _ _ _ fun _ _ _ _ => trivial
        | copy o t p => exact made_cCopy _ _ _ _ _ fun _ _ _ _ => trivial
        | genKey m t p => exact made_cGenKey _ _ _ _ _ fun _ _ _ _ => trivial
        | genPair m t u p => exact absurd rfl (hg m t u p)
        | unwrap m w d t p => exact made_cUnwrap _ _ _ _ _ _ _ fun _ _ _ _ => trivial
        | derive m b t p => exact made_cDerive _ _ _ _ _ _ fun _ _ _ _ => trivial
        | _ => exact absurd rfl hcr
      generalize sessCall e l s c = r at hm hok
      cases hm with
      | kept h => exact h
      | one _ _ _ h => exact absurd h hok
  refine ⟨fun h' k => ?_, fun h' k t => read_congr hk.bad hk.count (hk.look h' k) _, hk.disk⟩
  rw [names_iff, names_iff, hk.bad, hk.count, hk.look]

/-- `C_GenerateKeyPair` for an RSA key in a session. -/
def Demo.pairCall (tp tq : List Entry) : Call :=
  .sess 65538 (.genPair (some (.rsaKeyPairGen, .null 0)) (some tp) (some tq) true)

/-- The public key asked for in the session, the private key on the token. -/
def Demo.rsaPub : List Entry := [.of .modulusBits (ulong 2048), .of .publicExponent [1, 0, 1]]

/-- **C32** is violated by `C_GenerateKeyPair`: with seven objects in the session the
public key still fits and the private key does not; the call fails, and the library is
broken: the public key is freed and still in the session's list. -/
theorem c32_violated :
    (answer Demo.env (run Demo.env Demo.fresh (Demo.setup ++ List.replicate 7 (createCall 65538 (Demo.aesTmpl false 1))))
      (Demo.pairCall Demo.rsaPub [])).rv = .functionFailed ∧
    (step Demo.env (run Demo.env Demo.fresh (Demo.setup ++ List.replicate 7 (createCall 65538 (Demo.aesTmpl false 1))))
      (Demo.pairCall Demo.rsaPub [])).1.bad = true ∧
    (sessObjs (step Demo.env (run Demo.env Demo.fresh (Demo.setup ++ List.replicate 7 (createCall 65538 (Demo.aesTmpl false 1))))
      (Demo.pairCall Demo.rsaPub [])).1 65538).length = 8 := by decide

/-- The hypotheses of `c32_partial` are met: a ninth object, and a template without a key
type. -/
example : (answer Demo.env (run Demo.env Demo.fresh (Demo.setup ++ List.replicate 8 (createCall 65538 (Demo.aesTmpl false 1))))
      (createCall 65538 (Demo.aesTmpl false 2))).rv = .functionFailed ∧
    (answer Demo.env (run Demo.env Demo.fresh Demo.setup) (createCall 65538 [])).rv = .templateIncomplete := by decide

/-! ## C19 -/

namespace Demo

/-- The object made by `createCall 65538 (aesTmpl false 1)`. -/
def churnObj (n : Nat) : Obj :=
  { (createObject env { handle := 65538, use := .rw } (aesTmpl false 1)).2 with
    onToken := false, uid := n, handle := n }

/-- A read/write session in which these objects are, after `n` creations. -/
def churnLib (n : Nat) (os : List Obj) : Lib :=
  { run env fresh [.cInit, openCall true] with uid := n + 1 }.upd 65538 fun t => { t with objs := os }

/-- Create an object, then `n` times create another and destroy the older one. -/
def churn : Nat → List Call
  | 0 => [.cInit, openCall true, createCall 65538 (aesTmpl false 1)]
  | n + 1 => churn n ++ [createCall 65538 (aesTmpl false 1), .sess 65538 (.destroy (n + 1))]

theorem churn_create (n : Nat) :
    step env (churnLib (n + 1) [churnObj (n + 1)]) (createCall 65538 (aesTmpl false 1)) =
      (churnLib (n + 2) [churnObj (n + 2), churnObj (n + 1)], { rv := .ok, handle := some (n + 2) }) := by rfl

theorem churn_destroy (n : Nat) (h : n + 1 < 2 ^ 28) :
    step env (churnLib (n + 2) [churnObj (n + 2), churnObj (n + 1)]) (.sess 65538 (.destroy (n + 1))) =
      (churnLib (n + 2) [churnObj (n + 2)], { rv := .ok }) := by
  have hg : getSession (churnLib (n + 2) [churnObj (n + 2), churnObj (n + 1)]) 65538 =
    some { handle := 65538, use := .rw, objs := [churnObj (n + 2), churnObj (n + 1)] } := by rfl
  have hb : callBody env (churnLib (n + 2) [churnObj (n + 2), churnObj (n + 1)]) (.sess 65538 (.destroy (n + 1))) =
      (churnLib (n + 2) [churnObj (n + 2)], { rv := .ok }) := by
    simp only [callBody]
    rw [if_neg (by show ¬ (1 : Int) ≤ 0; decide), hg]
    simp only [sessCall, cDestroy, findObj, sess_handle h]
    have h1 : (churnObj (n + 2)).handle = n + 2 := rfl
    have h2 : (churnObj (n + 1)).handle = n + 1 := rfl
    have h3 : List.find? (fun o => o.handle == n + 1) [churnObj (n + 2), churnObj (n + 1)] = some (churnObj (n + 1)) := by
      rw [List.find?_cons_of_neg (by simp [h1]), List.find?_cons_of_pos (by simp [h2])]
    simp only [ne_eq, not_true, if_false, Bool.false_eq_true, h3]
    have h4 : List.filter (fun p => p.uid != (churnObj (n + 1)).uid) [churnObj (n + 2), churnObj (n + 1)] =
        [churnObj (n + 2)] := by
      have e1 : (churnObj (n + 2)).uid = n + 2 := rfl
      have e2 : (churnObj (n + 1)).uid = n + 1 := rfl
      rw [List.filter_cons_of_pos (by simp [e1, e2]), List.filter_cons_of_neg (by simp)]
      rfl
    show (Lib.upd _ _ _, _) = _
    refine Prod.ext ?_ rfl
    have : ∀ f : List Obj → List Obj, (churnLib (n + 2) [churnObj (n + 2), churnObj (n + 1)]).upd 65538
        (fun t => { t with objs := f t.objs }) = churnLib (n + 2) (f [churnObj (n + 2), churnObj (n + 1)]) := fun f => rfl
    refine (this _).trans ?_
    rw [h4]
  rw [step_eq rfl (by rw [hb]; simp), hb]

theorem churn_first (n : Nat) : step env (churnLib n []) (createCall 65538 (aesTmpl false 1)) =
    (churnLib (n + 1) [{ churnObj (n + 1) with handle := objHandle 0 }], { rv := .ok, handle := some (objHandle 0) }) := by
  rfl

theorem churn_zero : run env fresh (churn 0) = churnLib 1 [churnObj 1] := by
  show (step env (run env fresh [.cInit, openCall true]) _).1 = _
  have : run env fresh [.cInit, openCall true] = churnLib 0 [] := by rfl
  rw [this, churn_first, show objHandle 0 = 1 by decide]
  rfl

theorem churn_run (n : Nat) (h : n < 2 ^ 28) : run env fresh (churn n) = churnLib (n + 1) [churnObj (n + 1)] := by
  induction n with
  | zero => exact churn_zero
  | succ n ih =>
    rw [churn, run_append, ih (by omega)]
    show (step env (step env _ _).1 _).1 = _
    rw [churn_create, churn_destroy n h]

end Demo

theorem churned (n : Nat) (hn : n + 2 = 2 ^ 28) :
    (answer Demo.env (run Demo.env Demo.fresh (Demo.churn n)) (createCall 65538 (Demo.aesTmpl false 1))).rv = .ok ∧
    (answer Demo.env (run Demo.env Demo.fresh (Demo.churn n)) (createCall 65538 (Demo.aesTmpl false 1))).handle =
      some (n + 2) ∧
    ¬ Names Demo.env (run Demo.env Demo.fresh (Demo.churn n ++ [createCall 65538 (Demo.aesTmpl false 1)])) 65538 (n + 2) := by
  have hrun : run Demo.env Demo.fresh (Demo.churn n ++ [createCall 65538 (Demo.aesTmpl false 1)]) =
      (step Demo.env (run Demo.env Demo.fresh (Demo.churn n)) (createCall 65538 (Demo.aesTmpl false 1))).1 := by
    rw [run_append]; rfl
  unfold answer
  rw [hrun, Demo.churn_run _ (by omega), Demo.churn_create]
  refine ⟨rfl, rfl, fun hx => ?_⟩
  obtain ⟨_, _, o, ho⟩ := names_iff.mp hx
  rw [look_eq] at ho
  have : handleOnToken (n + 2) = true := by rw [hn]; decide
  rw [this] at ho
  cases ho

/-- **C19** is violated: there is a history, with no token object in it, after which a
session object is created successfully and the handle returned for it denotes no object.
(It is the history in which `2 ^ 28 - 1` objects are created and all but the last of them
destroyed.) -/
theorem c19_violated :
    ∃ cs k, (answer Demo.env (run Demo.env Demo.fresh cs) (createCall 65538 (Demo.aesTmpl false 1))).rv = .ok ∧
      (answer Demo.env (run Demo.env Demo.fresh cs) (createCall 65538 (Demo.aesTmpl false 1))).handle = some k ∧
      ¬ Names Demo.env (run Demo.env Demo.fresh (cs ++ [createCall 65538 (Demo.aesTmpl false 1)])) 65538 k :=
  ⟨Demo.churn 268435454, 268435454 + 2, churned 268435454 (by decide)⟩

/-- **C19** for fewer than `2 ^ 27` calls: see `c18_new` for the answer of the creating
call; the handle goes on denoting the same object, whatever else is created. -/
theorem c19_partial (hh : HashLen e) (hr : RandLen e) {l₀ : Lib} (h₀ : Start l₀) (hd : NoToken l₀) (cs : List Call)
    (h k : Nat) (c : SessCall) (hb : BoolToken (cs ++ [.sess h c])) (hn : 2 * (cs.length + 1) < 2 ^ 28)
    (hok : (answer e (run e l₀ cs) (.sess h c)).rv = .ok)
    (hk : (answer e (run e l₀ cs) (.sess h c)).handle = some k) :
    Names e (run e l₀ (cs ++ [.sess h c])) h k :=
  ((c18_new hh hr h₀ hd cs h c hb hn hok).1 k (.inl hk)).2

end Verif
