import Verif.Props.Lasting

/-!
# Making an object from a template, and using it
-/

namespace Verif

variable {e : Env}

/-- What `CreateObject` does with a template of which every part is in order. -/
theorem createObject_of {s : Session} (hu : s.use = .rw) {t : List Entry} {cls typ : Nat} {ps : List CKA} {o o' : Obj}
    (h1 : templClass t = .ok cls) (h2 : templUlong t .keyType = .ok typ) (hc : cls ≠ CKO_CERTIFICATE) (h3 : keyTypeOk typ = true)
    (h4 : checkAttributes true t = .ok) (h5 : keyParams { newObj 0 typ with cls } = some ps)
    (h8 : (ps.any fun a => (keyAttr t a).any fun e => e.mem.isNone) = false)
    (h6 : setKey e.key { newObj 0 typ with cls } (keyVals t) = (.ok, o)) (h7 : setAttrs o t = (.ok, o')) :
    createObject e s t = (.ok, o') := by
  have hr : (s.use == .rw) = true := by rw [hu]; rfl
  unfold createObject
  rw [h1]
  simp only [h2]
  rw [if_neg hc, if_pos h3]
  unfold newObject setAttributeValue
  simp only [hr, h4, h5, h6, h7, h8, Bool.not_true, Bool.false_eq_true, if_false, ne_eq, not_true_eq_false]

/-- Making an object from a template that gives one. -/
theorem import_ok {l : Lib} (hb : l.bad = false) (hc : 0 < l.count) {h : Nat} {s : Session} (hs : getSession l h = some s)
    (hu : s.use = .rw) (tok : Bool) {t : List Entry} {o₀ : Obj} (hcr : createObject e s t = (.ok, o₀))
    (hon : tokenByte t 0 = .ok (if tok then 1 else 0))
    (henc : tok = true → ∀ key b u, (encodeObj e.store key false { o₀ with onToken := b, uid := u }).1 = true)
    (hroom : if tok then (tokenObjs l).length < 64 else (sessObjs l h).length < 8) :
    ∃ κ l', step e l (createCall h t) = (l', { rv := .ok, handle := some κ }) ∧ l'.bad = false ∧ 0 < l'.count ∧
      l'.token.login = l.token.login ∧ ∃ s' o, getSession l' h = some s' ∧ o ∈ (if tok then l'.token.objs else s'.objs) ∧ o.handle = κ ∧ o.typ = o₀.typ ∧
        o.cls = o₀.cls ∧ o.data = o₀.data := by
  have hso : sessObjs l h = s.objs := by unfold sessObjs; rw [hs]; rfl
  have hadd : ∃ k l'', sessAddObject e l s (if tok then 1 else 0) o₀ = (l'', some k) := by
    unfold sessAddObject
    cases tok with
    | false =>
      have : ¬ s.objs.length ≥ sessObjMax := by
        simp only [Bool.false_eq_true, if_false, hso] at hroom; unfold sessObjMax; omega
      simp only [Bool.false_eq_true, ne_eq, not_true_eq_false, if_false, this]
      exact ⟨_, _, rfl⟩
    | true =>
      have hlen : ¬ l.token.objs.length ≥ tokenObjMax := by
        simp only [if_true] at hroom; unfold tokenObjMax; unfold tokenObjs at hroom; omega
      have henc := henc rfl l.token.key
      simp only [if_true, ne_eq, Nat.one_ne_zero, not_false_eq_true, hlen, if_false, henc]
      exact ⟨_, _, rfl⟩
  obtain ⟨k, l', hadd⟩ := hadd
  have hbody : callBody e l (createCall h t) = (l', { rv := .ok, handle := some k }) := by
    have hc' : ¬ l.count ≤ 0 := by omega
    have hu' : ¬ s.use ≠ .rw := by simp [hu]
    simp only [createCall, callBody, if_neg hc', hs, sessCall, cCreate, Bool.not_true, Bool.false_eq_true, if_false,
      if_neg hu', hcr, addObject, hon, hadd]
  refine ⟨k, l', by rw [step_eq hb (by rw [hbody]; simp)]; exact hbody, ?_⟩
  have hlog : l'.token.login = l.token.login := by
    have := (tframe_sessAddObject e l s (if tok then 1 else 0) o₀).login
    rw [hadd] at this
    exact this
  obtain ⟨⟨q1, q2, _⟩, ⟨h0, _, _, hvw, hss⟩ | ⟨h0, _, _, rfl⟩⟩ := sessAdd_some hadd
  · have htk : tok = true := by cases tok <;> simp_all
    subst htk
    refine ⟨q1.trans hb, by omega, hlog, s, ?_⟩
    cases hobjs : l'.token.objs with
    | nil => rw [hobjs] at hvw; simp at hvw
    | cons o os =>
      rw [hobjs] at hvw
      simp only [List.map_cons, List.cons.injEq] at hvw
      have hv1 := hvw.1
      refine ⟨o, by rw [getSession_congr hss]; exact hs, by simp, ?_, ?_, ?_, ?_⟩
      · exact (congrArg Obj.handle hv1 :)
      · exact (congrArg Obj.typ hv1 :)
      · exact (congrArg Obj.cls hv1 :)
      · exact (congrArg Obj.data hv1 :)
  · have htk : tok = false := by cases tok <;> simp_all
    subst htk
    refine ⟨q1.trans hb, by omega, hlog, ?_⟩
    have hsh := (getSession_handle hs).1
    simp only [Bool.false_eq_true, if_false]
    rw [hsh, getSession_upd_eq (f := fun t => { t with objs := o₀.added l.uid 0 k :: t.objs }) (fun _ => ⟨rfl, rfl⟩)]
    rw [show getSession { l with uid := l.uid + 1 } h = some s from hs]
    exact ⟨_, o₀.added l.uid 0 k, rfl, by simp, rfl, rfl, rfl, rfl⟩

/-- Making an object from a template that gives one, after any history, and using it for as long as it is not touched. -/
theorem import_use (hh : HashLen e) (hr : RandLen e) {l₀ : Lib} (h₀ : Start l₀) (hd : NoToken l₀) (cs : List Call) (h : Nat)
    (ho : OpenAs e (run e l₀ cs) h true) (tok : Bool) {t : List Entry} {o₀ : Obj}
    (hcr : ∀ s : Session, s.use = .rw → createObject e s t = (.ok, o₀)) (hon : tokenByte t 0 = .ok (if tok then 1 else 0))
    (henc : tok = true → ∀ key b u, (encodeObj e.store key false { o₀ with onToken := b, uid := u }).1 = true)
    (hcls : o₀.cls ≠ CKO_CERTIFICATE)
    (hroom : if tok then (tokenObjs (run e l₀ cs)).length < 64 else (sessObjs (run e l₀ cs) h).length < 8) :
    ∃ κ, answer e (run e l₀ cs) (createCall h t) = { rv := .ok, handle := some κ } ∧
      ∀ mid : List Call, (∀ c ∈ mid, Spares h κ c) →
      ∀ now, now = cs ++ createCall h t :: mid → BoolToken now → 2 * now.length < 2 ^ 28 → (run e l₀ now).bad = false →
      ∀ (kd : Kind) (m : Mech) (p : MechParam),
        (∀ s o, o.typ = o₀.typ → o.data = o₀.data → (initCall e.crypto kd s o m p).2 = .ok) →
        answer e (run e l₀ now) (initOf h kd m p κ) = { rv := .ok } ∧
        ∀ cs', (∀ c ∈ cs', Bystander h κ c) → (run e l₀ (now ++ initOf h kd m p κ :: cs')).bad = false →
          ∃ s o st, o.typ = o₀.typ ∧ o.data = o₀.data ∧ initCall e.crypto kd s o m p = (st, .ok) ∧
            ∀ d, answer e (run e l₀ (now ++ initOf h kd m p κ :: cs')) (dataOf h d) =
              { rv := (d.run e.crypto st (some o)).2.rv, out := some (d.run e.crypto st (some o)).2 } := by
  have hi := h₀.sinv.run e cs
  obtain ⟨hb, s, hs, hu⟩ := (openAs_iff hi).mp ho
  have hc := count_pos_of_open hi hs
  have hu : s.use = .rw := by simpa using hu
  obtain ⟨κ, l', hstep, hb', hc', _, s', o, hs', hmem, hk, h1, h2, h3⟩ := import_ok (e := e) hb hc hs hu tok (hcr s hu) hon henc hroom
  refine ⟨κ, by unfold answer; rw [hstep], ?_⟩
  rintro mid hmid now rfl hbt hlen hgood kd m p hfit
  have hrun1 : run e l₀ (cs ++ [createCall h t]) = l' := by
    rw [run_append]; simp only [run, hstep]
  have hsplit : cs ++ createCall h t :: mid = (cs ++ [createCall h t]) ++ mid := by simp
  have hb1 : BoolToken (cs ++ [createCall h t]) :=
    fun d hd => hbt d (by rw [hsplit]; exact List.mem_append_left _ hd)
  have hn1 : 2 * (cs ++ [createCall h t]).length < 2 ^ 28 := by
    rw [hsplit, List.length_append] at hlen; omega
  obtain ⟨i1, i2, i3⟩ := reach_inv hh hr h₀ hd _ hb1 hn1
  rw [hrun1] at i1 i2 i3
  unfold HandleInv at i3
  rw [if_pos hc'] at i3
  have hso : sessObjs l' h = s'.objs := by unfold sessObjs; rw [hs']; rfl
  have had : Addressed l' h κ o := by
    refine ⟨?_, hk⟩
    cases tok with
    | true => exact List.mem_append_right _ hmem
    | false => rw [hso]; exact List.mem_append_left _ hmem
  have hst := addressed_stays i3 hn1 hs' had
  have hrunm : run e l₀ (cs ++ createCall h t :: mid) = run e l' mid := by
    rw [hsplit, run_append, hrun1]
  obtain ⟨hst', hcm⟩ := hst.run hh hr mid (by rw [show o.view.handle = κ from hk]; exact hmid) i2 i1 hc' (by rw [← hrunm]; exact hgood)
  obtain ⟨o', had', hvw⟩ := stays_addressed hst'
  rw [show o.view.handle = κ from hk] at had'
  obtain ⟨sm, hsm, _⟩ := hst'
  obtain ⟨_, _, k3⟩ := reach_inv hh hr h₀ hd _ hbt hlen
  rw [hrunm] at k3
  unfold HandleInv at k3
  rw [if_pos hcm] at k3
  have hfind := addressed_find k3 hlen hsm had'
  have t1 : o'.typ = o₀.typ := by rw [← h1]; exact (congrArg Obj.typ hvw :)
  have t2 : o'.cls = o₀.cls := by rw [← h2]; exact (congrArg Obj.cls hvw :)
  have t3 : o'.data = o₀.data := by rw [← h3]; exact (congrArg Obj.data hvw :)
  have j3 := hfit sm.op o' t1 t3
  have hgm : (run e l' mid).bad = false := by rw [← hrunm]; exact hgood
  have hinit : answer e (run e l' mid) (initOf h kd m p κ) = { rv := .ok } := by
    have hbody : (callBody e (run e l' mid) (.sess h (.cryptInit kd (some (m, p)) κ))).2 = { rv := .ok } := by
      have hc0 : ¬ (run e l' mid).count ≤ 0 := by omega
      have : ¬ ((initCall e.crypto kd sm.op o' m p).2 = .ok ∧ o'.cls = CKO_CERTIFICATE) := by
        rintro ⟨_, hx⟩; rw [t2] at hx; exact hcls hx
      simp only [callBody, if_neg hc0, hsm, sessCall, cCryptInit, hfind]
      rw [if_neg this, j3]
    unfold answer initOf
    rw [step_eq hgm (by rw [hbody]; simp)]
    exact hbody
  rw [hrunm]
  refine ⟨hinit, fun cs' hcs' hgd => ?_⟩
  have hok : (answer e (run e l₀ (cs ++ createCall h t :: mid)) (initOf h kd m p κ)).rv = .ok := by
    rw [hrunm, hinit]
  obtain ⟨sx, ox, st, g1, g2, g3, g4⟩ := one_shot_at hh hr h₀ hd _ cs' h κ kd m p hok hcs' hgd
  rw [hrunm] at g2
  have hox : ox = o' := addressed_unique k3 hlen hsm g2 had'
  subst hox
  exact ⟨sx.op, ox, st, t1, t3, g3, g4⟩

end Verif
