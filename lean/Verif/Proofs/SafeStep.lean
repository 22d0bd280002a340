import Verif.Proofs.SafeCall

/-!
# Safe calls one at a time
-/

namespace Verif

variable {e : Env}

theorem cCopy_fine {l : Lib} (hb : l.bad = false) {h : Nat} {s : Session} (hs : getSession l h = some s)
    (ho : ∀ o ∈ s.objs ++ l.token.objs, Small o) (k : Nat) (t : Option (List Entry)) (p : Bool)
    (hsafe : (SessCall.copy k t p).Safe e l h) : Fine (cCopy e l s k t p) := by
  unfold cCopy
  split
  · exact ⟨RV.noConfusion, hb⟩
  rename_i t
  split
  · exact ⟨RV.noConfusion, hb⟩
  split
  · exact ⟨RV.noConfusion, hb⟩
  split
  · exact ⟨RV.noConfusion, hb⟩
  rename_i o hf
  have hsm := ho o (findObj_memAll hf)
  obtain ⟨hc, hn, ha⟩ := hsafe
  obtain ⟨ha, hcert⟩ := ha o (findObj_addressed hs hf)
  split
  · rename_i h; exact ⟨tokenByte_safe h, hb⟩
  rename_i on hon
  dsimp only
  split
  · exact ⟨getAttributeValue_safe hsm.symm ha, hb⟩
  rename_i hg
  split
  · exact ⟨copy_safe hsm hc hn hcert (Decidable.not_not.mp hg), hb⟩
  split
  · rename_i hx
    exact ⟨RV.noConfusion, by have h1 := sessAdd_none hx; rw [h1]; exact hb⟩
  · rename_i hx
    exact ⟨RV.noConfusion, by rw [(sessAdd_some hx).1.1]; exact hb⟩

theorem cDestroy_fine {l : Lib} (hb : l.bad = false) (s : Session) (hbit : ∀ o ∈ l.token.objs, o.onToken = true) (k : Nat) :
    Fine (cDestroy e l s k) := by
  unfold cDestroy
  split
  · exact ⟨RV.noConfusion, hb⟩
  split
  · exact ⟨RV.noConfusion, hb⟩
  rename_i o hf
  split
  · rename_i ht
    rw [if_pos (hbit o ((findObj_mem hf).2.1 ht))]
    exact ⟨RV.noConfusion, hb⟩
  · exact ⟨RV.noConfusion, hb⟩

theorem cGetAttr_fine {l : Lib} (hb : l.bad = false) {h : Nat} {s : Session} (hs : getSession l h = some s)
    (ho : ∀ o ∈ s.objs ++ l.token.objs, Small o) (k : Nat) (t : Option (List Entry))
    (hsafe : (SessCall.getAttr k t).Safe e l h) : Fine (cGetAttr e l s k t) := by
  unfold cGetAttr
  split
  · exact ⟨RV.noConfusion, hb⟩
  split
  · exact ⟨RV.noConfusion, hb⟩
  rename_i o hf
  exact ⟨getAttributeValue_safe (ho o (findObj_memAll hf)).symm (hsafe o (findObj_addressed hs hf)), hb⟩

theorem cSetAttr_fine {l : Lib} (hb : l.bad = false) {h : Nat} {s : Session} (hs : getSession l h = some s)
    (k : Nat) (t : Option (List Entry))
    (hsafe : (SessCall.setAttr k t).Safe e l h) : Fine (cSetAttr e l s k t) := by
  unfold cSetAttr
  split
  · exact ⟨RV.noConfusion, hb⟩
  split
  · exact ⟨RV.noConfusion, hb⟩
  split
  · exact ⟨RV.noConfusion, hb⟩
  rename_i o hf
  obtain ⟨h1, h2, h3, h4⟩ := hsafe
  refine ⟨setAttributeValue_safe h2 ?_ ?_, ?_⟩
  · exact fun _ en hm => ⟨h1 en hm, fun hx => absurd hx (h3 en hm)⟩
  · intro _ hc _
    rcases h4 o (findObj_addressed hs hf) with h | h
    · exact h
    · exact absurd h hc
  · unfold putObj
    split <;> exact hb

theorem cFindInit_fine {l : Lib} (hb : l.bad = false) {h : Nat} {s : Session} (hs : getSession l h = some s)
    (ho : ∀ o ∈ s.objs ++ l.token.objs, Small o) (hbit : ∀ o ∈ l.token.objs, o.onToken = true) (t : Option (List Entry))
    (hsafe : (SessCall.findInit t).Safe e l h) : Fine (cFindInit e l s t) := by
  have hso : sessObjs l h = s.objs := by unfold sessObjs; rw [hs]; rfl
  unfold cFindInit
  split
  · exact ⟨RV.noConfusion, hb⟩
  rename_i t
  split
  · exact ⟨RV.noConfusion, hb⟩
  dsimp only
  split
  · rename_i h; exact ⟨tokenByte_safe h, hb⟩
  rename_i on hon
  split
  · rename_i hc
    exfalso
    have hc := hc.2
    unfold findCycles at hc
    cases hx : l.token.objs.getLast? with
    | none => rw [hx] at hc; cases hc
    | some o =>
      rw [hx] at hc
      have := hbit o (List.mem_of_getLast? hx)
      simp [this] at hc
  have hsub : ∀ o ∈ s.objs ++ (if on ≠ 0 then l.token.objs else []), o ∈ s.objs ++ l.token.objs := by
    intro o hm
    rcases List.mem_append.mp hm with hm | hm
    · exact List.mem_append_left _ hm
    · split at hm
      · exact List.mem_append_right _ hm
      · cases hm
  split
  · rename_i hn
    refine absurd hn (findLoop_safe (fun o hm => (ho o (hsub o hm)).symm) ?_)
    intro en hm
    obtain ⟨h1, h2, h3⟩ := hsafe en hm
    refine ⟨h1, h2, fun o hmo hsh => h3 o ?_ hsh⟩
    rw [hso]; exact hsub o hmo
  · exact ⟨RV.noConfusion, hb⟩

theorem cCryptInit_fine {l : Lib} (hb : l.bad = false) {h : Nat} {s : Session} (hs : getSession l h = some s)
    (kd : Kind) (m : Option (Mech × MechParam)) (k : Nat)
    (hsafe : (SessCall.cryptInit kd m k).Safe e l h) : Fine (cCryptInit e l s kd m k) := by
  unfold cCryptInit
  split
  · exact ⟨RV.noConfusion, hb⟩
  split
  · exact ⟨RV.noConfusion, hb⟩
  rename_i o hf
  dsimp only
  rw [if_neg (fun h => (hsafe o (findObj_addressed hs hf)).1 h.2)]
  exact ⟨initCall_no_ub e.crypto kd _ _ _ _, hb⟩

/-! ## Key pairs -/

theorem ecGenerate_safe {g : Curve → Option EcKey} {a b : Obj} {c : Curve} (h : a.ec.dp = some c) : (ecGenerate g a b).1 ≠ .ub := by
  unfold ecGenerate
  rw [h]
  dsimp only
  split <;> exact fun h => by cases h

theorem pairGen_safe {n : Nat} {m : Mech} {typ : Nat} {gen : Obj → Obj → IRet × Obj × Obj} {a b : Obj}
    (h : pairGen e n m = some (typ, gen)) (hc : m = .ecKeyPairGen → ∃ c, a.ec.dp = some c) : (gen a b).1 ≠ .ub := by
  unfold pairGen at h
  split at h
  · cases h
    unfold rsaGenerate
    dsimp only
    repeat' split
    all_goals exact fun h => by cases h
  · cases h
    obtain ⟨c, hc⟩ := hc rfl
    exact ecGenerate_safe hc
  · cases h
    unfold dhGenerate
    dsimp only
    split <;> exact fun h => by cases h
  · cases h

/-- A generated private key can be encoded. -/
theorem pairGen_stored (hl : SafeLaws e) {n : Nat} {m : Mech} {typ : Nat} {gen : Obj → Obj → IRet × Obj × Obj} {a b a' b' : Obj}
    (h : pairGen e n m = some (typ, gen)) (hg : gen a b = (.ok, a', b')) (ht : b.typ = typ) (hc : b.cls ≠ CKO_CERTIFICATE)
    (k : Bytes) (u : Nat) (on : Bool) : (encodeObj e.store k false { b' with onToken := on, uid := u }).1 = true := by
  have hr := pairGen_rest h hg
  unfold pairGen at h
  split at h
  · cases h
    have key : ∃ k', b'.data = .rsa k' ∧ ∃ x y, e.rsaGen n x y = some k' := by
      unfold rsaGenerate at hg
      dsimp only at hg
      repeat' split at hg
      all_goals first
        | (cases hg; done)
        | (cases hg; exact ⟨_, rfl, _, _, by assumption⟩)
    obtain ⟨k', hd, x, y, hk⟩ := key
    obtain ⟨s1, s2⟩ := hl.rsaStored _ _ _ _ hk
    have hb : b'.typ = CKK_RSA ∧ b'.cls ≠ CKO_CERTIFICATE := by
      have e1 : b'.typ = b.typ := congrArg (fun r => r.2.2.2) hr.2
      have e2 : b'.cls = b.cls := congrArg (fun r => r.1) hr.2
      rw [e1, e2]; exact ⟨ht, hc⟩
    unfold encodeObj
    dsimp only
    rw [if_neg hb.2]
    simp only [Bool.false_eq_true, false_and, if_false]
    unfold encodeKey
    dsimp only
    rw [if_pos hb.1]
    unfold encodeRsa Obj.rsa
    dsimp only
    rw [hd]
    dsimp only
    repeat' split
    · rw [Option.isSome_map]; exact Option.isSome_iff_ne_none.mpr s1
    · exact Option.isSome_iff_ne_none.mpr s2
    · rw [Option.isSome_map]; exact Option.isSome_iff_ne_none.mpr s2
  · cases h
    have key : ∃ k' c, b'.data = .ec { k' with dp := some c, typ := .priv } ∧ e.ecGen n c = some k' := by
      unfold ecGenerate at hg
      split at hg
      · cases hg
      split at hg
      · cases hg
      · cases hg; exact ⟨_, _, rfl, by assumption⟩
    obtain ⟨k', c, hd, hk⟩ := key
    obtain ⟨s1, s2⟩ := hl.ecStored _ _ _ hk
    have hb : b'.typ = CKK_EC ∧ b'.cls ≠ CKO_CERTIFICATE := by
      have e1 : b'.typ = b.typ := congrArg (fun r => r.2.2.2) hr.2
      have e2 : b'.cls = b.cls := congrArg (fun r => r.1) hr.2
      rw [e1, e2]; exact ⟨ht, hc⟩
    unfold encodeObj
    dsimp only
    rw [if_neg hb.2]
    simp only [Bool.false_eq_true, false_and, if_false]
    unfold encodeKey
    dsimp only
    rw [if_neg (by rw [hb.1]; decide), if_pos hb.1]
    unfold encodeEcc Obj.ec
    dsimp only
    rw [hd]
    dsimp only
    repeat' split
    · rw [Option.isSome_map]; exact Option.isSome_iff_ne_none.mpr s1
    · exact Option.isSome_iff_ne_none.mpr s2
    · rw [Option.isSome_map]; exact Option.isSome_iff_ne_none.mpr s2
  · cases h
    have hb : b'.typ = CKK_DH ∧ b'.cls ≠ CKO_CERTIFICATE := by
      have e1 : b'.typ = b.typ := congrArg (fun r => r.2.2.2) hr.2
      have e2 : b'.cls = b.cls := congrArg (fun r => r.1) hr.2
      rw [e1, e2]; exact ⟨ht, hc⟩
    unfold encodeObj
    dsimp only
    rw [if_neg hb.2]
    simp only [Bool.false_eq_true, false_and, if_false]
    unfold encodeKey
    dsimp only
    rw [if_neg (by rw [hb.1]; decide), if_neg (by rw [hb.1]; decide), if_pos hb.1]
    rfl
  · cases h

/-- There is room, the key can be encoded, `CKA_TOKEN` is well formed: the object is added. -/
theorem addObject_works {l : Lib} {s : Session} {t : List Entry} {o : Obj}
    (ht : ∀ en ∈ t, en.typ = .token → en.mem ≠ none ∧ en.len = 1)
    (hsl : s.objs.length < 8) (htl : l.token.objs.length < 64)
    (he : ∀ k u on, (encodeObj e.store k false { o with onToken := on, uid := u }).1 = true) :
    (addObject e l s t o).2.rv = .ok := by
  have hon : ∃ on, tokenByte t 0 = .ok on := by
    unfold tokenByte
    split
    · exact ⟨_, rfl⟩
    rename_i en hf
    have h1 : en.typ = .token := by have := List.find?_some hf; simpa using this
    obtain ⟨h2, h3⟩ := ht en (List.mem_reverse.mp (List.mem_of_find?_eq_some hf)) h1
    rw [if_neg (by cases hm : en.mem with | none => exact absurd hm h2 | some _ => simp), if_neg (fun h => h h3)]
    exact ⟨_, rfl⟩
  obtain ⟨on, hon⟩ := hon
  unfold addObject
  rw [hon]
  dsimp only
  have : ∃ l' k, sessAddObject e l s on o = (l', some k) := by
    unfold sessAddObject
    dsimp only
    split
    · rw [if_neg (by unfold tokenObjMax; omega), if_pos (he _ _ _)]
      exact ⟨_, _, rfl⟩
    · rw [if_neg (by unfold sessObjMax; omega)]
      exact ⟨_, _, rfl⟩
  obtain ⟨l', k, hk⟩ := this
  rw [hk]

theorem tokenByte_err {t : List Entry} {d : Nat} {rv : RV} (h : tokenByte t d = .error rv) : rv ≠ .ok := by
  unfold tokenByte at h
  repeat' split at h
  all_goals cases h
  all_goals exact fun h => by cases h

theorem addPair_fine {l : Lib} (hb : l.bad = false) {s : Session} (hn : (handles l.sessions).Nodup) (hs : s ∈ l.sessions)
    {tp tq : List Entry} {a b : Obj}
    (ht : ∀ en ∈ tq, en.typ = .token → en.mem ≠ none ∧ en.len = 1)
    (hsl : s.objs.length + 2 ≤ 8) (htl : l.token.objs.length + 2 ≤ 64)
    (he : ∀ k u on, (encodeObj e.store k false { b with onToken := on, uid := u }).1 = true) :
    Fine (addPair e l s tp tq a b) := by
  unfold addPair
  have h1 := addObject_fine (e := e) hb s tp a
  rcases hx : addObject e l s tp a with ⟨l1, r1⟩
  rw [hx] at h1
  dsimp only
  split
  · exact ⟨h1.1, h1.2⟩
  rename_i hok
  have hok := Decidable.not_not.mp hok
  have hr : ∃ s1, l1.sessions.find? (fun t => t.handle == s.handle) = some s1 ∧ s1.objs.length < 8 ∧ l1.token.objs.length < 64 := by
    unfold addObject at hx
    split at hx
    · rename_i rv ht0
      cases hx
      exact absurd hok (tokenByte_err ht0)
    split at hx
    · cases hx; cases hok
    rename_i on _ _ _ k hadd
    cases hx
    rcases (sessAdd_some hadd).2 with ⟨_, _, _, h4, h5⟩ | ⟨_, _, _, h4⟩
    · refine ⟨s, ?_, by omega, ?_⟩
      · rw [h5]; exact (find_iff hn).mpr ⟨hs, rfl⟩
      · have := congrArg List.length h4
        simp only [List.length_map, List.length_cons] at this
        omega
    · subst h4
      refine ⟨{ s with objs := a.added l.uid on k :: s.objs }, ?_, by simp only [List.length_cons]; omega, by show l.token.objs.length < 64; omega⟩
      refine (find_iff ?_).mpr ⟨?_, rfl⟩
      · have : handles ({ l with uid := l.uid + 1 }.upd s.handle fun t => { t with objs := a.added l.uid on k :: t.objs }).sessions = handles l.sessions := by
          unfold handles Lib.upd
          rw [List.map_map]
          refine List.map_congr_left fun t _ => ?_
          simp only [Function.comp]
          split <;> rfl
        rw [this]; exact hn
      · refine List.mem_map.mpr ⟨s, hs, ?_⟩
        simp
  obtain ⟨s1, hf, hl8, hl64⟩ := hr
  rw [hf]
  dsimp only
  have h2 := addObject_works (l := l1) (s := s1) (t := tq) (o := b) (e := e) ht hl8 hl64 he
  have h3 := addObject_fine (e := e) h1.2 s1 tq b
  rcases hy : addObject e l1 s1 tq b with ⟨l2, r2⟩
  rw [hy] at h2 h3
  dsimp only
  rw [if_neg (fun h => h h2)]
  exact ⟨RV.noConfusion, h3.2⟩

theorem setEcKey_curve (hl : SafeLaws e) {o : Obj} {v : CKA → Option Bytes} (hv : v .ecParams ≠ none)
    (hok : (setEcKey e.key o v).1 = .ok) : ∃ k c, (setEcKey e.key o v).2.data = .ec k ∧ k.dp = some c := by
  have hstep1 : ∀ k, ecStep1 e.key (v .ecParams) {} = (.ok, k) → k.dp ≠ none := by
    intro k hk
    unfold ecStep1 at hk
    split at hk
    · rename_i h; exact absurd h hv
    split at hk
    · rename_i r hr
      exfalso
      cases hk
      unfold ecSetParams at hr
      repeat' split at hr
      all_goals cases hr
    · cases hk; exact fun h => by cases h
  have hstep2 : ∀ k k', ecStep2 e.key (v .value) k = (.ok, k') → k'.dp = k.dp := by
    intro k k' hk
    unfold ecStep2 at hk
    split at hk
    · cases hk; rfl
    split at hk
    · cases hk
    · cases hk; rfl
  have hstep3 : ∀ k k', ecStep3 e.key (v .ecPoint) k = (.ok, k') → k.dp ≠ none → k'.dp ≠ none := by
    intro k k' hk hd
    unfold ecStep3 at hk
    split at hk
    · cases hk; exact hd
    unfold ecSetPoint at hk
    split at hk
    · rename_i r hr
      exfalso
      cases hk
      unfold ecPointDer at hr
      repeat' split at hr
      all_goals cases hr
    · split at hk
      · cases hk
      · split at hk
        · cases hk
        · rename_i hi; cases hk; exact hl.ecImport _ _ _ hi
  have hthen : ∀ r f k', ecThen r f = (.ok, k') → ∃ k, r = (.ok, k) ∧ f k = (.ok, k') := by
    intro r f k' h
    unfold ecThen at h
    split at h
    · rename_i h1; exact ⟨r.2, by rw [← h1], h⟩
    · rename_i h1; rw [h] at h1; exact absurd rfl h1
  unfold setEcKey at hok ⊢
  dsimp only at hok ⊢
  split at hok
  · rename_i h1
    rw [if_pos h1]
    rcases hr : ecThen (ecThen (ecStep1 e.key (v .ecParams) {}) (ecStep2 e.key (v .value))) (ecStep3 e.key (v .ecPoint)) with ⟨a, k3⟩
    rw [hr] at h1
    cases h1
    obtain ⟨k2, hr2, hk3⟩ := hthen _ _ _ hr
    obtain ⟨k1, hr1, hk2⟩ := hthen _ _ _ hr2
    have := hstep3 _ _ hk3 (by rw [hstep2 _ _ hk2]; exact hstep1 _ hr1)
    obtain ⟨c, hc⟩ := Option.ne_none_iff_exists'.mp this
    exact ⟨k3, c, rfl, hc⟩
  · rename_i h1
    exact absurd hok h1

theorem newObject_curve (hl : SafeLaws e) {s : Session} {cls : Nat} {t : List Entry} {o : Obj} (hc : cls ≠ CKO_CERTIFICATE)
    (h : newObject e s CKK_EC cls t = (.ok, o)) (hp : ∃ en ∈ t, en.typ = .ecParams) : ∃ c, o.ec.dp = some c := by
  have h : setAttributeValue e.key (s.use == .rw) { newObj 0 CKK_EC with cls } t = (.ok, o) := h
  have h0 : (setAttributeValue e.key (s.use == .rw) { newObj 0 CKK_EC with cls } t).1 = .ok := by rw [h]
  obtain ⟨_, _, h3, h4⟩ := setAttributeValue_went h0
  rw [h] at h4
  have h5 := (setAttrs_data (setKey e.key { newObj 0 CKK_EC with cls } (keyVals t)).2 t).1
  rw [← h4] at h5
  have hv : keyVals t .ecParams ≠ none := keyVals_some_iff.mpr hp
  have hk : setKey e.key { newObj 0 CKK_EC with cls } (keyVals t) = setEcKey e.key { newObj 0 CKK_EC with cls } (keyVals t) := by
    unfold setKey
    exact (if_neg (show ¬ cls = CKO_CERTIFICATE from hc)).trans rfl
  rw [hk] at h3 h5
  obtain ⟨k, c, h6, h7⟩ := setEcKey_curve hl hv h3
  refine ⟨c, ?_⟩
  unfold Obj.ec
  rw [h5, h6]
  exact h7

theorem cGenPair_fine (hl : SafeLaws e) {l : Lib} (hb : l.bad = false) {h : Nat} {s : Session} (hs : getSession l h = some s)
    (hn : (handles l.sessions).Nodup) (m : Option (Mech × MechParam)) (tp tq : Option (List Entry)) (p : Bool)
    (hsafe : (SessCall.genPair m tp tq p).Safe e l h) : Fine (cGenPair e l s m tp tq p) := by
  have hso : sessObjs l h = s.objs := by unfold sessObjs; rw [hs]; rfl
  unfold cGenPair
  split
  · rename_i m pa tp tq
    obtain ⟨h1, h2, h3, h4, h5, h6⟩ := hsafe
    rw [hso] at h5
    split
    · exact ⟨RV.noConfusion, hb⟩
    split
    · exact ⟨RV.noConfusion, hb⟩
    rename_i typ gen hg
    split
    · exact ⟨RV.noConfusion, hb⟩
    have n1 := newObject_safe (e := e) (s := s) (typ := typ) (cls := CKO_PUBLIC_KEY) (by decide) h1
    have n2 := newObject_safe (e := e) (s := s) (typ := typ) (cls := CKO_PRIVATE_KEY) (by decide) h2
    split
    · rename_i pub hpub
      split
      · rename_i priv hpriv
        have hgs := pairGen_safe (a := pub) (b := priv) hg (fun hm => by
          subst hm
          have : typ = CKK_EC := by unfold pairGen at hg; cases hg; rfl
          subst this
          exact newObject_curve hl (by decide) hpub (h3 pa rfl))
        split
        · rename_i pub' priv' hgen
          obtain ⟨k1, k2⟩ := newObject_kept (by decide) hpriv
          exact addPair_fine (l := { l with rng := l.rng + 1 }) hb hn (getSession_handle hs).2.2 h4 h5 h6 (pairGen_stored hl hg hgen k1 k2)
        · rename_i hgen; rw [hgen] at hgs; exact absurd rfl hgs
        · exact ⟨RV.noConfusion, hb⟩
      · rename_i hx; rw [hx] at n2; exact ⟨n2, hb⟩
    · rename_i hx; rw [hx] at n1; exact ⟨n1, hb⟩
  · exact ⟨RV.noConfusion, hb⟩

/-! ## Derived keys -/

theorem templClass_err {t : List Entry} {rv : RV} (h : templClass t = .error rv) : rv ≠ .ok := by
  unfold templClass at h
  repeat' split at h
  all_goals cases h
  all_goals exact fun h => by cases h

theorem templUlong_err {t : List Entry} {a : CKA} {rv : RV} (h : templUlong t a = .error rv) : rv ≠ .ok := by
  unfold templUlong at h
  repeat' split at h
  all_goals cases h
  all_goals exact fun h => by cases h


theorem createObject_secret {s : Session} {t : List Entry} {o : Obj} (h : createObject e s t = (.ok, o)) (ht : KeyTmpl t)
    (hv : ∀ en ∈ t, en.typ ≠ .value) (htyp : o.typ = CKK_AES ∨ o.typ = CKK_GENERIC_SECRET) :
    o.symm.length = 0 ∨ ∃ en ∈ t, en.typ = .valueLen ∧ leNat en.val = o.symm.length := by
  unfold createObject at h
  split at h
  · cases h; rename_i hx; exact absurd rfl (templClass_err hx)
  rename_i cls hcls
  have hc := (templClass_cert hcls).1 ht
  rw [if_neg hc] at h
  split at h
  · cases h; rename_i hx; exact absurd rfl (templUlong_err hx)
  rename_i typ _
  split at h
  · have ho := newObject_typ h
    have h : setAttributeValue e.key (s.use == .rw) { newObj 0 typ with cls } t = (.ok, o) := h
    have h0 : (setAttributeValue e.key (s.use == .rw) { newObj 0 typ with cls } t).1 = .ok := by rw [h]
    obtain ⟨_, _, h3, h4⟩ := setAttributeValue_went h0
    rw [h] at h4
    have h5 := (setAttrs_data (setKey e.key { newObj 0 typ with cls } (keyVals t)).2 t).1
    rw [← h4] at h5
    have hk : setKey e.key { newObj 0 typ with cls } (keyVals t) = setSecretKey { newObj 0 typ with cls } (keyVals t) := by
      rw [ho] at htyp
      unfold setKey
      rw [if_neg (show ¬ cls = CKO_CERTIFICATE from hc)]
      rcases htyp with rfl | rfl <;> rfl
    rw [hk] at h3 h5
    have hnone : keyVals t .value = none := by
      cases hx : keyVals t .value with
      | none => rfl
      | some v => obtain ⟨en, hm, hty, _⟩ := keyVals_mem hx; exact absurd hty (hv en hm)
    have hsy : o.symm = (setSecretKey { newObj 0 typ with cls } (keyVals t)).2.symm := by unfold Obj.symm; rw [h5]
    rw [hsy]
    unfold setSecretKey at h3 ⊢
    rw [hnone] at h3 ⊢
    cases hs : secretLen (newObj 0 typ).typ (keyVals t .valueLen) none with
    | error r =>
      have hb : r = .badArg := by
        unfold secretLen at hs
        split at hs
        · cases hs
        split at hs
        · cases hs; rfl
        split at hs
        · cases hs; rfl
        · cases hs
      subst hb
      exact .inl rfl
    | ok n =>
      show (List.replicate n (0 : UInt8)).length = 0 ∨ ∃ en ∈ t, en.typ = .valueLen ∧ leNat en.val = (List.replicate n (0 : UInt8)).length
      rw [List.length_replicate]
      unfold secretLen at hs
      split at hs
      · cases hs; exact .inl rfl
      · rename_i b hb
        obtain ⟨en, hm, hty, hval⟩ := keyVals_mem hb
        split at hs
        · cases hs
        split at hs
        · cases hs
        cases hs
        have := ht.len en hm hty
        refine .inr ⟨en, hm, hty, ?_⟩
        rw [hval] at this ⊢
        exact (Nat.mod_eq_of_lt (by omega)).symm
  · cases h

theorem deriveTail_safe {o : Obj} {sec : Bytes} (hs : sec.length ≤ 512) (ho : o.symm.length ≤ 512)
    (h : o.typ = CKK_AES ∨ o.typ = CKK_GENERIC_SECRET → o.symm.length = 0 ∨ sec.length ≤ o.symm.length) :
    (deriveTail e.key o sec).rv ≠ .ub := by
  unfold deriveTail
  split
  · exact RV.noConfusion
  rename_i n hn
  have h := h (symmKeyLen_typ hn)
  have hlen : n = sec.length := by
    unfold symmKeyLen at hn
    dsimp only at hn
    split at hn
    · rename_i hr
      have hv := get_valueLen hr
      rw [hv] at hn
      have hl : (ulong o.symm.length).length = 8 := length_leBytes 8 _
      have hw : (getData (ulong o.symm.length) true 8).wr = ulong o.symm.length := by
        unfold getData
        rw [hl]
        rfl
      rw [hw] at hn
      have h1 : leNat (ulong o.symm.length) = o.symm.length % 256 ^ 8 := leNat_leBytes 8 _
      have h2 : o.symm.length % 256 ^ 8 = o.symm.length := Nat.mod_eq_of_lt (by omega)
      have h3 : o.symm.length % 2 ^ 32 = o.symm.length := Nat.mod_eq_of_lt (by omega)
      rw [h1, h2, h3] at hn
      split at hn <;> cases hn
      · omega
      · rfl
    · cases hn
  subst hlen
  dsimp only
  rw [Nat.sub_self, List.drop_zero, if_neg (by omega)]
  have : (setSecretKey o fun a => if a = .value then some sec else none) = (.ok, { o with data := .symm sec }) := by
    unfold setSecretKey secretLen
    simp only [reduceCtorEq, if_false, if_true, Option.getD_some]
    rw [if_neg (by show ¬ sec.length > 512; omega), List.take_length]
  rw [this]
  exact RV.noConfusion

theorem cDerive_fine (hl : SafeLaws e) {l : Lib} (hb : l.bad = false) {h : Nat} {s : Session} (hs : getSession l h = some s)
    (m : Option DeriveMech) (base : Nat) (t : Option (List Entry)) (p : Bool)
    (hsafe : (SessCall.derive m base t p).Safe e l h) : Fine (cDerive e l s m base t p) := by
  unfold cDerive
  split
  · rename_i m t
    obtain ⟨h1, h2, h3⟩ := hsafe
    split
    · exact ⟨RV.noConfusion, hb⟩
    split
    · exact ⟨RV.noConfusion, hb⟩
    rename_i b hf
    obtain ⟨h4, h5, h6, h7⟩ := h3 b (findObj_addressed hs hf)
    split
    · rename_i rv hd
      refine ⟨?_, hb⟩
      unfold deriveSecret at hd
      split at hd
      · cases hd; exact RV.noConfusion
      · cases hd; exact RV.noConfusion
      · have := h5 _ rfl
        repeat' split at hd
        all_goals cases hd
        all_goals first
          | exact RV.noConfusion
          | (rename_i hx; rcases hx with hx | hx
             · exact absurd hx h4
             · exact absurd this hx)
      · cases hd; exact RV.noConfusion
      · have := h6 _ rfl
        repeat' split at hd
        all_goals cases hd
        all_goals first
          | exact RV.noConfusion
          | (rename_i hx; rcases hx with hx | hx
             · exact absurd hx h4
             · exact absurd this hx)
    rename_i sec hd
    obtain ⟨h8, h9⟩ := h7 sec (deriveSecret_shared hd)
    have hcs := createObject_safe (e := e) (s := s) (.inl h1)
    split
    · rename_i o ho
      have hsm : Small o := createObject_all (small_closed hl) (fun en hm hty => h1.len en hm hty) ho
      have htail : (deriveTail e.key o sec).rv ≠ .ub := by
        refine deriveTail_safe h8 hsm.symm fun hty => ?_
        rcases createObject_secret ho h1 h2 hty with h | ⟨en, hm, hen, hv⟩
        · exact .inl h
        · rcases h9 en hm hen with h | h
          · exact .inl (by rw [← hv]; exact h)
          · exact .inr (by rw [← hv]; exact h)
      dsimp only
      split
      · exact ⟨htail, hb⟩
      · exact addObject_fine hb ..
    · rename_i hx; rw [hx] at hcs; exact ⟨hcs, hb⟩
  · exact ⟨RV.noConfusion, hb⟩

/-! ## All calls -/

theorem pinSet_bad {r : Lib × Bool} (h : r.1.bad = false) : Fine (pinSet r) := by
  refine ⟨pinSet_ub r, ?_⟩
  unfold pinSet
  split <;> exact h

theorem logout_bad (e : Env) (l : Lib) : (logout e l).bad = l.bad := by
  unfold logout
  repeat' split
  all_goals rfl

/-- What holds between safe calls. -/
structure SafeInv (n : Nat) (l : Lib) : Prop where
  sinv : SInv l
  cap : CapInv l
  handle : HandleInv n l
  small : AllObj Small (fun _ => True) SmallDisk l
  good : l.bad = false
  whole : AllWhole l

theorem SafeInv.bit {n : Nat} {l : Lib} (hi : SafeInv n l) (hc : 0 < l.count) : ∀ o ∈ l.token.objs, o.onToken = true := by
  intro o hm
  have h := hi.handle
  unfold HandleInv at h
  rw [if_pos hc] at h
  exact h.tok.bit o.hb (List.mem_map_of_mem hm)

theorem sessCall_fine (hl : SafeLaws e) {n : Nat} {l : Lib} (hi : SafeInv n l) (hc : 0 < l.count) {h : Nat} {s : Session}
    (hs : getSession l h = some s) (c : SessCall) (hsafe : c.Safe e l h) : Fine (sessCall e l s c) := by
  have hb := hi.good
  obtain ⟨hh, hu, hm⟩ := getSession_handle hs
  have ho : ∀ o ∈ s.objs ++ l.token.objs, Small o := by
    intro o hmo
    rcases List.mem_append.mp hmo with hmo | hmo
    · exact hi.small.sess s hm o hmo
    · exact hi.small.objs o hmo
  cases c with
  | close =>
    refine ⟨RV.noConfusion, ?_⟩
    unfold sessCall closeSession
    dsimp only
    split
    · exact hb
    · exact (logout_bad e _).trans hb
  | info p =>
    simp only [sessCall]
    split <;> exact ⟨RV.noConfusion, hb⟩
  | login u p now => exact login_fine hl hb hi.small.objs u p now
  | logout => exact ⟨RV.noConfusion, (logout_bad e _).trans hb⟩
  | initPin p =>
    simp only [sessCall]
    unfold initPin
    repeat' split
    all_goals first
      | exact ⟨RV.noConfusion, hb⟩
      | exact pinSet_bad hb
  | setPin a b =>
    simp only [sessCall]
    unfold setPin
    repeat' split
    all_goals first
      | exact ⟨RV.noConfusion, hb⟩
      | exact pinSet_bad hb
  | create t p =>
    refine cCreate_fine hb s p fun q hq => ?_
    subst hq
    exact hsafe
  | copy k t p => exact cCopy_fine hb hs ho k t p hsafe
  | destroy k => exact cDestroy_fine hb s (hi.bit hc) k
  | size k p =>
    simp only [sessCall]
    repeat' split
    all_goals exact ⟨RV.noConfusion, hb⟩
  | getAttr k t => exact cGetAttr_fine hb hs ho k t hsafe
  | setAttr k t => exact cSetAttr_fine hb hs k t hsafe
  | findInit t => exact cFindInit_fine hb hs ho (hi.bit hc) t hsafe
  | findNext p m =>
    simp only [sessCall]
    unfold cFindNext
    split <;> exact ⟨RV.noConfusion, hb⟩
  | findFinal => exact ⟨RV.noConfusion, hb⟩
  | cryptInit kd m k => exact cCryptInit_fine hb hs kd m k hsafe
  | crypt d => exact cCrypt_fine hl hb hs (hi.whole s hm) hsafe.1 (hsafe.2 s hs)
  | genKey m t p =>
    refine cGenKey_fine hb s m p fun q hq => ?_
    subst hq
    exact hsafe
  | genPair m tp tq p => exact cGenPair_fine hl hb hs hi.sinv.nodup m tp tq p hsafe
  | wrap m wk k ob => exact cWrap_fine hb s m wk k ob
  | unwrap m wk d t p =>
    refine cUnwrap_fine hb s m wk d p fun q hq => ?_
    subst hq
    exact hsafe.1
  | derive m b t p => exact cDerive_fine hl hb hs m b t p hsafe
  | random p n =>
    simp only [sessCall]
    unfold cRandom
    repeat' split
    all_goals exact ⟨RV.noConfusion, hb⟩

theorem callBody_fine (hl : SafeLaws e) {n : Nat} {l : Lib} (hi : SafeInv n l) (c : Call) (hsafe : c.Safe e l) : Fine (callBody e l c) := by
  have hb := hi.good
  cases c with
  | cInit =>
    refine ⟨RV.noConfusion, ?_⟩
    unfold callBody cInitialize
    dsimp only
    split <;> exact hb
  | cFinal =>
    refine ⟨RV.noConfusion, ?_⟩
    unfold callBody cFinalize
    dsimp only
    split <;> exact hb
  | slot id c =>
    simp only [callBody]
    split
    · exact ⟨RV.noConfusion, hb⟩
    split
    · exact ⟨RV.noConfusion, hb⟩
    cases c with
    | tokenInfo p now =>
      simp only [slotCall]
      split <;> exact ⟨RV.noConfusion, hb⟩
    | initToken pin label =>
      simp only [slotCall]
      unfold initToken
      repeat' split
      all_goals first
        | exact ⟨RV.noConfusion, hb⟩
        | exact pinSet_bad hb
    | openSession rw serial ptr =>
      simp only [slotCall]
      unfold openSession
      dsimp only
      repeat' split
      all_goals exact ⟨RV.noConfusion, hb⟩
    | closeAll => exact ⟨RV.noConfusion, hb⟩
  | sess h c =>
    simp only [callBody]
    split
    · exact ⟨RV.noConfusion, hb⟩
    rename_i hc
    split
    · exact ⟨RV.noConfusion, hb⟩
    rename_i s hs
    exact sessCall_fine hl hi (by omega) hs c hsafe

theorem setKey_small {x : KeyExt} {o : Obj} {v : CKA → Option Bytes} (ho : Small o)
    (hf : o.cls = CKO_CERTIFICATE ∨ ((∀ b, v .valueLen = some b → leNat b ≤ 512) ∧ ∀ b, v .value = some b → b.length ≤ 512)) :
    Small (setKey x o v).2 := by
  obtain ⟨d, z, he⟩ := setKey_frame x o v
  have hk : (setKey x o v).2.symm.length ≤ 512 ∧ (setKey x o v).2.dh.key.length ≤ 512 := by
    have z : ([] : Bytes).length ≤ 512 := Nat.zero_le _
    have hd := ho.dh
    unfold setKey
    split
    · unfold setCert
      dsimp only
      repeat' split
      all_goals exact ⟨z, z⟩
    rename_i hc
    obtain ⟨hl, hv⟩ := hf.resolve_left hc
    split
    · unfold setRsaKey
      dsimp only
      repeat' split
      all_goals exact ⟨z, z⟩
    split
    · unfold setEcKey
      dsimp only
      split
      all_goals exact ⟨z, z⟩
    split
    · unfold setDhKey
      dsimp only
      split
      · exact ⟨z, hd⟩
      split
      · exact ⟨z, hd⟩
      split
      · exact ⟨z, hd⟩
      · rename_i hb; exact ⟨z, Nat.le_of_not_lt hb⟩
    unfold setSecretKey
    cases hs : secretLen o.typ (v .valueLen) (v .value) with
    | error r => exact ⟨secretLeft_le hl, z⟩
    | ok n =>
      have hn := secretLen_small hs hl hv
      dsimp only
      cases hx : v .value with
      | none =>
        refine ⟨?_, z⟩
        show (List.replicate n (0 : UInt8)).length ≤ 512
        rw [List.length_replicate]; exact hn
      | some b =>
        refine ⟨?_, z⟩
        show (b.take n).length ≤ 512
        rw [List.length_take]; omega
  refine ho.data hk.1 hk.2 ?_ ?_ ?_
  all_goals rw [he]

theorem setAttributeValue_keeps {x : KeyExt} {b : Bool} {o : Obj} {t : List Entry} (ho : Small o)
    (hc : ∀ en ∈ t, en.typ ≠ .cls) (hf : Fits t ∨ o.cls = CKO_CERTIFICATE) : Small (setAttributeValue x b o t).2 := by
  have hk : Small (setKey x o (keyVals t)).2 := by
    refine setKey_small ho ?_
    rcases hf with hf | hf
    · refine .inr ⟨fun b hb => ?_, fun b hb => ?_⟩
      · obtain ⟨en, hm, hty, hv⟩ := keyVals_mem hb
        rw [← hv]; exact (hf en hm).2 hty
      · obtain ⟨en, hm, hty, hv⟩ := keyVals_mem hb
        rw [← hv]; exact (hf en hm).1 hty
    · exact .inl hf
  unfold setAttributeValue
  dsimp only
  split
  · exact ho
  split
  · exact ho
  split
  · exact ho
  split
  · exact ho
  split
  · refine setAttrs_inv t ?_ _ hk
    intro p en hm hp
    have hr := setAttr_rest p en
    exact hp.same hr.data (setAttr_cls p en (hc en hm)) hr.typ hr.keyData
  · exact hk
  · exact hk

theorem small_step (hl : SafeLaws e) {n : Nat} {l : Lib} (hi : SafeInv n l) (c : Call) (hsafe : c.Safe e l) :
    AllObj Small (fun _ => True) SmallDisk (callBody e l c).1 := by
  have other : (∀ t ∈ c.creates, LenFits t) → c.sets = [] → AllObj Small (fun _ => True) SmallDisk (callBody e l c).1 := by
    intro h1 h2
    exact all_callBody (small_closed hl) hi.small c h1 (by rw [h2]; intro t ht; cases ht)
  cases c with
  | cInit => exact other (fun t ht => by cases ht) rfl
  | cFinal => exact other (fun t ht => by cases ht) rfl
  | slot id c => exact other (fun t ht => by cases ht) rfl
  | sess h c =>
    have plain : ∀ {t : List Entry}, PlainTmpl t → LenFits t := fun ht en hm hty => ht.len en hm hty
    cases c with
    | create t p =>
      refine other (fun q hq => ?_) rfl
      cases t with
      | none => cases hq
      | some t =>
        cases List.mem_singleton.mp hq
        rcases hsafe with hx | hx
        · exact plain hx.toPlainTmpl
        · exact plain hx.toPlainTmpl
    | genKey m t p =>
      refine other (fun q hq => ?_) rfl
      cases t with
      | none => cases hq
      | some t => cases List.mem_singleton.mp hq; exact plain (KeyTmpl.toPlainTmpl hsafe)
    | unwrap m wk d t p =>
      refine other (fun q hq => ?_) rfl
      cases t with
      | none => cases hq
      | some t => cases List.mem_singleton.mp hq; exact plain (KeyTmpl.toPlainTmpl hsafe.1)
    | genPair m tp tq p =>
      have same : (∀ s, (cGenPair e l s m tp tq p).1 = l) → AllObj Small (fun _ => True) SmallDisk (callBody e l (.sess h (.genPair m tp tq p))).1 := by
        intro hx
        simp only [callBody]
        split
        · exact hi.small
        split
        · exact hi.small
        · simp only [sessCall, hx]; exact hi.small
      cases tp with
      | none => exact same fun s => by cases m <;> rfl
      | some tp =>
        cases tq with
        | none => exact same fun s => by cases m <;> rfl
        | some tq =>
          obtain ⟨h1, h2, _⟩ := hsafe
          refine other (fun q hq => ?_) rfl
          rcases List.mem_append.mp hq with hq | hq
          · cases List.mem_singleton.mp hq; exact plain h1.toPlainTmpl
          · cases List.mem_singleton.mp hq; exact plain h2.toPlainTmpl
    | derive m b t p =>
      have same : (∀ s, (cDerive e l s m b t p).1 = l) → AllObj Small (fun _ => True) SmallDisk (callBody e l (.sess h (.derive m b t p))).1 := by
        intro hx
        simp only [callBody]
        split
        · exact hi.small
        split
        · exact hi.small
        · simp only [sessCall, hx]; exact hi.small
      cases m with
      | none => exact same fun s => by cases t <;> rfl
      | some m =>
        refine other (fun q hq => ?_) rfl
        cases t with
        | none => cases hq
        | some t => cases List.mem_singleton.mp hq; exact plain hsafe.1.toPlainTmpl
    | copy k t p =>
      simp only [callBody]
      split
      · exact hi.small
      split
      · exact hi.small
      rename_i s hs
      exact all_cCopy (small_closed hl) hi.small (getSession_handle hs).2.2 k t p
    | setAttr k t =>
      simp only [callBody]
      split
      · exact hi.small
      split
      · exact hi.small
      rename_i s hs
      refine all_setAttr hi.small (getSession_handle hs).2.2 k t fun q o hq hf hp => ?_
      subst hq
      obtain ⟨_, _, h3, h4⟩ := hsafe
      exact setAttributeValue_keeps hp h3 (h4 o (findObj_addressed hs hf))
    | _ => exact other (fun t ht => by cases ht) rfl

theorem SafeInv.step (hl : SafeLaws e) {n : Nat} {l : Lib} (hi : SafeInv n l) (hn : n + 2 < 2 ^ 28) (c : Call)
    (hb : BoolToken [c]) (hsafe : c.Safe e l) : SafeInv (n + 2) (Verif.step e l c).1 ∧ (Verif.step e l c).2.rv ≠ .ub := by
  have hf := callBody_fine hl hi c hsafe
  have hstep : Verif.step e l c = callBody e l c := by
    unfold Verif.step
    rw [hi.good]
    simp only [Bool.false_eq_true, if_false]
    exact if_neg hf.1
  refine ⟨⟨?_, CapInv.step hl.hash hl.rand hi.sinv hi.cap c, HandleInv.step hl.hash hl.rand hi.sinv hi.cap hi.handle hn c hb, ?_, ?_, ?_⟩, ?_⟩
  · exact hi.sinv.step e c
  · rw [hstep]; exact small_step hl hi c hsafe
  · rw [hstep]; exact hf.2
  · rw [hstep]; exact hi.whole.callBody hsafe
  · rw [hstep]; exact hf.1

end Verif
