import Verif.Proofs.NoUb
import Verif.Props.Derive
import Verif.Props.InitParam
import Verif.Proofs.Whole

/-!
# Safe calls have no undefined behaviour
-/

namespace Verif

variable {e : Env}

/-- No undefined behaviour, and nothing freed left in a list. -/
def Fine (r : Lib × Resp) : Prop := r.2.rv ≠ .ub ∧ r.1.bad = false

/-! ## Data functions -/

theorem sized_safe {s : OpSt} {ob : OutBuf} {n : Nat} {k : OpSt × Out} (h : k.2.rv ≠ .ub) : (sized s ob n k).2.rv ≠ .ub := by
  unfold sized
  split
  · exact fun h => by cases h
  · exact fun h => by cases h
  · split
    · exact fun h => by cases h
    · exact h

theorem needInit_safe {s : OpSt} (hw : s.Whole) {i : OpInit} {k : OpSt × Out} (h : k.2.rv ≠ .ub) : (needInit s i k).2.rv ≠ .ub := by
  unfold needInit
  split
  · exact h
  split
  · rename_i ht; exact absurd ht (hw i)
  · exact fun h => by cases h

theorem finish_safe (s : OpSt) (r : Option Bytes) : (finish s r).2.rv ≠ .ub := by
  unfold finish
  split <;> exact fun h => by cases h

theorem finishSig_safe (s : OpSt) (n : Nat) (r : Option Bytes) : (finishSig s n r).2.rv ≠ .ub := by
  unfold finishSig
  split <;> exact fun h => by cases h

theorem finishVerify_safe (s : OpSt) (r : Option Bool) : (finishVerify s r).2.rv ≠ .ub := by
  unfold finishVerify
  split <;> exact fun h => by cases h

theorem withArgs_safe {s : OpSt} {curr : Option Obj} {data : Option Bytes} {ob : OutBuf} {k : Obj → Bytes → OpSt × Out}
    (h : ∀ o d, curr = some o → data = some d → (k o d).2.rv ≠ .ub) : (withArgs s curr data ob k).2.rv ≠ .ub := by
  unfold withArgs
  split
  · exact fun h => by cases h
  split
  · exact fun h => by cases h
  split
  · exact fun h => by cases h
  · exact h _ _ rfl rfl

/-- What a data call with the key `curr` needs. -/
structure RunOk (s : OpSt) (curr : Option Obj) (c : DataCall) : Prop where
  whole : s.Whole
  gcm1 : s.mech = .aesGcm → ∀ d ob n, c = .decrypt (some d) ob n → s.gcm.tagSz ≤ d.length
  gcm2 : s.mech = .aesGcm → ∀ ob, c = .decryptFinal ob → s.gcm.tagSz ≤ s.gcm.enc.length
  ec : s.mech = .ecdsa → ∀ o, curr = some o → HasCurve o

theorem HasCurve.dp {o : Obj} (h : HasCurve o) : ∃ c, o.ec.dp = some c := by
  obtain ⟨k, c, hk, hc⟩ := h
  exact ⟨c, by unfold Obj.ec; rw [hk]; exact hc⟩

theorem ecSign_safe (hl : SafeLaws e) {k : EcKey} {c : Curve} (hc : k.dp = some c) (d : Bytes) (n : Nat) :
    ecSign e.crypto.ecdsa k c.size d n ≠ .ub := by
  unfold ecSign
  split
  · exact fun h => by cases h
  · rename_i der hs
    obtain ⟨r, s, h1, h2, h3⟩ := hl.ecSign k c d n der hc hs
    rw [c52_decode c.size r s h2 h3 der h1]
    exact fun h => by cases h

theorem decrypt_safe {x : Crypto} {s : OpSt} (hw : s.Whole) {curr : Option Obj} {data : Option Bytes} {ob : OutBuf} {n : Nat}
    (h : s.mech = .aesGcm → ∀ d, data = some d → s.gcm.tagSz ≤ d.length) : (decrypt x s curr data ob n).2.rv ≠ .ub := by
  unfold decrypt
  refine withArgs_safe fun o d _ hd => ?_
  split
  all_goals first
    | (intro hx; cases hx; done)
    | exact needInit_safe hw (sized_safe (finish_safe _ _))
    | skip
  · refine needInit_safe hw (sized_safe ?_)
    split <;> exact fun h => by cases h
  · refine needInit_safe hw ?_
    split
    · exact finish_safe _ _
    · exact fun h => by cases h
  · rename_i hm
    refine needInit_safe hw (sized_safe ?_)
    unfold gcmDecrypt
    rw [if_neg (Nat.not_lt_of_le (h hm d hd))]
    exact finish_safe _ _

theorem encrypt_safe {x : Crypto} {s : OpSt} (hw : s.Whole) {curr : Option Obj} {data : Option Bytes} {ob : OutBuf} {n : Nat} :
    (encrypt x s curr data ob n).2.rv ≠ .ub := by
  unfold encrypt
  refine withArgs_safe fun o d _ hd => ?_
  repeat' split
  all_goals first
    | (intro hx; cases hx; done)
    | exact needInit_safe hw (sized_safe (finish_safe _ _))
    | (refine needInit_safe hw (sized_safe ?_); repeat' split)
  all_goals first
    | (intro hx; cases hx; done)
    | exact finish_safe _ _

theorem dataCall_safe (hl : SafeLaws e) {s : OpSt} {curr : Option Obj} {c : DataCall} (h : RunOk s curr c) :
    (c.run e.crypto s curr).2.rv ≠ .ub := by
  have hw := h.whole
  cases c with
  | encrypt d ob r => exact encrypt_safe hw
  | encryptUpdate d ob =>
    show (encryptUpdate e.crypto s curr d ob).2.rv ≠ .ub
    unfold encryptUpdate
    refine withArgs_safe fun o d _ hd => ?_
    split
    all_goals first
      | (intro hx; cases hx; done)
      | (refine needInit_safe hw (sized_safe ?_); first | exact finish_safe _ _ | (intro hx; cases hx; done) | (split <;> first | (intro hx; cases hx; done) | exact finish_safe _ _))
  | encryptFinal ob =>
    show (encryptFinal e.crypto s curr ob).2.rv ≠ .ub
    unfold encryptFinal
    refine withArgs_safe fun o d _ hd => ?_
    split
    · refine needInit_safe hw ?_
      unfold cbcFinal
      repeat' split
      all_goals exact fun h => by cases h
    · exact needInit_safe hw (sized_safe (fun h => by cases h))
    · exact needInit_safe hw (sized_safe (finish_safe _ _))
    · exact fun h => by cases h
  | decrypt d ob r =>
    refine decrypt_safe hw fun hm b hb => h.gcm1 hm b ob r (by rw [hb])
  | decryptUpdate d ob =>
    show (decryptUpdate e.crypto s curr d ob).2.rv ≠ .ub
    unfold decryptUpdate
    refine withArgs_safe fun o d _ hd => ?_
    split
    · refine needInit_safe hw (sized_safe ?_)
      split
      · exact fun h => by cases h
      · exact finish_safe _ _
    · refine needInit_safe hw (sized_safe ?_)
      split
      · exact fun h => by cases h
      · exact finish_safe _ _
    · refine needInit_safe hw ?_
      split <;> exact fun h => by cases h
    · exact fun h => by cases h
  | decryptFinal ob =>
    show (decryptFinal e.crypto s curr ob).2.rv ≠ .ub
    unfold decryptFinal
    refine withArgs_safe fun o d _ hd => ?_
    split
    · refine needInit_safe hw ?_
      unfold cbcFinal
      repeat' split
      all_goals exact fun h => by cases h
    · refine needInit_safe hw ?_
      split
      · exact fun h => by cases h
      split
      · dsimp only
        split <;> exact fun h => by cases h
      · exact fun h => by cases h
    · rename_i hm
      refine needInit_safe hw (sized_safe ?_)
      rw [if_neg (Nat.not_lt_of_le (h.gcm2 hm ob rfl))]
      exact finish_safe _ _
    · exact fun h => by cases h
  | sign d ob r =>
    show (sign e.crypto s curr d ob r).2.rv ≠ .ub
    unfold sign
    refine withArgs_safe fun o d hcur hd => ?_
    split
    · exact needInit_safe hw (sized_safe (finishSig_safe _ _ _))
    · exact needInit_safe hw (sized_safe (finishSig_safe _ _ _))
    · exact needInit_safe hw (sized_safe (finishSig_safe _ _ _))
    · rename_i hm
      obtain ⟨c, hc⟩ := (h.ec hm o hcur).dp
      refine needInit_safe hw ?_
      split
      · rename_i hn; rw [hc] at hn; cases hn
      · rename_i c' hc'
        refine sized_safe ?_
        split
        · rename_i hu; exact absurd hu (ecSign_safe hl hc' d r)
        · exact finishSig_safe _ _ _
        · exact finishSig_safe _ _ _
    · exact needInit_safe hw (sized_safe (finishSig_safe _ _ _))
    · exact fun h => by cases h
  | signUpdate d =>
    show (macUpdate s .hmacSign curr d).2.rv ≠ .ub
    unfold macUpdate
    refine withArgs_safe fun o d hcur hd => ?_
    split
    · exact needInit_safe hw fun h => by cases h
    · exact fun h => by cases h
  | signFinal ob =>
    show (signFinal e.crypto s curr ob).2.rv ≠ .ub
    unfold signFinal
    refine withArgs_safe fun o d hcur hd => ?_
    split
    · exact needInit_safe hw (sized_safe (finishSig_safe _ _ _))
    · exact fun h => by cases h
  | verify d sg =>
    show (verify e.crypto s curr d sg).2.rv ≠ .ub
    unfold verify
    split
    · exact fun h => by cases h
    refine withArgs_safe fun o d hcur hd => ?_
    split
    · exact needInit_safe hw (finishVerify_safe _ _)
    · exact needInit_safe hw (finishVerify_safe _ _)
    · exact needInit_safe hw (finishVerify_safe _ _)
    · rename_i hm
      obtain ⟨c, hc⟩ := (h.ec hm o hcur).dp
      refine needInit_safe hw ?_
      split
      · rename_i hn; rw [hc] at hn; cases hn
      · exact finishVerify_safe _ _
    · exact needInit_safe hw (finishVerify_safe _ _)
    · exact fun h => by cases h
  | verifyUpdate d =>
    show (macUpdate s .hmacVerify curr d).2.rv ≠ .ub
    unfold macUpdate
    refine withArgs_safe fun o d hcur hd => ?_
    split
    · exact needInit_safe hw fun h => by cases h
    · exact fun h => by cases h
  | verifyFinal sg =>
    show (verifyFinal e.crypto s curr sg).2.rv ≠ .ub
    unfold verifyFinal
    refine withArgs_safe fun o d hcur hd => ?_
    split
    · exact needInit_safe hw (finishVerify_safe _ _)
    · exact fun h => by cases h

theorem cCrypt_fine (hl : SafeLaws e) {l : Lib} (hb : l.bad = false) {h : Nat} {s : Session} (hs : getSession l h = some s)
    {c : DataCall} (hw : s.op.Whole) (hk : KeyAlive l h) (hd : DataOk l h s c) : Fine (cCrypt e l s c) := by
  have hso : sessObjs l h = s.objs := by unfold sessObjs; rw [hs]; rfl
  have hrun : ∀ curr, (∀ o, curr = some o → o ∈ s.objs ++ l.token.objs ∧ s.curr = some o.uid) → RunOk s.op curr c := by
    intro curr hc
    refine ⟨hw, fun hm d ob n he => ?_, fun hm ob he => ?_, fun hm o ho => ?_⟩
    · have := hd.1 hm; rw [he] at this; exact this
    · have := hd.1 hm; rw [he] at this; exact this
    · obtain ⟨h1, h2⟩ := hc o ho
      refine hd.2 hm o ?_ h2
      rw [hso]; exact h1
  unfold cCrypt
  split
  · exact ⟨dataCall_safe hl (hrun none (fun o h => by cases h)), hb⟩
  · rename_i o ho
    refine ⟨dataCall_safe hl (hrun (some o) (fun p hp => ?_)), hb⟩
    cases hp
    unfold currKey at ho
    split at ho
    · cases ho
    rename_i u hu
    split at ho
    · cases ho
    rename_i q hq
    cases ho
    have h1 := List.find?_some hq
    exact ⟨List.mem_of_find?_eq_some hq, by rw [hu]; congr 1; exact (by simpa using h1 : _ = u).symm⟩
  · rename_i ho
    exfalso
    unfold currKey at ho
    split at ho
    · cases ho
    rename_i u hu
    split at ho
    · rename_i hn
      obtain ⟨o, hm, hou⟩ := hk s hs u hu
      rw [hso] at hm
      rw [List.find?_eq_none] at hn
      exact hn o hm (by simp [hou])
    · cases ho

/-! ## Logging in -/

theorem decodeAll_safe (hl : SafeLaws e) (k : Bytes) {os : List Obj} (h : ∀ o ∈ os, Small o) : (decodeAll e.store k os).1 ≠ .ub := by
  induction os with
  | nil => exact fun h => by cases h
  | cons a os ih =>
    unfold decodeAll
    dsimp only
    split
    · exact ih fun o ho => h o (List.mem_cons_of_mem _ ho)
    · have := (decodeKey_small hl.sealed k (h a List.mem_cons_self)).1
      unfold decodeObj
      dsimp only
      split
      · exact fun h => by cases h
      · exact this

theorem login_fine (hl : SafeLaws e) {l : Lib} (hb : l.bad = false) (ho : ∀ o ∈ l.token.objs, Small o) (u : UserType)
    (pin : Option Bytes) (now : Int) : Fine (login e l u pin now) := by
  unfold login
  split
  · exact ⟨(fun h => by cases h), hb⟩
  split
  · exact ⟨(fun h => by cases h), hb⟩
  split
  · unfold soLogin
    dsimp only
    repeat' split
    all_goals exact ⟨(fun h => by cases h), hb⟩
  · unfold userLogin
    dsimp only
    repeat' split
    all_goals first
      | exact ⟨RV.noConfusion, hb⟩
      | exact absurd (by assumption) (decodeAll_safe hl _ ho)
  · exact ⟨(fun h => by cases h), hb⟩
  · exact ⟨(fun h => by cases h), hb⟩

/-! ## Making objects -/

theorem tokenByte_safe {t : List Entry} {d : Nat} {rv : RV} (h : tokenByte t d = .error rv) : rv ≠ .ub := by
  unfold tokenByte at h
  repeat' split at h
  all_goals cases h
  all_goals exact fun h => by cases h

theorem sessAdd_bad {l : Lib} {s : Session} {on : Nat} {o : Obj} : (sessAddObject e l s on o).1.bad = l.bad := by
  rcases hx : sessAddObject e l s on o with ⟨l', _ | k⟩
  · rw [sessAdd_none hx]
  · exact (sessAdd_some hx).1.1

theorem addObject_fine {l : Lib} (hb : l.bad = false) (s : Session) (t : List Entry) (o : Obj) : Fine (addObject e l s t o) := by
  unfold addObject
  split
  · rename_i rv h; exact ⟨tokenByte_safe h, hb⟩
  · rename_i on h
    have := sessAdd_bad (e := e) (l := l) (s := s) (on := on) (o := o)
    rw [hb] at this
    split
    · rename_i hx; rw [hx] at this; exact ⟨(fun h => by cases h), this⟩
    · rename_i hx; rw [hx] at this; exact ⟨(fun h => by cases h), this⟩

theorem newObject_safe {s : Session} {typ cls : Nat} {t : List Entry} (hc : cls ≠ CKO_CERTIFICATE) (ht : KeyTmpl t) :
    (newObject e s typ cls t).1 ≠ .ub := ht.safe (by exact hc)

theorem templClass_cert {t : List Entry} {cls : Nat} (h : templClass t = .ok cls) :
    (KeyTmpl t → cls ≠ CKO_CERTIFICATE) ∧ (CertTmpl t → cls = CKO_CERTIFICATE) := by
  unfold templClass at h
  split at h
  · rename_i hf
    cases h
    refine ⟨fun _ => by decide, fun hc => ?_⟩
    obtain ⟨en, hm, ht, _⟩ := hc.cls.1
    unfold findAttr at hf
    rw [List.find?_eq_none] at hf
    exact absurd (by simp [ht]) (hf en (List.mem_reverse.mpr hm))
  · rename_i en hf
    split at h
    · cases h
    split at h
    · cases h
    cases h
    have h1 := List.find?_some hf
    have h1 : en.typ = .cls := by simpa using h1
    have hm := List.mem_reverse.mp (List.mem_of_find?_eq_some hf)
    exact ⟨fun hk hv => hk.cls ⟨en, hm, h1, hv⟩, fun hc => hc.cls.2 en hm h1⟩

theorem templUlong_safe {t : List Entry} {a : CKA} {rv : RV} (h : templUlong t a = .error rv) : rv ≠ .ub := by
  unfold templUlong at h
  repeat' split at h
  all_goals cases h
  all_goals exact fun h => by cases h

theorem templClass_safe {t : List Entry} {rv : RV} (h : templClass t = .error rv) : rv ≠ .ub := by
  unfold templClass at h
  repeat' split at h
  all_goals cases h
  all_goals exact fun h => by cases h

theorem createObject_safe {s : Session} {t : List Entry} (ht : KeyTmpl t ∨ CertTmpl t) : (createObject e s t).1 ≠ .ub := by
  unfold createObject
  split
  · rename_i h; exact templClass_safe h
  rename_i cls hcls
  obtain ⟨h1, h2⟩ := templClass_cert hcls
  split
  · rename_i hc
    split
    · rename_i h; exact templUlong_safe h
    split
    · rcases ht with ht | ht
      · exact absurd hc (h1 ht)
      · exact ht.safe (by exact hc)
    · exact fun h => by cases h
  · rename_i hc
    split
    · rename_i h; exact templUlong_safe h
    split
    · rcases ht with ht | ht
      · exact newObject_safe hc ht
      · exact absurd (h2 ht) hc
    · exact fun h => by cases h

theorem cCreate_fine {l : Lib} (hb : l.bad = false) (s : Session) {t : Option (List Entry)} (p : Bool)
    (ht : ∀ q, t = some q → KeyTmpl q ∨ CertTmpl q) : Fine (cCreate e l s t p) := by
  unfold cCreate
  split
  · exact ⟨(fun h => by cases h), hb⟩
  rename_i t
  split
  · exact ⟨(fun h => by cases h), hb⟩
  split
  · exact ⟨(fun h => by cases h), hb⟩
  have := createObject_safe (e := e) (s := s) (ht t rfl)
  split
  · exact addObject_fine hb ..
  · rename_i hc
    rw [hc] at this
    exact ⟨this, hb⟩

theorem cGenKey_fine {l : Lib} (hb : l.bad = false) (s : Session) (m : Option (Mech × MechParam)) {t : Option (List Entry)} (p : Bool)
    (ht : ∀ q, t = some q → KeyTmpl q) : Fine (cGenKey e l s m t p) := by
  unfold cGenKey
  split
  · rename_i m p t
    split
    · exact ⟨(fun h => by cases h), hb⟩
    split
    · exact ⟨(fun h => by cases h), hb⟩
    split
    · exact ⟨(fun h => by cases h), hb⟩
    have := newObject_safe (e := e) (s := s) (typ := CKK_AES) (cls := CKO_SECRET_KEY) (by decide) (ht t rfl)
    split
    · exact addObject_fine (by exact hb) ..
    · rename_i hc
      rw [hc] at this
      exact ⟨this, hb⟩
  · exact ⟨(fun h => by cases h), hb⟩

theorem addRsaPrivate_fine {l : Lib} (hb : l.bad = false) (s : Session) {t : List Entry} (d : Bytes) (ht : KeyTmpl t) :
    Fine (addRsaPrivate e l s t d) := by
  unfold addRsaPrivate
  have := newObject_safe (e := e) (s := s) (typ := CKK_RSA) (cls := CKO_PRIVATE_KEY) (by decide) ht
  split
  · split
    · exact ⟨(fun h => by cases h), hb⟩
    · exact addObject_fine hb ..
  · rename_i hc
    rw [hc] at this
    exact ⟨this, hb⟩

theorem unwrapTemplate_safe (t : List Entry) : unwrapTemplate t ≠ .ub := by
  have key : ∀ a rv, findValidAttr t a 8 = .error rv → rv ≠ .ub := by
    intro a rv h
    unfold findValidAttr at h
    repeat' split at h
    all_goals cases h
    all_goals exact fun h => by cases h
  unfold unwrapTemplate
  split
  · rename_i h; exact key _ _ h
  split
  · exact fun h => by cases h
  split
  · rename_i h; exact key _ _ h
  repeat' split
  all_goals exact fun h => by cases h

theorem cbcInit_mech {s : OpSt} {o : Obj} {m : Mech} {p : MechParam} {i : OpInit} (h : (cbcInit s o m p i).2 = .ok) :
    (cbcInit s o m p i).1.mech = m := by
  unfold cbcInit OpSt.started at h ⊢
  repeat' split at h
  all_goals first | cases h; done | skip
  all_goals simp_all

theorem cUnwrap_fine {l : Lib} (hb : l.bad = false) (s : Session) (m : Option (Mech × MechParam)) (wk : Nat)
    (d : Option Bytes) {t : Option (List Entry)} (p : Bool) (ht : ∀ q, t = some q → KeyTmpl q) : Fine (cUnwrap e l s m wk d t p) := by
  unfold cUnwrap
  split
  · exact ⟨(fun h => by cases h), hb⟩
  split
  · rename_i m p d t
    split
    · exact ⟨(fun h => by cases h), hb⟩
    split
    · exact ⟨(fun h => by cases h), hb⟩
    split
    · exact ⟨(fun h => by cases h), hb⟩
    rename_i hm
    have hm := Decidable.not_not.mp hm
    subst hm
    dsimp only
    split
    · exact ⟨unwrapTemplate_safe t, hb⟩
    split
    · exact ⟨(fun h => by cases h), hb⟩
    split
    · exact ⟨initCall_no_ub e.crypto .decrypt _ _ _ _, hb⟩
    rename_i hi
    have hi := Decidable.not_not.mp hi
    split
    · refine ⟨decrypt_safe (initCall_whole (x := e.crypto) (k := .decrypt) hi) fun hmech => ?_, hb⟩
      have : (decryptInit s.op _ .aesCbcPad p).1.mech = .aesCbcPad := cbcInit_mech hi
      rw [show (initCall e.crypto .decrypt s.op _ .aesCbcPad p).1.mech = .aesCbcPad from this] at hmech
      cases hmech
    · exact addRsaPrivate_fine (by exact hb) s _ (ht t rfl)
  · exact ⟨(fun h => by cases h), hb⟩

theorem cWrap_fine {l : Lib} (hb : l.bad = false) (s : Session) (m : Option (Mech × MechParam)) (wk key : Nat)
    (ob : OutBuf) : Fine (cWrap e l s m wk key ob) := by
  unfold cWrap
  repeat' (first | split | (dsimp only; split))
  all_goals first
    | exact ⟨RV.noConfusion, hb⟩
    | exact ⟨initCall_no_ub e.crypto .encrypt _ _ _ _, hb⟩
    | exact ⟨encrypt_safe (initCall_whole (x := e.crypto) (k := .encrypt) (Decidable.not_not.mp (by assumption))), hb⟩

theorem copied_val {x : KeyExt} {o : Obj} {en₀ en : Entry} {v : Bytes} (hg : getEntry x o en₀ = (.ok, en))
    (hv : getAttr x o en₀.typ = getData v) (hm : en.mem ≠ none) : en.val = v := by
  obtain ⟨h1, h2, h3, h4⟩ := getEntry_went hg
  cases h0 : en₀.mem with
  | none => rw [h0] at h4; exact absurd h4 hm
  | some m =>
    rw [h0, hv] at h1 h3 h4
    simp only [getData, Option.isSome_some, Bool.not_true, Bool.false_eq_true, if_false] at h1 h3 h4
    split at h1
    · cases h1
    rename_i hl
    rw [if_neg hl] at h3 h4
    dsimp only [Option.map_some] at h3 h4
    unfold Entry.val
    rw [h4, h3, Option.getD_some, List.take_left']
    rfl

theorem copy_safe {x : KeyExt} {o : Obj} (ho : Small o) {t : List Entry} (hc : Curved t)
    (hn : ∀ en ∈ t, en.typ = .id ∨ en.typ = .label → en.mem ≠ none)
    (hcert : o.cls = CKO_CERTIFICATE → o.typ ≤ 2 ∧ ∀ en ∈ t, en.typ ≠ .cls)
    (hok : (getAttributeValue x o t).1 = .ok) :
    (setAttributeValue x true (newObj 0 o.typ) (getAttributeValue x o t).2).1 ≠ .ub := by
  have hmem := getAttributeValue_mem hok
  have htyp : (getAttributeValue x o t).2.map (·.typ) = t.map (·.typ) := by
    unfold getAttributeValue at hok ⊢
    dsimp only at hok ⊢
    split at hok
    · rename_i h; exact absurd hok h
    rename_i h
    rw [if_neg h, (getEntries_all hok).1, List.map_map]
    exact List.map_congr_left fun en _ => getEntry_typ x o en
  refine setAttributeValue_safe ?_ ?_ ?_
  · rintro ⟨en, hm, ht⟩
    have h1 : CKA.ecPoint ∈ t.map (·.typ) := by rw [← htyp, ← ht]; exact List.mem_map_of_mem hm
    obtain ⟨a, ha, hat⟩ := List.mem_map.mp h1
    obtain ⟨b, hb, hbt⟩ := hc ⟨a, ha, hat⟩
    have h2 : CKA.ecParams ∈ (getAttributeValue x o t).2.map (·.typ) := by rw [htyp, ← hbt]; exact List.mem_map_of_mem hb
    obtain ⟨c, hc, hct⟩ := List.mem_map.mp h2
    exact ⟨c, hc, hct⟩
  · intro hchk en hm
    obtain ⟨en₀, hm₀, _, hg⟩ := hmem en hm
    obtain ⟨h1, h2, h3, h4⟩ := getEntry_went hg
    refine ⟨fun ht hnone => ?_, fun ht => ?_⟩
    · exfalso
      rw [hnone] at h4
      exact hn en₀ hm₀ (by rw [← h2]; exact ht) (Option.map_eq_none_iff.mp h4.symm)
    · have hm2 := (checked_ulong (checked hchk en hm) (by rw [ht]; rfl)).2
      have hval : en.val = ulong o.cls := copied_val hg (by rw [← h2, ht]; rfl) hm2
      have : leNat (ulong o.cls) = o.cls % 256 ^ 8 := leNat_leBytes 8 _
      have hc64 : o.cls % 256 ^ 8 = o.cls := Nat.mod_eq_of_lt ho.cls
      rw [hval, this, hc64]
      refine ⟨fun h => ?_, fun h => absurd h (by show (0 : Nat) ≠ _; decide)⟩
      exact absurd (by rw [← h2]; exact ht) ((hcert h).2 en₀ hm₀)
  · intro hchk _ ht en hm
    have ht : o.typ = CKK_AES ∨ o.typ = CKK_GENERIC_SECRET := ht
    have hnc : o.cls ≠ CKO_CERTIFICATE := by
      intro h
      have := (hcert h).1
      rcases ht with ht | ht <;> (rw [ht] at this; exact absurd this (by decide))
    refine ⟨fun hty => ?_, fun hty => copied_lenFits ho.symm hok hchk en hm hty⟩
    obtain ⟨en₀, hm₀, _, hg⟩ := hmem en hm
    obtain ⟨h1, h2, h3, h4⟩ := getEntry_went hg
    refine Nat.le_trans (val_len en) ?_
    have hne : en.len ≠ unavailableInfo := by
      intro hu
      have := checked hchk en hm
      unfold checkEntry at this
      rw [hty, hu] at this
      cases this
    rw [← h2, hty] at h3 h1
    rw [h3] at hne ⊢
    have hd : ∀ b n, (getAttr x o .value b n).len = unavailableInfo ∨ (getAttr x o .value b n).ret ≠ .ok ∨
        (getAttr x o .value b n).len ≤ 512 := by
      intro b n
      have : getAttr x o .value b n = secretGetAttr o .value b n := by
        show getKeyAttr x o .value b n = _
        unfold getKeyAttr misread
        rcases ht with ht | ht <;> (rw [ht]; simp [hnc, CKK_AES, CKK_GENERIC_SECRET, CKK_RSA, CKK_EC, CKK_DH])
      rw [this]
      unfold secretGetAttr
      dsimp only
      split
      · exact .inl rfl
      split
      · exact .inr (.inl (fun h => by cases h))
      unfold getData
      split
      · exact .inr (.inr ho.symm)
      split
      · exact .inr (.inl (fun h => by cases h))
      · exact .inr (.inr ho.symm)
    rcases hd en₀.mem.isSome en₀.len with h | h | h
    · exact absurd h hne
    · exact absurd h1 h
    · exact h

end Verif
