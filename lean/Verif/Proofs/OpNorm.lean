import Verif.Spec.Isolated

/-!
# The part of an operation's state that its mechanism uses
-/

namespace Verif

/-- Forget what the mechanism does not use. -/
def OpSt.norm (st : OpSt) : OpSt :=
  match st.mech with
  | .rsaOaep => { mech := st.mech, init := st.init, oaep := st.oaep }
  | .rsaPss => { mech := st.mech, init := st.init, pss := st.pss }
  | .aesCbc | .aesCbcPad => { mech := st.mech, init := st.init, cbc := st.cbc }
  | .aesGcm => { mech := st.mech, init := st.init, gcm := st.gcm }
  | .hmac _ => { mech := st.mech, init := st.init, hmac := st.hmac }
  | _ => { mech := st.mech, init := st.init }

/-- The same of a result. -/
def np (r : OpSt × Out) : OpSt × Out := (r.1.norm, r.2)

/-- Something of the state does not matter to a call. -/
def Norms (f : OpSt → OpSt × Out) : Prop := ∀ st, f st.norm = np (f st)

theorem norms_args (c : Option Obj) (a : Option Bytes) (ob : OutBuf) {k : OpSt → Obj → Bytes → OpSt × Out}
    (h : ∀ o d, Norms fun st => k st o d) : Norms fun st => withArgs st c a ob (k st) := by
  intro st
  unfold withArgs
  repeat' split
  all_goals first | rfl | exact h _ _ st

theorem norm_init (st : OpSt) : st.norm.init = st.init := by
  unfold OpSt.norm; split <;> rfl

theorem np_need (st : OpSt) (i : OpInit) {k k' : OpSt × Out} (h : k' = np k) :
    needInit st.norm i k' = np (needInit st i k) := by
  unfold needInit
  rw [norm_init]
  repeat' split
  · exact h
  all_goals rfl

theorem np_sized (st : OpSt) (ob : OutBuf) (n : Nat) {k k' : OpSt × Out} (h : k' = np k) :
    sized st.norm ob n k' = np (sized st ob n k) := by
  unfold sized
  cases ob with
  | noLen => rfl
  | query m => rfl
  | buf m =>
    dsimp only
    split
    · rfl
    · exact h

theorem np_finish {st st' : OpSt} (h : st' = st.norm) (r : Option Bytes) : finish st' r = np (finish st r) := by
  subst h; cases r <;> rfl

theorem np_finishSig {st st' : OpSt} (h : st' = st.norm) (n : Nat) (r : Option Bytes) :
    finishSig st' n r = np (finishSig st n r) := by
  subst h; cases r <;> rfl

theorem np_finishVerify {st st' : OpSt} (h : st' = st.norm) (r : Option Bool) :
    finishVerify st' r = np (finishVerify st r) := by
  subst h
  cases r with
  | none => rfl
  | some b => cases b <;> rfl

theorem np_if {p : Prop} [Decidable p] {a b a' b' : OpSt × Out} (h1 : a' = np a) (h2 : b' = np b) :
    (if p then a' else b') = np (if p then a else b) := by
  split
  · exact h1
  · exact h2

section
variable (x : Crypto) (init : OpInit) (oaep : OaepSt) (pss : PssSt) (cbc : Cbc) (gcm : GcmSt) (hmac : HmacSt)

theorem np_oaep (r : Option Bytes) :
    finish (oaepDone (OpSt.mk .rsaOaep init oaep pss cbc gcm hmac).norm r) r =
      np (finish (oaepDone (OpSt.mk .rsaOaep init oaep pss cbc gcm hmac) r) r) := by
  cases r <;> rfl

theorem np_cbcFinal (m : Mech) (hm : m = .aesCbc) (ob : OutBuf) :
    cbcFinal (OpSt.mk m init oaep pss cbc gcm hmac).norm ob = np (cbcFinal (OpSt.mk m init oaep pss cbc gcm hmac) ob) := by
  subst hm
  unfold cbcFinal
  show (if cbc.partSz ≠ 0 then _ else _) = np (if cbc.partSz ≠ 0 then _ else _)
  refine np_if rfl ?_
  cases ob <;> rfl

theorem np_gcmDecrypt (o : Obj) (d : Bytes) :
    gcmDecrypt x (OpSt.mk .aesGcm init oaep pss cbc gcm hmac).norm o d =
      np (gcmDecrypt x (OpSt.mk .aesGcm init oaep pss cbc gcm hmac) o d) := by
  unfold gcmDecrypt
  show (if d.length < gcm.tagSz then _ else _) = np (if d.length < gcm.tagSz then _ else _)
  exact np_if rfl (np_finish (by rfl) _)
end

theorem norms_encrypt (x : Crypto) (c : Option Obj) (a : Option Bytes) (ob : OutBuf) (r : Nat) : Norms fun st => encrypt x st c a ob r := by
  unfold encrypt
  refine norms_args c a ob fun o d st => ?_
  obtain ⟨mech, init, oaep, pss, cbc, gcm, hmac⟩ := st
  cases mech with
  | rsaX509 => exact np_need _ _ (np_sized _ _ _ (np_finish (by rfl) _))
  | rsaPkcs => exact np_need _ _ (np_sized _ _ _ (np_finish (by rfl) _))
  | rsaOaep => exact np_need _ _ (np_sized _ _ _ (np_oaep _ _ _ _ _ _ _))
  | aesCbc => exact np_need _ _ (np_sized _ _ _ rfl)
  | aesCbcPad => exact np_need _ _ (np_sized _ _ _ (np_finish (by rfl) _))
  | aesGcm => exact np_need _ _ (np_sized _ _ _ (np_finish (by rfl) _))
  | _ => rfl

theorem norms_encryptUpdate (x : Crypto) (c : Option Obj) (a : Option Bytes) (ob : OutBuf) : Norms fun st => encryptUpdate x st c a ob := by
  unfold encryptUpdate
  refine norms_args c a ob fun o d st => ?_
  obtain ⟨mech, init, oaep, pss, cbc, gcm, hmac⟩ := st
  cases mech with
  | aesCbc => exact np_need _ _ (np_sized _ _ _ (np_finish (by rfl) _))
  | aesCbcPad => exact np_need _ _ (np_sized _ _ _ (np_finish (by rfl) _))
  | aesGcm => exact np_need _ _ (np_sized _ _ _ (np_finish (by rfl) _))
  | _ => rfl

theorem norms_encryptFinal (x : Crypto) (c : Option Obj) (ob : OutBuf) : Norms fun st => encryptFinal x st c ob := by
  unfold encryptFinal
  refine norms_args c (some []) ob fun o d st => ?_
  obtain ⟨mech, init, oaep, pss, cbc, gcm, hmac⟩ := st
  cases mech with
  | aesCbc => exact np_need _ _ (np_cbcFinal _ _ _ _ _ _ _ rfl _)
  | aesCbcPad => exact np_need _ _ (np_sized _ _ _ rfl)
  | aesGcm => exact np_need _ _ (np_sized _ _ _ (np_finish (by rfl) _))
  | _ => rfl

theorem norms_decrypt (x : Crypto) (c : Option Obj) (a : Option Bytes) (ob : OutBuf) (r : Nat) : Norms fun st => decrypt x st c a ob r := by
  unfold decrypt
  refine norms_args c a ob fun o d st => ?_
  obtain ⟨mech, init, oaep, pss, cbc, gcm, hmac⟩ := st
  cases mech with
  | rsaX509 => exact np_need _ _ (np_sized _ _ _ (np_finish (by rfl) _))
  | rsaPkcs => exact np_need _ _ (np_sized _ _ _ (np_finish (by rfl) _))
  | rsaOaep => exact np_need _ _ (np_sized _ _ _ (np_oaep _ _ _ _ _ _ _))
  | aesCbc => 
    refine np_need _ _ (np_sized _ _ _ ?_)
    show (match cbc.decrypt x.aes d with | none => _ | some r => _) = np (match cbc.decrypt x.aes d with | none => _ | some r => _)
    cases cbc.decrypt x.aes d <;> rfl
  | aesCbcPad => 
    refine np_need _ _ ?_
    cases ob with
    | buf m => exact np_finish (by rfl) _
    | query m => rfl
    | noLen => rfl
  | aesGcm => exact np_need _ _ (np_sized _ _ _ (np_gcmDecrypt _ _ _ _ _ _ _ _ _))
  | _ => rfl

theorem norms_decryptUpdate (x : Crypto) (c : Option Obj) (a : Option Bytes) (ob : OutBuf) : Norms fun st => decryptUpdate x st c a ob := by
  unfold decryptUpdate
  refine norms_args c a ob fun o d st => ?_
  obtain ⟨mech, init, oaep, pss, cbc, gcm, hmac⟩ := st
  cases mech with
  | aesCbc => 
    refine np_need _ _ (np_sized _ _ _ ?_)
    show (match cbc.decUpdate x.aes d with | none => _ | some r => _) = np (match cbc.decUpdate x.aes d with | none => _ | some r => _)
    cases cbc.decUpdate x.aes d <;> rfl
  | aesCbcPad => 
    refine np_need _ _ (np_sized _ _ _ ?_)
    show (match cbc.padDecUpdate x.aes d with | none => _ | some r => _) =
      np (match cbc.padDecUpdate x.aes d with | none => _ | some r => _)
    cases cbc.padDecUpdate x.aes d <;> rfl
  | aesGcm => 
    refine np_need _ _ ?_
    cases ob <;> rfl
  | _ => rfl

theorem norms_decryptFinal (x : Crypto) (c : Option Obj) (ob : OutBuf) : Norms fun st => decryptFinal x st c ob := by
  unfold decryptFinal
  refine norms_args c (some []) ob fun o d st => ?_
  obtain ⟨mech, init, oaep, pss, cbc, gcm, hmac⟩ := st
  cases mech with
  | aesCbc => exact np_need _ _ (np_cbcFinal _ _ _ _ _ _ _ rfl _)
  | aesCbcPad => 
    refine np_need _ _ ?_
    show (if cbc.partSz ≠ 16 then _ else _) = np (if cbc.partSz ≠ 16 then _ else _)
    refine np_if rfl ?_
    cases ob with
    | buf m =>
      show (match (cbc.padDecFinal x.aes).1 with | none => _ | some r => _) =
        np (match (cbc.padDecFinal x.aes).1 with | none => _ | some r => _)
      cases (cbc.padDecFinal x.aes).1 <;> rfl
    | query m => rfl
    | noLen => rfl
  | aesGcm => 
    refine np_need _ _ (np_sized _ _ _ ?_)
    show (if gcm.enc.length < gcm.tagSz then _ else _) = np (if gcm.enc.length < gcm.tagSz then _ else _)
    exact np_if rfl (np_finish (by rfl) _)
  | _ => rfl

theorem norms_sign (x : Crypto) (c : Option Obj) (a : Option Bytes) (ob : OutBuf) (r : Nat) : Norms fun st => sign x st c a ob r := by
  unfold sign
  refine norms_args c a ob fun o d st => ?_
  obtain ⟨mech, init, oaep, pss, cbc, gcm, hmac⟩ := st
  cases mech with
  | rsaX509 => exact np_need _ _ (np_sized _ _ _ (np_finishSig (by rfl) _ _))
  | rsaPkcs => exact np_need _ _ (np_sized _ _ _ (np_finishSig (by rfl) _ _))
  | rsaPss => exact np_need _ _ (np_sized _ _ _ (np_finishSig (by rfl) _ _))
  | ecdsa => 
    refine np_need _ _ ?_
    cases o.ec.dp with
    | none => rfl
    | some c =>
      refine np_sized _ _ _ ?_
      cases ecSign x.ecdsa o.ec c.size d r <;> rfl
  | hmac al => exact np_need _ _ (np_sized _ _ _ (np_finishSig (by rfl) _ _))
  | _ => rfl

theorem norms_signFinal (x : Crypto) (c : Option Obj) (ob : OutBuf) : Norms fun st => signFinal x st c ob := by
  unfold signFinal
  refine norms_args c (some []) ob fun o d st => ?_
  obtain ⟨mech, init, oaep, pss, cbc, gcm, hmac⟩ := st
  cases mech with
  | hmac al => exact np_need _ _ (np_sized _ _ _ (np_finishSig (by rfl) _ _))
  | _ => rfl

theorem norms_verify (x : Crypto) (c : Option Obj) (a b : Option Bytes) : Norms fun st => verify x st c a b := by
  unfold verify
  cases b with
  | none => intro st; rfl
  | some sg =>
  dsimp only
  refine norms_args c a (.query 0) fun o d st => ?_
  obtain ⟨mech, init, oaep, pss, cbc, gcm, hmac⟩ := st
  cases mech with
  | rsaX509 => exact np_need _ _ (np_finishVerify (by rfl) _)
  | rsaPkcs => exact np_need _ _ (np_finishVerify (by rfl) _)
  | rsaPss => exact np_need _ _ (np_finishVerify (by rfl) _)
  | ecdsa => 
    refine np_need _ _ ?_
    cases o.ec.dp with
    | none => rfl
    | some c => exact np_finishVerify (by rfl) _
  | hmac al => exact np_need _ _ (np_finishVerify (by rfl) _)
  | _ => rfl

theorem norms_verifyFinal (x : Crypto) (c : Option Obj) (a : Option Bytes) : Norms fun st => verifyFinal x st c a := by
  unfold verifyFinal
  refine norms_args c a (.query 0) fun o d st => ?_
  obtain ⟨mech, init, oaep, pss, cbc, gcm, hmac⟩ := st
  cases mech with
  | hmac al => exact np_need _ _ (np_finishVerify (by rfl) _)
  | _ => rfl

theorem norms_macUpdate (i : OpInit) (c : Option Obj) (a : Option Bytes) : Norms fun st => macUpdate st i c a := by
  unfold macUpdate
  refine norms_args c a (.query 0) fun o d st => ?_
  obtain ⟨mech, init, oaep, pss, cbc, gcm, hmac⟩ := st
  cases mech with
  | hmac al => exact np_need _ _ rfl
  | _ => rfl

theorem norm_run (x : Crypto) (c : Option Obj) (d : DataCall) : Norms fun st => d.run x st c := by
  cases d with
  | encrypt a ob r => exact norms_encrypt x c a ob r
  | encryptUpdate a ob => exact norms_encryptUpdate x c a ob
  | encryptFinal ob => exact norms_encryptFinal x c ob
  | decrypt a ob r => exact norms_decrypt x c a ob r
  | decryptUpdate a ob => exact norms_decryptUpdate x c a ob
  | decryptFinal ob => exact norms_decryptFinal x c ob
  | sign a ob r => exact norms_sign x c a ob r
  | signUpdate a => exact norms_macUpdate .hmacSign c a
  | signFinal ob => exact norms_signFinal x c ob
  | verify a b => exact norms_verify x c a b
  | verifyUpdate a => exact norms_macUpdate .hmacVerify c a
  | verifyFinal a => exact norms_verifyFinal x c a

theorem norm_after (x : Crypto) (o : Obj) (st : OpSt) (ds : List DataCall) :
    afterData x o st.norm ds = (afterData x o st ds).norm := by
  induction ds generalizing st with
  | nil => rfl
  | cons d ds ih =>
    simp only [afterData]
    have := norm_run x (some o) d st
    dsimp only at this
    rw [this]
    exact ih _

/-- States that agree on what the mechanism uses give the same answers. -/
theorem norm_answers (x : Crypto) (o : Obj) {st st' : OpSt} (h : st.norm = st'.norm) (ds : List DataCall) (d : DataCall) :
    (d.run x (afterData x o st ds) (some o)).2 = (d.run x (afterData x o st' ds) (some o)).2 := by
  have key : ∀ st, (d.run x (afterData x o st ds) (some o)).2 = (d.run x (afterData x o st.norm ds) (some o)).2 := by
    intro st
    rw [norm_after]
    have := norm_run x (some o) d (afterData x o st ds)
    dsimp only at this
    rw [this]; rfl
  rw [key st, key st', h]

/-- An Init starts afresh, unless the mechanism is AES-CBC. -/
theorem norm_initCall (x : Crypto) (kd : Kind) {st₀ st : OpSt} {o : Obj} {m : Mech} {p : MechParam}
    (hm : m ≠ .aesCbc ∧ m ≠ .aesCbcPad) (h : initCall x kd st₀ o m p = (st, .ok)) :
    (initCall x kd {} o m p).2 = .ok ∧ st.norm = (initCall x kd {} o m p).1.norm := by
  have plain : ∀ t m i, m ≠ .rsaOaep ∧ m ≠ .rsaPss ∧ m ≠ .aesCbc ∧ m ≠ .aesCbcPad ∧ m ≠ .aesGcm ∧ (∀ a, m ≠ .hmac a) →
      plainInit st₀ o t m p i = (st, .ok) → (plainInit {} o t m p i).2 = .ok ∧ st.norm = (plainInit {} o t m p i).1.norm := by
    intro t m i hm h
    unfold plainInit at h ⊢
    split at h
    · simp at h
    split at h
    · simp at h
    rename_i h1 h2
    rw [if_neg h1, if_neg h2]
    obtain ⟨rfl, -⟩ := Prod.mk.inj h
    refine ⟨rfl, ?_⟩
    unfold OpSt.started OpSt.norm
    cases m <;> first | rfl | (simp at hm; done)
  have oaep : ∀ i, oaepInit st₀ o p i = (st, .ok) → (oaepInit {} o p i).2 = .ok ∧ st.norm = (oaepInit {} o p i).1.norm := by
    intro i h
    unfold oaepInit at h ⊢
    split at h
    · simp at h
    rename_i h1
    rw [if_neg h1]
    cases p with
    | oaep hh mm src label =>
      dsimp only at h ⊢
      split at h
      · simp at h
      rename_i h2
      rw [if_neg h2]
      cases hh <;> cases mm <;> simp only [setOaep, Bool.false_eq_true, if_false, if_true] at h ⊢ <;>
        obtain ⟨rfl, h⟩ := Prod.mk.inj h <;> first | exact ⟨rfl, rfl⟩ | cases h
    | _ => simp at h
  have pss : ∀ i, pssInit st₀ o p i = (st, .ok) → (pssInit {} o p i).2 = .ok ∧ st.norm = (pssInit {} o p i).1.norm := by
    intro i h
    unfold pssInit at h ⊢
    split at h
    · simp at h
    rename_i h1
    rw [if_neg h1]
    cases p with
    | pss hh mm salt =>
      dsimp only at h ⊢
      cases hh <;> cases mm <;> simp only [setPss, Bool.false_eq_true, if_false] at h ⊢
      · simp at h
      · simp at h
      · simp at h
      · split at h
        · simp at h
        rename_i h2
        rw [if_neg h2]
        simp only [if_true] at h ⊢
        obtain ⟨rfl, h⟩ := Prod.mk.inj h
        exact ⟨rfl, rfl⟩
    | _ => simp at h
  have gcm : ∀ i, gcmInit st₀ o p i = (st, .ok) → (gcmInit {} o p i).2 = .ok ∧ st.norm = (gcmInit {} o p i).1.norm := by
    intro i h
    unfold gcmInit at h ⊢
    split at h
    · simp at h
    rename_i h1
    rw [if_neg h1]
    cases p with
    | gcm iv aad t =>
      dsimp only at h ⊢
      cases hs : GcmSt.setParams iv aad (toInt32 t) with
      | none => rw [hs] at h; simp at h
      | some g =>
        rw [hs] at h
        dsimp only at h ⊢
        obtain ⟨rfl, h⟩ := Prod.mk.inj h
        exact ⟨rfl, rfl⟩
    | _ => simp at h
  have hmac : ∀ a i, hmacInit x st₀ o a p i = (st, .ok) →
      (hmacInit x {} o a p i).2 = .ok ∧ st.norm = (hmacInit x {} o a p i).1.norm := by
    intro a i h
    unfold hmacInit HmacSt.start at h ⊢
    split at h
    · simp at h
    split at h
    · simp at h
    rename_i h1 h2
    rw [if_neg h1, if_neg h2]
    split at h
    · rename_i h3
      rw [if_pos h3]
      simp only [if_true] at h ⊢
      obtain ⟨rfl, h⟩ := Prod.mk.inj h
      exact ⟨rfl, rfl⟩
    · simp at h
  cases kd <;> cases m <;> simp only [initCall, encryptInit, decryptInit, signInit, verifyInit] at h ⊢ <;>
    first
    | (simp at hm; done)
    | (simp at h; done)
    | exact plain _ _ _ (by simp) h
    | exact oaep _ h
    | exact pss _ h
    | exact gcm _ h
    | exact hmac _ _ h

end Verif
