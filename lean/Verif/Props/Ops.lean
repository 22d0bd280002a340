import Verif.Proofs.Ops
import Verif.Proofs.Demo

/-!
# C48, C53, C68: order of cryptographic calls, size queries
-/

namespace Verif

/-- C53: after any sequence of cryptographic calls on a session, a data call that is not
refused (it writes, assigns a length, changes the state or returns anything but the
"out of order" codes) belongs to the kind of the last successful Init, and uses the
mechanism and the key of that Init. -/
theorem c53_matching_init (x : Crypto) (cs : List CryptCall) (c : DataCall)
    (st : OpSt × Option Obj) (hst : st = runCrypt x ({}, none) cs)
    (h : ¬ Refused st.1 (c.run x st.1 st.2)) :
    ∃ o m, lastInit x ({}, none) cs none = some (c.kind, o, m) ∧ st.2 = some o ∧ st.1.mech = m := by
  have inv : ∀ (cs : List CryptCall) (st : OpSt × Option Obj) (acc : Option (Kind × Obj × Mech)),
      (match acc with
       | none => st.2 = none
       | some (k, o, m) => st.2 = some o ∧ st.1.mech = m ∧ (st.1.init.kind = some k ∨ st.1.init.kind = none)) →
      (match lastInit x st cs acc with
       | none => (runCrypt x st cs).2 = none
       | some (k, o, m) => (runCrypt x st cs).2 = some o ∧ (runCrypt x st cs).1.mech = m ∧
          ((runCrypt x st cs).1.init.kind = some k ∨ (runCrypt x st cs).1.init.kind = none)) := by
    intro cs
    induction cs with
    | nil => intro st acc h; exact h
    | cons c cs ih =>
      intro st acc h
      simp only [lastInit, runCrypt]
      apply ih
      cases c with
      | init k o m p =>
        simp only [CryptCall.run]
        by_cases hr : (initCall x k st.1 o m p).2 = .ok
        · simp only [hr, if_true]
          obtain ⟨h1, h2⟩ := initCall_ok (x := x) (k := k) (s := st.1) (o := o) (m := m) (p := p)
            (s' := (initCall x k st.1 o m p).1) (by rw [← hr])
          exact ⟨trivial, h1, .inl h2⟩
        · obtain ⟨h1, h2⟩ := initCall_fail hr
          simp only [hr, if_false]
          cases acc with
          | none => exact h
          | some a => exact ⟨h.1, by rw [h1]; exact h.2.1, by rw [h2]; exact h.2.2⟩
      | data c =>
        obtain ⟨h1, h2⟩ := run_keeps x st.1 st.2 c
        simp only [CryptCall.run]
        cases acc with
        | none => exact h
        | some a =>
          refine ⟨h.1, by rw [h1]; exact h.2.1, ?_⟩
          rcases h2 with h2 | h2
          · rw [h2]; exact h.2.2
          · rw [h2]; exact .inr rfl
  have hi := inv cs ({}, none) none rfl
  rw [← hst] at hi
  have hk : st.1.init.kind = some c.kind := by
    apply Decidable.byContradiction; intro hne; exact h (run_refused x st.1 st.2 c hne)
  cases hl : lastInit x ({}, none) cs none with
  | none =>
    rw [hl] at hi
    simp only at hi
    have := run_noKey x st.1 c
    rw [← hi] at this
    exact absurd this h
  | some a =>
    obtain ⟨k, o, m⟩ := a
    rw [hl] at hi
    simp only at hi
    obtain ⟨h1, h2, h3⟩ := hi
    have : k = c.kind := by
      rcases h3 with h3 | h3
      · rw [hk] at h3; simpa using h3.symm
      · rw [hk] at h3; simp at h3
    exact ⟨o, m, by rw [this], h1, h2⟩

/-- Non-vacuity of C53: a call that is not refused, after an earlier operation of another
kind. -/
example :
    let cs : List CryptCall := [.init .sign Demo.secret (.hmac .sha256) (.null 0),
      .init .encrypt Demo.key .aesCbc (.raw Demo.iv), .data (.encryptUpdate (some [1]) (.buf 16))]
    let st := runCrypt Demo.x ({}, none) cs
    ¬ Refused st.1 (DataCall.run Demo.x st.1 st.2 (.encryptUpdate (some [2]) (.buf 16))) ∧
    Refused st.1 (DataCall.run Demo.x st.1 st.2 (.signUpdate (some [2]))) ∧
    Refused st.1 (DataCall.run Demo.x st.1 st.2 (.decryptUpdate (some [2]) (.buf 16))) := by decide

/-- C48 for AES-CBC, AES-CBC-PAD and HMAC: once a single-part call or a Final call has
returned `CKR_OK` with a result (a buffer was given, or it is a verification), every
further data call is refused until the next Init. Missing: AES-GCM, RSA and ECDSA, where
the code is wrong (`c48_violated_*`). -/
theorem c48_one_message_partial (x : Crypto) (s : OpSt) (o : Obj) (c c' : DataCall)
    (hm : s.mech = .aesCbc ∨ s.mech = .aesCbcPad ∨ ∃ a, s.mech = .hmac a)
    (hc : match c with
      | .encryptUpdate .. | .decryptUpdate .. | .signUpdate .. | .verifyUpdate .. => False
      | .verify .. | .verifyFinal .. => (c.run x s (some o)).2.rv = .ok ∨
          (c.run x s (some o)).2.rv = .signatureInvalid
      | _ => (c.run x s (some o)).2.rv = .ok ∧ ∃ n, c.buf = .buf n) :
    Refused (c.run x s (some o)).1 (c'.run x (c.run x s (some o)).1 (some o)) := by
  have f1 : ∀ (s : OpSt) r, (finish s r).1 = s := by intro s r; cases r <;> rfl
  have f2 : ∀ (s : OpSt) n r, (finishSig s n r).1 = s := by intro s n r; cases r <;> rfl
  have f3 : ∀ (s : OpSt) r, (finishVerify s r).1 = s := by
    intro s r; cases r with
    | none => rfl
    | some b => cases b <;> rfl
  have f4 : ∀ (s : OpSt) r, (finish s r).2.rv = .ok ↔ ∃ w, r = some w := by intro s r; cases r <;> simp [finish]
  have f5 : ∀ d w, (s.cbc.padDecrypt x.aes d).1 = some w → (s.cbc.padDecrypt x.aes d).2.2 = true := by
    intro d w; unfold Cbc.padDecrypt; split <;> simp
  have f6 : ∀ ob, (∃ n, ob = .buf n) → (cbcFinal s ob).1.init = .none := by
    rintro _ ⟨n, rfl⟩; unfold cbcFinal; split <;> rfl
  have hnone : (c.run x s (some o)).1.init = .none := by
    rcases hm with hm | hm | ⟨a, hm⟩ <;> cases c <;>
      simp only [DataCall.run, DataCall.buf, encrypt, encryptFinal, decrypt,
        decryptFinal, sign, signFinal, verify, verifyFinal, withArgs, needInit, sized, hm] at hc ⊢ <;>
      (repeat' split) <;> simp_all
    all_goals first
      | (obtain ⟨_, n, rfl⟩ := hc; exact f6 _ n rfl)
      | (obtain ⟨w, hw⟩ := hc
         have := f5 _ _ hw
         simp_all)
  apply run_refused
  rw [hnone]; simp [OpInit.kind]

/-- Non-vacuity of C48. -/
example :
    let s1 := (encryptInit {} Demo.key .aesCbcPad (.raw Demo.iv)).1
    let c : DataCall := .encrypt (some [1, 2, 3]) (.buf 32) 0
    s1.mech = .aesCbcPad ∧ (c.run Demo.x s1 (some Demo.key)).2.rv = .ok ∧ c.buf = .buf 32 := by decide

/-- C48 fails for AES-GCM: two `C_Encrypt` calls after one Init both succeed, with the
same key and IV. -/
theorem c48_violated_gcm :
    ∃ (x : Crypto) (o : Obj) (iv : Bytes), x.gcm.Lawful ∧
      let s1 := (encryptInit {} o .aesGcm (.gcm iv none 128)).1
      let r1 := encrypt x s1 (some o) (some [1, 2, 3]) (.buf 19) 0
      let r2 := encrypt x r1.1 (some o) (some [4, 5, 6]) (.buf 19) 0
      r1.2.rv = .ok ∧ r2.2.rv = .ok ∧ r2.2.wr ≠ [] ∧
      ∃ t1 t2, x.gcm.enc o.symm iv none 0 [1, 2, 3] 16 = some (r1.2.wr.take 3, t1) ∧
        x.gcm.enc o.symm iv none 0 [4, 5, 6] 16 = some (r2.2.wr.take 3, t2) :=
  ⟨Demo.x, Demo.key, [1], Demo.gcm_lawful, by decide, by decide, by decide, _, _, rfl, rfl⟩

/-- C48 fails for RSA and ECDSA signing: the second `C_Sign` without a new Init succeeds. -/
theorem c48_violated_sign (x : Crypto) (s : OpSt) (o : Obj) (d d' w w' : Bytes) (n rnd rnd' : Nat)
    (h1 : s.mech = .rsaPkcs) (h2 : s.init = .rsaPkcsSign) (hn : o.rsa.keyLen ≤ n)
    (hw : x.rsa.signPkcs o.rsa d rnd = some w) (hw' : x.rsa.signPkcs o.rsa d' rnd' = some w') :
    let r := sign x s (some o) (some d) (.buf n) rnd
    r.2.wr = w ∧ (sign x r.1 (some o) (some d') (.buf n) rnd').2.rv = .ok ∧
    (sign x r.1 (some o) (some d') (.buf n) rnd').2.wr = w' := by
  have hn' : ¬ o.rsa.keyLen > n := by omega
  simp [sign, withArgs, needInit, sized, h1, h2, hn', hw, hw', finishSig]

theorem c48_violated_ecdsa :
    ∃ (x : Crypto) (o : Obj),
      let s1 := (signInit x {} o .ecdsa (.null 0)).1
      let r := sign x s1 (some o) (some [1]) (.buf 64) 0
      r.2.rv = .ok ∧ (sign x r.1 (some o) (some [2]) (.buf 64) 0).2.rv = .ok :=
  ⟨Demo.x, { typ := CKK_EC, cls := CKO_PRIVATE_KEY, data := .ec { dp := some ⟨7, 32, [6]⟩ } }, by decide, by decide⟩

/-- C68: a size query (NULL buffer) that returns `CKR_OK` changes nothing, writes nothing
and reports a length, and the same call with a buffer of at least that length is not
refused as too small; and a call refused as too small changes nothing, writes nothing and
can be repeated. For every data call, mechanism and state. -/
theorem c68_size_query (x : Crypto) (s : OpSt) (curr : Option Obj) (c : DataCall) (n : Nat) :
    (c.buf = .query n → (c.run x s curr).2.rv = .ok →
      (c.run x s curr).1 = s ∧ (c.run x s curr).2.wr = [] ∧
      ∃ len, (c.run x s curr).2.len = some len ∧
        ∀ k, len ≤ k → ((c.withBuf (.buf k)).run x s curr).2.rv ≠ .bufferTooSmall) ∧
    ((c.run x s curr).2.rv = .bufferTooSmall →
      (c.run x s curr).1 = s ∧ (c.run x s curr).2.wr = [] ∧ (c.run x s curr).2.len = none ∧
      ∃ m k, c.buf = .buf m ∧ m < k ∧ (c.withBuf (.query 0)).run x s curr = (s, { rv := .ok, len := some k })) := by
  have h := bufOk_run x s curr n c
  have hc : c.withBuf c.buf = c := by cases c <;> rfl
  simp only [BufOk, hc] at h
  exact h

/-- Non-vacuity of C68: a query that succeeds, and a call that is refused. -/
example :
    let s1 := (encryptInit {} Demo.key .aesCbc (.raw Demo.iv)).1
    (encrypt Demo.x s1 (some Demo.key) (some (List.replicate 32 7)) (.query 0) 0).2.rv = .ok ∧
    (encrypt Demo.x s1 (some Demo.key) (some (List.replicate 32 7)) (.buf 31) 0).2.rv = .bufferTooSmall := by
  decide

end Verif
