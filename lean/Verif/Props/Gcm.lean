import Verif.Spec.Stream
import Verif.Proofs.Stream
import Verif.Proofs.Demo

/-!
# C47: AES-GCM, single-part and multi-part
-/

namespace Verif

/-- What a successful GCM Init leaves. -/
theorem gcmInit_ok {s s1 : OpSt} {o : Obj} {iv : Bytes} {aad : Option Bytes} {t : Nat} {i : OpInit}
    (h : gcmInit s o (.gcm iv aad t) i = (s1, .ok)) :
    s1.mech = .aesGcm ∧ s1.init = i ∧ toInt32 t ≤ 128 ∧
    s1.gcm = { iv := iv, aad := aad, aadSz := (aad.getD []).length, tagBits := toInt32 t } := by
  unfold gcmInit at h
  split at h
  · simp at h
  · simp only at h
    by_cases hc : toInt32 t > 128 ∨ iv.length > 16
    · simp [GcmSt.setParams, hc] at h
    · simp [GcmSt.setParams, hc, OpSt.started] at h
      subst h
      exact ⟨rfl, rfl, by omega, rfl⟩

/-- The tag of a valid number of bits. -/
theorem tagSz_of {g : GcmSt} {t : Nat} (ht : t ≤ 128) (h : g.tagBits = toInt32 t) : g.tagSz = t / 8 := by
  have : toInt32 t = t := by
    unfold toInt32
    rw [Nat.mod_eq_of_lt (by omega), if_pos (by omega)]
  unfold GcmSt.tagSz
  rw [h, this, Int.tdiv_eq_ediv_of_nonneg (by omega)]
  omega

/-- C47, decryption: for every sequence of `C_DecryptUpdate` calls, `C_DecryptFinal`
gives exactly the result of `C_Decrypt` on the data handed over, for every output
buffer, and the Update calls write nothing. -/
theorem c47_decrypt_split (x : Crypto) (s s1 : OpSt) (o : Obj) (iv : Bytes) (aad : Option Bytes) (t : Nat)
    (calls : List UpdCall) (ob : OutBuf) (rnd : Nat)
    (hinit : decryptInit s o .aesGcm (.gcm iv aad t) = (s1, .ok)) :
    let r := runCalls (decCalls x o) s1 calls
    produced r.2 = [] ∧
    (decryptFinal x r.1 (some o) ob).2 =
      (decrypt x s1 (some o) (some (accepted calls r.2)) ob rnd).2 := by
  obtain ⟨h1, h2, _, h3⟩ := gcmInit_ok hinit
  have h := runCalls_inv (decCalls x o)
    (fun s acc out => s = { s1 with gcm := { s1.gcm with enc := acc } } ∧ out = [])
    (by
      rintro _ acc _ ⟨d, ob⟩ ⟨rfl, rfl⟩
      cases ob <;>
        simp [decCalls, decryptUpdate, withArgs, needInit, h1, h2, handedOver, GcmSt.decUpdate])
    calls s1 [] [] ⟨by cases s1; simp_all, rfl⟩
  simp only [List.nil_append] at h
  obtain ⟨e, hout⟩ := h
  refine ⟨hout, ?_⟩
  rw [e]
  cases ob <;> simp [decryptFinal, decrypt, withArgs, needInit, sized, h1, h2, GcmSt.tagSz, gcmDecrypt,
    GcmSt.decFinal, GcmSt.decrypt, finish]
  repeat' split
  all_goals simp_all

/-- C47, single-part round trip: what `C_Encrypt` writes into a buffer of any
sufficient size is decrypted by `C_Decrypt`, with an object that has the same key, to the
message. -/
theorem c47_round_trip (x : Crypto) (hx : x.gcm.Lawful) (s s1 u u1 : OpSt) (o o' : Obj) (hsym : o'.symm = o.symm) (iv m : Bytes)
    (aad : Option Bytes) (t n k rnd rnd' : Nat)
    (he : encryptInit s o .aesGcm (.gcm iv aad t) = (s1, .ok))
    (hd : decryptInit u o' .aesGcm (.gcm iv aad t) = (u1, .ok))
    (hok : (encrypt x s1 (some o) (some m) (.buf n) rnd).2.rv = .ok)
    (ht : t ≤ 128) (hk : m.length ≤ k) (hlen : m.length < 2 ^ 31) :
    let ct := (encrypt x s1 (some o) (some m) (.buf n) rnd).2
    ct.wr.length = m.length + t / 8 ∧ ct.len = some ct.wr.length ∧
    (decrypt x u1 (some o') (some ct.wr) (.buf k) rnd').2 =
      { rv := .ok, wr := m, len := some m.length } := by
  obtain ⟨h1, h2, _, h3⟩ := gcmInit_ok he
  obtain ⟨g1, g2, _, g3⟩ := gcmInit_ok hd
  intro ct
  have hct : ct = (encrypt x s1 (some o) (some m) (.buf n) rnd).2 := rfl
  simp only [encrypt, withArgs, needInit, sized, h1, h2] at hct hok
  by_cases hn : (m.length + s1.gcm.tagSz) % 2 ^ 32 > n
  · simp [hn] at hok
  · simp only [hn, if_false, if_true, reduceCtorEq] at hct hok
    cases hc : x.gcm.enc o.symm s1.gcm.iv s1.gcm.aad s1.gcm.aadSz m s1.gcm.tagSz with
    | none => simp [GcmSt.encrypt, hc, finish] at hok
    | some r =>
      obtain ⟨c, tg⟩ := r
      have hts : s1.gcm.tagSz = t / 8 := tagSz_of ht (by rw [h3])
      have hts' : u1.gcm.tagSz = t / 8 := tagSz_of ht (by rw [g3])
      obtain ⟨l1, l2, l3⟩ := hx _ _ _ _ _ _ _ _ (by rw [hts]; omega) hc
      rw [h3] at l3
      simp only [GcmSt.encrypt, hc, Option.map_some, finish] at hct
      rw [hct]
      refine ⟨by simp [l1, l2, hts], rfl, ?_⟩
      have e1 : w32sub (c ++ tg).length u1.gcm.tagSz = m.length := by
        simp only [w32sub, List.length_append, l1, l2, hts, hts']; omega
      have e2 : ¬ (c ++ tg).length < u1.gcm.tagSz := by
        rw [List.length_append, l2, hts, hts']; omega
      have e3 : (c ++ tg).length - u1.gcm.tagSz = c.length := by
        rw [List.length_append, l2, hts, hts']; omega
      have hk' : ¬ m.length > k := by omega
      simp only [decrypt, withArgs, needInit, sized, g1, g2, e1, hk', gcmDecrypt, e2, GcmSt.decrypt, e3]
      simp [g3, hsym, l3, finish]

/-- C47: `C_Decrypt` and `C_DecryptFinal` write only what AES-GCM authenticated: any
output is the decryption accepted by wolfCrypt for exactly the key, IV, AAD, ciphertext
and tag given. -/
theorem c47_only_authenticated (x : Crypto) (s s1 : OpSt) (o : Obj) (iv d : Bytes)
    (aad : Option Bytes) (t n rnd : Nat)
    (hinit : decryptInit s o .aesGcm (.gcm iv aad t) = (s1, .ok))
    (ht : t ≤ 128) (hok : (decrypt x s1 (some o) (some d) (.buf n) rnd).2.rv = .ok) :
    t / 8 ≤ d.length ∧
    x.gcm.dec o.symm iv aad (aad.getD []).length (d.take (d.length - t / 8)) (d.drop (d.length - t / 8)) =
      some (decrypt x s1 (some o) (some d) (.buf n) rnd).2.wr := by
  obtain ⟨h1, h2, _, h3⟩ := gcmInit_ok hinit
  have hts : s1.gcm.tagSz = t / 8 := tagSz_of ht (by rw [h3])
  simp only [decrypt, withArgs, needInit, sized, h1, h2, hts, gcmDecrypt, GcmSt.decrypt] at hok ⊢
  by_cases e1 : w32sub d.length (t / 8) > n
  · simp [e1] at hok
  · by_cases e2 : d.length < t / 8
    · simp [e1, e2] at hok
    · simp only [e1, e2, if_false, if_true, reduceCtorEq] at hok ⊢
      refine ⟨by omega, ?_⟩
      cases hc : x.gcm.dec o.symm s1.gcm.iv s1.gcm.aad s1.gcm.aadSz (d.take (d.length - t / 8))
          (d.drop (d.length - t / 8)) with
      | none => simp [hc, finish] at hok
      | some r => rw [h3] at hc; simp [finish, h3, hc]

/-- C47: when the end of a decryption delivered its result, nothing of the collected
ciphertext is kept to be mixed with that of a next message. -/
theorem c47_final_clears (x : Crypto) (s s1 : OpSt) (o : Obj) (iv : Bytes) (aad : Option Bytes) (t n : Nat)
    (calls : List UpdCall) (hinit : decryptInit s o .aesGcm (.gcm iv aad t) = (s1, .ok))
    (hok : (decryptFinal x (runCalls (decCalls x o) s1 calls).1 (some o) (.buf n)).2.rv = .ok) :
    (decryptFinal x (runCalls (decCalls x o) s1 calls).1 (some o) (.buf n)).1.gcm.enc = [] := by
  obtain ⟨h1, h2, _, h3⟩ := gcmInit_ok hinit
  have h := runCalls_inv (decCalls x o)
    (fun s _ _ => s.mech = .aesGcm ∧ s.init = .aesGcmDec)
    (by
      rintro s acc _ ⟨d, ob⟩ ⟨h1, h2⟩
      cases ob <;>
        simp [decCalls, decryptUpdate, withArgs, needInit, h1, h2])
    calls s1 [] [] ⟨h1, h2⟩
  generalize (runCalls (decCalls x o) s1 calls).1 = u at *
  obtain ⟨h4, h5⟩ := h
  simp only [decryptFinal, withArgs, needInit, sized, h4, h5, if_true, GcmSt.decFinal, finish] at hok ⊢
  by_cases e1 : w32sub u.gcm.enc.length u.gcm.tagSz > n
  · simp [e1] at hok
  · by_cases e2 : u.gcm.enc.length < u.gcm.tagSz
    · simp [e1, e2] at hok
    · simp only [e1, e2, if_false, reduceCtorEq] at hok ⊢
      split <;> rfl

/-- Non-vacuity of C47. -/
example :
    let s1 := (decryptInit {} Demo.key .aesGcm (.gcm [1, 2] (some [9]) 32)).1
    let calls : List UpdCall := [([1, 2, 3], .buf 0), ([4], .buf 0), ([1, 2, 3, 4], .buf 0)]
    (decryptInit {} Demo.key .aesGcm (.gcm [1, 2] (some [9]) 32)).2 = .ok ∧
    (decryptFinal Demo.x (runCalls (decCalls Demo.x Demo.key) s1 calls).1 (some Demo.key) (.buf 4)).2.rv = .ok := by
  decide

example :
    (encrypt Demo.x (encryptInit {} Demo.key .aesGcm (.gcm [1, 2] (some [9]) 32)).1 (some Demo.key)
      (some [1, 2, 3]) (.buf 7) 0).2.rv = .ok := by decide

/-- C47 fails for encryption: a message encrypted in two parts does not give the
single-part result, and its tag does not authenticate it. -/
theorem c47_encrypt_violated :
    ∃ (x : Crypto) (o : Obj) (iv : Bytes) (aad : Option Bytes) (t : Nat) (m1 m2 : Bytes), x.gcm.Lawful ∧
      let s1 := (encryptInit {} o .aesGcm (.gcm iv aad t)).1
      let calls : List UpdCall := [(m1, .buf m1.length), (m2, .buf m2.length)]
      let r := runCalls (encCalls x o) s1 calls
      let fin := encryptFinal x r.1 (some o) (.buf 16)
      (encryptInit {} o .aesGcm (.gcm iv aad t)).2 = .ok ∧ accepted calls r.2 = m1 ++ m2 ∧
      fin.2.rv = .ok ∧
      produced r.2 ++ fin.2.wr ≠ (encrypt x s1 (some o) (some (m1 ++ m2)) (.buf 64) 0).2.wr ∧
      (decrypt x (decryptInit {} o .aesGcm (.gcm iv aad t)).1 (some o) (some (produced r.2 ++ fin.2.wr))
        (.buf 64) 0).2.rv = .functionFailed :=
  ⟨Demo.x, Demo.key, [1, 2], none, 32, [1, 2, 3, 4], [5, 6, 7, 8], Demo.gcm_lawful,
    by decide, by decide, by decide, by decide, by decide⟩

/-- C47, encryption of a whole message by one `C_EncryptUpdate`: with the tag that `C_EncryptFinal` writes it is, for every
size of the tag, what `C_Encrypt` would have written. -/
theorem c47_encrypt_one_update (x : Crypto) (hx : x.gcm.Lawful) (s s1 : OpSt) (o : Obj) (iv m : Bytes) (aad : Option Bytes)
    (t n k j rnd : Nat) (he : encryptInit s o .aesGcm (.gcm iv aad t) = (s1, .ok)) (ht : t ≤ 128)
    (hlen : m.length + 16 < 2 ^ 32) (hj : m.length + t / 8 ≤ j) :
    let up := encryptUpdate x s1 (some o) (some m) (.buf n)
    let fin := encryptFinal x up.1 (some o) (.buf k)
    up.2.rv = .ok → fin.2.rv = .ok →
    (encrypt x s1 (some o) (some m) (.buf j) rnd).2 =
      { rv := .ok, wr := up.2.wr ++ fin.2.wr, len := some (m.length + t / 8) } ∧ fin.2.wr.length = t / 8 := by
  obtain ⟨h1, h2, _, h3⟩ := gcmInit_ok he
  intro up fin hu hf
  have hup : up = encryptUpdate x s1 (some o) (some m) (.buf n) := rfl
  simp only [encryptUpdate, withArgs, needInit, sized, h1, h2] at hup
  by_cases hn : m.length > n
  · simp [hn] at hup; rw [hup] at hu; cases hu
  simp only [hn, if_false, if_true, reduceCtorEq] at hup
  have hts : s1.gcm.tagSz = t / 8 := tagSz_of ht (by rw [h3])
  cases hc : x.gcm.enc o.symm s1.gcm.iv s1.gcm.aad s1.gcm.aadSz m s1.gcm.tagSz with
  | none => simp [GcmSt.encUpdate, hc, finish] at hup; rw [hup] at hu; cases hu
  | some r =>
    obtain ⟨c, tg⟩ := r
    obtain ⟨l1, l2, _⟩ := hx _ _ _ _ _ _ _ _ (by rw [hts]; omega) hc
    simp only [GcmSt.encUpdate, hc, finish] at hup
    have hfin : fin = encryptFinal x up.1 (some o) (.buf k) := rfl
    rw [hup] at hfin
    have hts' : ({ s1.gcm with aad := none, authTag := Bytes.write s1.gcm.authTag 0 tg } : GcmSt).tagSz = t / 8 := hts
    simp only [encryptFinal, withArgs, needInit, sized, h2, hts'] at hfin
    by_cases hk : t / 8 > k
    · simp [hk] at hfin; rw [hfin] at hf; cases hf
    simp only [hk, if_false, if_true, reduceCtorEq, finish] at hfin
    have htag : ({ s1.gcm with aad := none, authTag := Bytes.write s1.gcm.authTag 0 tg } : GcmSt).encFinal = tg := by
      unfold GcmSt.encFinal
      rw [hts', ← hts, ← l2]
      simp [Bytes.write]
    rw [htag] at hfin
    have hj' : ¬ (m.length + s1.gcm.tagSz) % 2 ^ 32 > j := by rw [hts, Nat.mod_eq_of_lt (by omega)]; omega
    rw [hup, hfin]
    refine ⟨?_, by dsimp only; rw [l2, hts]⟩
    simp only [encrypt, withArgs, needInit, sized, h1, h2, hj', if_false, if_true, reduceCtorEq]
    simp only [GcmSt.encrypt, hc, finish, Option.map_some]
    simp [l1, l2, hts]

/-- Non-vacuity of `c47_encrypt_one_update`: a tag of 32 bits. -/
example :
    let s1 := (encryptInit {} Demo.key .aesGcm (.gcm [1, 2] (some [9]) 32)).1
    let up := encryptUpdate Demo.x s1 (some Demo.key) (some [1, 2, 3]) (.buf 3)
    (encryptInit {} Demo.key .aesGcm (.gcm [1, 2] (some [9]) 32)).2 = .ok ∧ up.2.rv = .ok ∧
    (encryptFinal Demo.x up.1 (some Demo.key) (.buf 4)).2.rv = .ok := by
  decide

/-- C47, encryption in general: every `C_EncryptUpdate` call is a complete encryption
of its part under the same key and IV (the first with the AAD, the later ones with the
NULL pointer), so the output of two calls is two ciphertexts under one nonce. -/
theorem c47_encrypt_parts (x : Crypto) (s1 : OpSt) (o : Obj) (d1 d2 : Bytes) (n1 n2 : Nat)
    (h1 : s1.mech = .aesGcm) (h2 : s1.init = .aesGcmEnc)
    (hok1 : (encCalls x o s1 (d1, .buf n1)).2.rv = .ok)
    (hok2 : (encCalls x o (encCalls x o s1 (d1, .buf n1)).1 (d2, .buf n2)).2.rv = .ok) :
    ∃ t1 t2, x.gcm.enc o.symm s1.gcm.iv s1.gcm.aad s1.gcm.aadSz d1 s1.gcm.tagSz =
        some ((encCalls x o s1 (d1, .buf n1)).2.wr, t1) ∧
      x.gcm.enc o.symm s1.gcm.iv none s1.gcm.aadSz d2 s1.gcm.tagSz =
        some ((encCalls x o (encCalls x o s1 (d1, .buf n1)).1 (d2, .buf n2)).2.wr, t2) := by
  have key : ∀ (s : OpSt) (d : Bytes) (n : Nat), s.mech = .aesGcm → s.init = .aesGcmEnc →
      (encCalls x o s (d, .buf n)).2.rv = .ok →
      ∃ t, x.gcm.enc o.symm s.gcm.iv s.gcm.aad s.gcm.aadSz d s.gcm.tagSz =
        some ((encCalls x o s (d, .buf n)).2.wr, t) ∧
      (encCalls x o s (d, .buf n)).1 =
        { s with gcm := { s.gcm with aad := none, authTag := Bytes.write s.gcm.authTag 0 t } } := by
    intro s d n h1 h2 hok
    simp only [encCalls, encryptUpdate, withArgs, needInit, sized, h1, h2] at hok ⊢
    by_cases e : d.length > n
    · simp [e] at hok
    · simp only [e, if_false, if_true, reduceCtorEq] at hok ⊢
      cases hc : x.gcm.enc o.symm s.gcm.iv s.gcm.aad s.gcm.aadSz d s.gcm.tagSz with
      | none => simp [GcmSt.encUpdate, hc, finish] at hok
      | some r => exact ⟨r.2, by simp [GcmSt.encUpdate, hc, finish], by simp [GcmSt.encUpdate, hc, finish]⟩
  obtain ⟨t1, e1, e1'⟩ := key s1 d1 n1 h1 h2 hok1
  obtain ⟨t2, e2, _⟩ := key (encCalls x o s1 (d1, .buf n1)).1 d2 n2 (by rw [e1']; exact h1)
    (by rw [e1']; exact h2) hok2
  refine ⟨t1, t2, e1, ?_⟩
  rw [← e2, e1']
  rfl

end Verif
