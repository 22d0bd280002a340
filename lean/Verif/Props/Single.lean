import Verif.Spec.Single
import Verif.Props.StreamHist
import Verif.Props.Gcm
import Verif.Props.History

/-!
# C145: single-part encryption and decryption after every history
-/

namespace Verif

variable {e : Env}

theorem no_dataCalls {h k : Nat} (cs : List Call) (hcs : ∀ c ∈ cs, Bystander h k c) : dataCalls h cs = [] := by
  induction cs with
  | nil => rfl
  | cons c cs ih =>
    have ih := ih fun c hc => hcs c (List.mem_cons_of_mem _ hc)
    have hb := hcs c (List.mem_cons_self ..)
    cases c with
    | sess j c =>
      cases c with
      | crypt d => have hne : j ≠ h := hb.2; simp only [dataCalls, if_neg hne]; exact ih
      | _ => exact ih
    | _ => exact ih

theorem plain_started {s st : OpSt} {o : Obj} {t : Nat} {m : Mech} {p : MechParam} {i : OpInit}
    (h : plainInit s o t m p i = (st, .ok)) : st.mech = m ∧ st.init = i := by
  unfold plainInit OpSt.started at h
  (repeat' split at h) <;> cases h
  exact ⟨rfl, rfl⟩

theorem oaep_started {s st : OpSt} {o : Obj} {p : MechParam} {i : OpInit} (h : oaepInit s o p i = (st, .ok)) :
    ∃ hs mgf src label, p = .oaep (some hs) (some mgf) src label ∧ st.mech = .rsaOaep ∧ st.init = i ∧
      st.oaep = { hash := hs, mgf := mgf, unset := false, label := label, labelSz := (label.getD []).length } := by
  unfold oaepInit at h
  split at h
  · cases h
  cases p with
  | oaep a b src label =>
    dsimp only at h
    split at h
    · cases h
    cases a with
    | none => simp [setOaep] at h
    | some a =>
      cases b with
      | none => simp [setOaep] at h
      | some b =>
        simp only [setOaep, if_true, OpSt.started, Prod.mk.injEq, and_true] at h
        subst h
        exact ⟨a, b, src, label, rfl, rfl, rfl, rfl⟩
  | _ => cases h

theorem gcm_started {s st : OpSt} {o : Obj} {p : MechParam} {i : OpInit} (h : gcmInit s o p i = (st, .ok)) :
    ∃ iv aad t, p = .gcm iv aad t := by
  unfold gcmInit at h
  split at h
  · cases h
  cases p with
  | gcm iv aad t => exact ⟨iv, aad, t, rfl⟩
  | _ => cases h

/-- The answer to a call that needs `need` bytes and computes `r`. -/
theorem sized_finish {s s' : OpSt} {n need : Nat} {r : Option Bytes} :
    ((sized s (.buf n) need (finish s' r)).2.rv = .ok → r = some (sized s (.buf n) need (finish s' r)).2.wr) ∧
    (need ≤ n → r.isSome → (sized s (.buf n) need (finish s' r)).2.rv = .ok) := by
  unfold sized
  dsimp only
  split
  · refine ⟨nofun, fun h => ?_⟩; omega
  · cases r with
    | none => exact ⟨nofun, fun _ h => by cases h⟩
    | some w => exact ⟨fun _ => rfl, fun _ _ => rfl⟩

theorem encrypt_single (x : Crypto) {s st : OpSt} {o : Obj} {m : Mech} {p : MechParam} (hi : encryptInit s o m p = (st, .ok))
    (ht : TagOk p) (hm : m ≠ .aesCbc ∧ m ≠ .aesCbcPad) (d : Bytes) (n rnd : Nat) :
    let r := (encrypt x st (some o) (some d) (.buf n) rnd).2
    (r.rv = .ok → enciphered x o m p d rnd = some r.wr) ∧
    (OutRoom o m d n → (enciphered x o m p d rnd).isSome → r.rv = .ok) := by
  intro r
  cases m with
  | rsaX509 =>
    obtain ⟨h1, h2⟩ := plain_started hi
    simp only [r, encrypt, withArgs, needInit, h1, h2, if_true, reduceCtorEq, if_false]
    exact sized_finish
  | rsaPkcs =>
    obtain ⟨h1, h2⟩ := plain_started hi
    simp only [r, encrypt, withArgs, needInit, h1, h2, if_true, reduceCtorEq, if_false]
    exact sized_finish
  | rsaOaep =>
    obtain ⟨hs, mgf, src, label, rfl, h1, h2, h3⟩ := oaep_started hi
    simp only [r, encrypt, withArgs, needInit, h1, h2, if_true, reduceCtorEq, if_false, oaepEnc, h3, Bool.false_eq_true]
    exact sized_finish
  | aesGcm =>
    obtain ⟨iv, aad, t, rfl⟩ := gcm_started hi
    obtain ⟨h1, h2, _, h3⟩ := gcmInit_ok hi
    have hts : st.gcm.tagSz = t / 8 := tagSz_of ht (by rw [h3])
    simp only [r, encrypt, withArgs, needInit, h1, h2, if_true, reduceCtorEq, if_false, GcmSt.encrypt, hts]
    have he : enciphered x o .aesGcm (.gcm iv aad t) d rnd =
        (x.gcm.enc o.symm st.gcm.iv st.gcm.aad st.gcm.aadSz d (t / 8)).map fun r => r.1 ++ r.2 := by rw [h3]; rfl
    rw [he]
    refine ⟨sized_finish.1, fun hroom hsome => sized_finish.2 ?_ hsome⟩
    have ht : t ≤ 128 := ht
    obtain ⟨hr1, hr2⟩ : d.length + 16 ≤ n ∧ n < 2 ^ 32 := hroom
    omega
  | aesCbc => exact absurd rfl hm.1
  | aesCbcPad => exact absurd rfl hm.2
  | _ => cases hi

theorem decrypt_single (x : Crypto) {s st : OpSt} {o : Obj} {m : Mech} {p : MechParam} (hi : decryptInit s o m p = (st, .ok))
    (ht : TagOk p) (hm : m ≠ .aesCbc ∧ m ≠ .aesCbcPad) (d : Bytes) (n rnd : Nat) :
    let r := (decrypt x st (some o) (some d) (.buf n) rnd).2
    (r.rv = .ok → deciphered x o m p d rnd = some r.wr) ∧
    (OutRoom o m d n → (deciphered x o m p d rnd).isSome → r.rv = .ok) := by
  intro r
  cases m with
  | rsaX509 =>
    obtain ⟨h1, h2⟩ := plain_started hi
    simp only [r, decrypt, withArgs, needInit, h1, h2, if_true, reduceCtorEq, if_false]
    exact sized_finish
  | rsaPkcs =>
    obtain ⟨h1, h2⟩ := plain_started hi
    simp only [r, decrypt, withArgs, needInit, h1, h2, if_true, reduceCtorEq, if_false]
    exact sized_finish
  | rsaOaep =>
    obtain ⟨hs, mgf, src, label, rfl, h1, h2, h3⟩ := oaep_started hi
    simp only [r, decrypt, withArgs, needInit, h1, h2, if_true, reduceCtorEq, if_false, oaepDec, h3, Bool.false_eq_true]
    exact sized_finish
  | aesGcm =>
    obtain ⟨iv, aad, t, rfl⟩ := gcm_started hi
    have ha := c47_only_authenticated x s st o iv d aad t n rnd hi ht
    refine ⟨fun hok => ?_, fun hroom hd => ?_⟩
    · obtain ⟨a1, a2⟩ := ha hok
      simp only [deciphered, if_pos a1]
      exact a2
    · obtain ⟨h1, h2, _, h3⟩ := gcmInit_ok hi
      have hts : st.gcm.tagSz = t / 8 := tagSz_of ht (by rw [h3])
      rw [h3] at hts
      have ht : t ≤ 128 := ht
      obtain ⟨hr1, hr2⟩ : d.length + 16 ≤ n ∧ n < 2 ^ 32 := hroom
      simp only [deciphered] at hd
      split at hd
      · rename_i hl
        have hw : ¬ w32sub d.length (t / 8) > n := by
          unfold w32sub
          omega
        simp only [r, decrypt, withArgs, needInit, h1, h2, if_true, reduceCtorEq, if_false, gcmDecrypt, GcmSt.decrypt, sized, h3, hts,
          if_neg hw, if_neg (show ¬ d.length < t / 8 by omega)]
        obtain ⟨w, hw⟩ := Option.isSome_iff_exists.mp hd
        rw [hw]
        rfl
      · cases hd
  | aesCbc => exact absurd rfl hm.1
  | aesCbcPad => exact absurd rfl hm.2
  | _ => cases hi

/-- **C145**, encryption (partial).  Whatever happened before, and whatever is done between `C_EncryptInit` and `C_Encrypt`
that leaves the key and the operation alone: when `C_Encrypt` with RSA or AES-GCM succeeds, what it writes is the ciphertext
of the data for the key and the parameters named in the Init; and it succeeds if wolfCrypt does and there is room.
AES-CBC and AES-CBC-PAD are in `c145_cbc_partial` and `c145_cbc_pad_partial`. -/
theorem c145_encrypt_partial (hh : HashLen e) (hr : RandLen e) {l₀ : Lib} (h₀ : Start l₀) (hd : NoToken l₀) (cs cs' : List Call)
    (h k : Nat) (m : Mech) (p : MechParam) (hm : m ≠ .aesCbc ∧ m ≠ .aesCbcPad) (ht : TagOk p)
    (hok : (answer e (run e l₀ cs) (.sess h (.cryptInit .encrypt (some (m, p)) k))).rv = .ok)
    (hcs : ∀ c ∈ cs', Bystander h k c)
    (hgood : (run e l₀ (cs ++ .sess h (.cryptInit .encrypt (some (m, p)) k) :: cs')).bad = false) :
    ∃ o, Addressed (run e l₀ cs) h k o ∧ ∀ d n rnd,
      let r := answer e (run e l₀ (cs ++ .sess h (.cryptInit .encrypt (some (m, p)) k) :: cs'))
        (.sess h (.crypt (.encrypt (some d) (.buf n) rnd)))
      (r.rv = .ok → enciphered e.crypto o m p d rnd = some r.wr) ∧
      (OutRoom o m d n → (enciphered e.crypto o m p d rnd).isSome → r.rv = .ok) := by
  obtain ⟨s, o, st, _, h2, h3, _, _, h6⟩ := op_history hh hr h₀ hd cs cs' h k .encrypt m p hok
    (fun c hc => .inl (hcs c hc)) hgood
  refine ⟨o, h2, fun d n rnd => ?_⟩
  dsimp only
  rw [h6, no_dataCalls cs' hcs]
  exact encrypt_single e.crypto h3 ht hm d n rnd

/-- **C145**, decryption (partial): `C_Decrypt` writes only the plaintext of the data for that key -- with AES-GCM only if
the tag is right. -/
theorem c145_decrypt_partial (hh : HashLen e) (hr : RandLen e) {l₀ : Lib} (h₀ : Start l₀) (hd : NoToken l₀) (cs cs' : List Call)
    (h k : Nat) (m : Mech) (p : MechParam) (hm : m ≠ .aesCbc ∧ m ≠ .aesCbcPad) (ht : TagOk p)
    (hok : (answer e (run e l₀ cs) (.sess h (.cryptInit .decrypt (some (m, p)) k))).rv = .ok)
    (hcs : ∀ c ∈ cs', Bystander h k c)
    (hgood : (run e l₀ (cs ++ .sess h (.cryptInit .decrypt (some (m, p)) k) :: cs')).bad = false) :
    ∃ o, Addressed (run e l₀ cs) h k o ∧ ∀ d n rnd,
      let r := answer e (run e l₀ (cs ++ .sess h (.cryptInit .decrypt (some (m, p)) k) :: cs'))
        (.sess h (.crypt (.decrypt (some d) (.buf n) rnd)))
      (r.rv = .ok → deciphered e.crypto o m p d rnd = some r.wr) ∧
      (OutRoom o m d n → (deciphered e.crypto o m p d rnd).isSome → r.rv = .ok) := by
  obtain ⟨s, o, st, _, h2, h3, _, _, h6⟩ := op_history hh hr h₀ hd cs cs' h k .decrypt m p hok
    (fun c hc => .inl (hcs c hc)) hgood
  refine ⟨o, h2, fun d n rnd => ?_⟩
  dsimp only
  rw [h6, no_dataCalls cs' hcs]
  exact decrypt_single e.crypto h3 ht hm d n rnd

set_option maxRecDepth 20000 in
/-- Non-vacuity of `c145_decrypt_partial`: an AES-GCM decryption with other calls in between; with the right tag the plaintext
is written, with another tag nothing is. -/
example :
    let i := Call.sess 65538 (.cryptInit .decrypt (some (.aesGcm, .gcm Demo.iv none 32)) 1)
    let cs := Demo.setup ++ [createCall 65538 (Demo.aesTmpl false 3)]
    let ct := ((enciphered Demo.env.crypto { typ := CKK_AES, data := .symm (List.replicate 16 3) } .aesGcm (.gcm Demo.iv none 32)
      [1, 2, 3] 0).getD [])
    HashLen Demo.env ∧ Start Demo.fresh ∧ NoToken Demo.fresh ∧ TagOk (.gcm Demo.iv none 32) ∧
    (answer Demo.env (run Demo.env Demo.fresh cs) i).rv = .ok ∧ (∀ c ∈ Demo.meanwhile, Bystander 65538 1 c) ∧
    (run Demo.env Demo.fresh (cs ++ i :: Demo.meanwhile)).bad = false ∧
    (answer Demo.env (run Demo.env Demo.fresh (cs ++ i :: Demo.meanwhile)) (.sess 65538 (.crypt (.decrypt (some ct) (.buf 30) 0)))).wr =
      [1, 2, 3] ∧
    (answer Demo.env (run Demo.env Demo.fresh (cs ++ i :: Demo.meanwhile))
      (.sess 65538 (.crypt (.decrypt (some (9 :: ct)) (.buf 30) 0)))).rv = .functionFailed := by
  refine ⟨Demo.hashLen, Demo.fresh_start, Demo.noToken, show (32 : Nat) ≤ 128 by decide, by decide, ?_, by decide, by decide, by decide⟩
  unfold Demo.meanwhile Bystander
  intro c hc
  simp only [List.mem_cons, List.not_mem_nil, or_false] at hc
  rcases hc with rfl | rfl | rfl | rfl | rfl | rfl <;> exact ⟨trivial, fun h => h⟩

end Verif
