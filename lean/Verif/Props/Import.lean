import Verif.Spec.Import
import Verif.Proofs.Import

/-!
# A key that the application brings along works (C129)
-/

namespace Verif

variable {e : Env}

/-- The object made from the template. -/
def secretObj (typ : Nat) (v : Bytes) : Obj := { newObj 0 typ with cls := CKO_SECRET_KEY, data := .symm v }

theorem createObject_import {s : Session} (hu : s.use = .rw) (tok : Bool) {typ : Nat} (ht : typ = CKK_AES ∨ typ = CKK_GENERIC_SECRET)
    (v : Bytes) (hv : v.length ≤ 512) : createObject e s (secretTmpl tok typ v) = (.ok, secretObj typ v) := by
  have hm : ¬ v.length > maxSymKey := by unfold maxSymKey; omega
  have hne : (v.length == unavailableInfo) = false := by
    rw [beq_eq_false_iff_ne]; unfold unavailableInfo; omega
  have h1 : templClass (secretTmpl tok typ v) = .ok CKO_SECRET_KEY := by rfl
  have h2 : templUlong (secretTmpl tok typ v) .keyType = .ok typ := by rcases ht with rfl | rfl <;> rfl
  have h3 : keyTypeOk typ = true := by rcases ht with rfl | rfl <;> rfl
  have h4 : checkAttributes true (secretTmpl tok typ v) = .ok := by
    have : checkEntry true (.of .value v) = .ok := by
      simp only [checkEntry, Entry.of, CKA.kind, hne, Bool.and_false, Bool.false_eq_true, if_false]
    have h5 : checkEntry true (.of .keyType (ulong typ)) = .ok := by rcases ht with rfl | rfl <;> decide
    have h6 : checkEntry true (.of .token [if tok then 1 else 0]) = .ok := by cases tok <;> decide
    have h7 : checkEntry true (.of .cls (ulong CKO_SECRET_KEY)) = .ok := by decide
    simp only [secretTmpl, checkAttributes, this, h5, h6, h7, if_true]
  have h5 : keyParams { newObj 0 typ with cls := CKO_SECRET_KEY } = some [.valueLen, .value] := by
    rcases ht with rfl | rfl <;> rfl
  have hvals : keyVals (secretTmpl tok typ v) .value = some v := by
    show some (v.take v.length) = some v
    rw [List.take_length]
  have hvl : keyVals (secretTmpl tok typ v) .valueLen = none := rfl
  have h6 : setKey e.key { newObj 0 typ with cls := CKO_SECRET_KEY } (keyVals (secretTmpl tok typ v)) = (.ok, secretObj typ v) := by
    have : setKey e.key { newObj 0 typ with cls := CKO_SECRET_KEY } (keyVals (secretTmpl tok typ v)) =
        setSecretKey { newObj 0 typ with cls := CKO_SECRET_KEY } (keyVals (secretTmpl tok typ v)) := by
      rcases ht with rfl | rfl <;> rfl
    rw [this]
    simp only [setSecretKey, hvals, hvl, secretLen, Option.getD_some, if_neg hm, List.take_length]
    rfl
  have h7 : setAttrs (secretObj typ v) (secretTmpl tok typ v) = (.ok, secretObj typ v) := by
    rcases ht with rfl | rfl <;> rfl
  have h8 : ([CKA.valueLen, .value].any fun a => (keyAttr (secretTmpl tok typ v) a).any fun e => e.mem.isNone) = false := rfl
  exact createObject_of hu h1 h2 (by decide) h3 h4 h5 h8 h6 h7

/-- What the Init of a job takes the session to. -/
theorem job_init (x : Crypto) (s : OpSt) {o : Obj} {v : Bytes} {n : Nat} {j : Job} (ht : o.typ = j.keyType) (hd : o.data = .symm v)
    (hf : j.Fit x v n) :
    ∃ kd m p, ∃ d : Nat → DataCall, (∀ h k, j.init h k = .sess h (.cryptInit kd (some (m, p)) k)) ∧ (∀ h rnd, j.call h n rnd = .sess h (.crypt (d rnd))) ∧
      (initCall x kd s o m p).2 = .ok := by
  have hsym : o.symm = v := by unfold Obj.symm; rw [hd]
  have hi : ∀ t : Nat, t ≤ 128 → toInt32 t = t := by
    intro t ht
    unfold toInt32
    rw [Nat.mod_eq_of_lt (by omega), if_pos (by omega)]
  cases j with
  | seal' iv aad t msg =>
    obtain ⟨f1, f2, _, _⟩ := hf
    refine ⟨_, _, _, fun rnd => .encrypt (some msg) (.buf n) rnd, fun _ _ => rfl, fun _ _ => rfl, ?_⟩
    have ht : o.typ = CKK_AES := ht
    have : ¬ ((t : Int) > 128 ∨ iv.length > 16) := by omega
    simp only [initCall, encryptInit, gcmInit, ht, GcmSt.setParams, hi t f2, if_neg this, OpSt.started, ne_eq, not_true_eq_false, if_false]
  | open' iv aad t data =>
    obtain ⟨f1, f2, _⟩ := hf
    refine ⟨_, _, _, fun rnd => .decrypt (some data) (.buf n) rnd, fun _ _ => rfl, fun _ _ => rfl, ?_⟩
    have ht : o.typ = CKK_AES := ht
    have : ¬ ((t : Int) > 128 ∨ iv.length > 16) := by omega
    simp only [initCall, decryptInit, gcmInit, ht, GcmSt.setParams, hi t f2, if_neg this, OpSt.started, ne_eq, not_true_eq_false, if_false]
  | encrypt iv msg =>
    obtain ⟨f1, f2, _⟩ := hf
    refine ⟨_, _, _, fun rnd => .encrypt (some msg) (.buf n) rnd, fun _ _ => rfl, fun _ _ => rfl, ?_⟩
    have ht : o.typ = CKK_AES := ht
    simp only [initCall, encryptInit, cbcInit, ht, f1, hsym, Cbc.setParams, if_pos f2, OpSt.started, ne_eq, not_true_eq_false, if_false]
  | decrypt iv msg =>
    obtain ⟨f1, f2, _⟩ := hf
    refine ⟨_, _, _, fun rnd => .decrypt (some msg) (.buf n) rnd, fun _ _ => rfl, fun _ _ => rfl, ?_⟩
    have ht : o.typ = CKK_AES := ht
    simp only [initCall, decryptInit, cbcInit, ht, f1, hsym, Cbc.setParams, if_pos f2, OpSt.started, ne_eq, not_true_eq_false, if_false]
  | mac a msg =>
    obtain ⟨f1, _⟩ := hf
    refine ⟨_, _, _, fun rnd => .sign (some msg) (.buf n) rnd, fun _ _ => rfl, fun _ _ => rfl, ?_⟩
    have ht : o.typ = CKK_GENERIC_SECRET := ht
    simp only [initCall, signInit, hmacInit, ht, MechParam.isNone, HmacSt.start, hsym, f1, OpSt.started, ne_eq, not_true_eq_false, if_false,
      if_true, Bool.not_true, Bool.false_eq_true]
  | check a msg sig =>
    have f1 : x.mac.keyOk a v = true := hf
    refine ⟨_, _, _, fun _ => .verify (some msg) (some sig), fun _ _ => rfl, fun _ _ => rfl, ?_⟩
    have ht : o.typ = CKK_GENERIC_SECRET := ht
    simp only [initCall, verifyInit, hmacInit, ht, MechParam.isNone, HmacSt.start, hsym, f1, OpSt.started, ne_eq, not_true_eq_false, if_false,
      if_true, Bool.not_true, Bool.false_eq_true]

/-- What the data call of a job gives. -/
theorem job_run (x : Crypto) (hm : x.mac.Lawful) (ha : x.aes.Lawful) (s s1 : OpSt) {o : Obj} {v : Bytes} {n : Nat} {j : Job}
    (hd : o.data = .symm v) (hf : j.Fit x v n) {kd : Kind} {m : Mech} {p : MechParam}
    (hi : ∀ h k, j.init h k = .sess h (.cryptInit kd (some (m, p)) k)) (hok : initCall x kd s o m p = (s1, .ok))
    {d : DataCall} {h rnd : Nat} (hc : j.call h n rnd = .sess h (.crypt d)) :
    ({ rv := (d.run x s1 (some o)).2.rv, out := some (d.run x s1 (some o)).2 } : Resp) = j.result x v := by
  have hsym : o.symm = v := by unfold Obj.symm; rw [hd]
  cases j with
  | seal' iv aad t msg =>
    obtain ⟨f1, f2, f3, f4⟩ := hf
    cases hc
    cases hi 0 0
    obtain ⟨h1, h2, _, h3⟩ := gcmInit_ok hok
    have hts : s1.gcm.tagSz = t / 8 := tagSz_of f2 (by rw [h3])
    have hn : ¬ (msg.length + t / 8) % 2 ^ 32 > n := by rw [Nat.mod_eq_of_lt f4]; omega
    simp only [DataCall.run, Verif.encrypt, withArgs, needInit, sized, h1, h2, hts, if_neg hn, if_true, reduceCtorEq, if_false,
      GcmSt.encrypt, hsym]
    rw [h3]
    dsimp only [Job.result]
    cases x.gcm.enc v iv aad (aad.getD []).length msg (t / 8) <;> rfl
  | open' iv aad t data =>
    obtain ⟨f1, f2, f3, f4, f5⟩ := hf
    cases hc
    cases hi 0 0
    obtain ⟨h1, h2, _, h3⟩ := gcmInit_ok hok
    have hts : s1.gcm.tagSz = t / 8 := tagSz_of f2 (by rw [h3])
    have hn : ¬ w32sub data.length (t / 8) > n := by unfold w32sub; omega
    have hl : ¬ data.length < t / 8 := by omega
    simp only [DataCall.run, Verif.decrypt, withArgs, needInit, sized, h1, h2, hts, if_neg hn, if_true, reduceCtorEq, if_false,
      gcmDecrypt, if_neg hl, GcmSt.decrypt, hsym]
    rw [h3]
    dsimp only [Job.result]
    cases x.gcm.dec v iv aad (aad.getD []).length (data.take (data.length - t / 8)) (data.drop (data.length - t / 8)) <;> rfl
  | encrypt iv msg =>
    obtain ⟨f1, f2, f3, f4⟩ := hf
    cases hc
    cases hi 0 0
    have := (c43_single_part x s s1 o iv msg n rnd f3 f4).1 hok
    simp only [DataCall.run, this, Job.result, wrote, hsym]
    rw [(cbcEnc_length (ha _ f2) iv _ f1).1, show msg.length / 16 * 16 = msg.length by omega]
  | decrypt iv msg =>
    obtain ⟨f1, f2, f3, f4⟩ := hf
    cases hc
    cases hi 0 0
    have := (c43_single_part x s s1 o iv msg n rnd f3 f4).2 hok
    simp only [DataCall.run, this, Job.result, wrote, hsym]
    rw [(cbcDec_length (ha _ f2) iv _ f1).1, show msg.length / 16 * 16 = msg.length by omega]
  | mac a msg =>
    obtain ⟨f1, f2⟩ := hf
    cases hc
    cases hi 0 0
    obtain ⟨h1, h2, h3⟩ := hmacInit_ok hok
    have hn : ¬ x.mac.size a > n := by omega
    simp only [DataCall.run, Verif.sign, withArgs, needInit, sized, h1, h2, h3, if_neg hn, if_true, reduceCtorEq, if_false,
      finishSig, HmacSt.sign, HmacSt.signFinal, HmacSt.update, List.nil_append, hsym]
    rfl
  | check a msg sig =>
    cases hc
    cases hi 0 0
    obtain ⟨h1, h2, h3⟩ := hmacInit_ok hok
    have hl := (hm a v msg).1
    have hiff : HmacSt.verify x.mac { alg := a, key := v, msg := [], size := x.mac.size a } sig msg = decide (sig = x.mac.mac a v msg) := by
      unfold HmacSt.verify HmacSt.verifyFinal HmacSt.update HmacSt.signFinal
      dsimp only [List.nil_append]
      rw [← Bool.decide_and, decide_eq_decide]
      constructor
      · rintro ⟨g1, g2⟩
        rw [← g1, ← hl, List.take_length] at g2
        exact g2.symm
      · rintro rfl
        exact ⟨hl.symm, List.take_length⟩
    simp only [DataCall.run, Verif.verify, withArgs, needInit, h1, h2, h3, if_true, reduceCtorEq, if_false, hsym, hiff, Job.result]
    by_cases hs : sig = x.mac.mac a v msg
    · rw [decide_eq_true hs, if_pos hs]; rfl
    · rw [decide_eq_false hs, if_neg hs]; rfl

/-- **C129**: a secret key that an application brings along works, whatever happened before.  After any history, in any
read/write session with room for the key, importing it succeeds; and then, for as long as the key is not touched, every
job it is fit for can be begun and answers with the result of the algorithm under the imported value.  Between the Init
and the data call there may be calls that do not concern the operation. -/
theorem c129_import (hm : e.crypto.mac.Lawful) (ha : e.crypto.aes.Lawful) (hh : HashLen e) (hr : RandLen e) {l₀ : Lib}
    (h₀ : Start l₀) (hd : NoToken l₀) (cs : List Call) (h : Nat) (ho : OpenAs e (run e l₀ cs) h true) (tok : Bool) (typ : Nat)
    (ht : typ = CKK_AES ∨ typ = CKK_GENERIC_SECRET) (v : Bytes) (hv : v.length ≤ 512)
    (hroom : if tok then (tokenObjs (run e l₀ cs)).length < 64 else (sessObjs (run e l₀ cs) h).length < 8) :
    ∃ κ, answer e (run e l₀ cs) (createCall h (secretTmpl tok typ v)) = { rv := .ok, handle := some κ } ∧
      ∀ mid : List Call, (∀ c ∈ mid, Spares h κ c) →
      ∀ now, now = cs ++ createCall h (secretTmpl tok typ v) :: mid →
      BoolToken now → 2 * now.length < 2 ^ 28 → (run e l₀ now).bad = false →
      ∀ (j : Job) (n rnd : Nat), j.keyType = typ → j.Fit e.crypto v n →
        answer e (run e l₀ now) (j.init h κ) = { rv := .ok } ∧
        ∀ cs', (∀ c ∈ cs', Bystander h κ c) → (run e l₀ (now ++ j.init h κ :: cs')).bad = false →
          answer e (run e l₀ (now ++ j.init h κ :: cs')) (j.call h n rnd) = j.result e.crypto v := by
  have hcls : (secretObj typ v).cls ≠ CKO_CERTIFICATE := show CKO_SECRET_KEY ≠ CKO_CERTIFICATE by decide
  obtain ⟨κ, hk, huse⟩ := import_use hh hr h₀ hd cs h ho tok (fun s hu => createObject_import (e := e) hu tok ht v hv)
    (by cases tok <;> rfl) (fun _ key b u => by rcases ht with rfl | rfl <;> rfl) hcls hroom
  refine ⟨κ, hk, fun mid hmid now hnow hbt hlen hgood j n rnd hj hf => ?_⟩
  obtain ⟨kd, m, p, d, j1, j2, j3⟩ : ∃ kd m p, ∃ d : Nat → DataCall, (∀ h k, j.init h k = .sess h (.cryptInit kd (some (m, p)) k)) ∧
      (∀ h rnd, j.call h n rnd = .sess h (.crypt (d rnd))) ∧
      ∀ s o, o.typ = (secretObj typ v).typ → o.data = (secretObj typ v).data → (initCall e.crypto kd s o m p).2 = .ok := by
    obtain ⟨kd, m, p, d, j1, j2, _⟩ := job_init e.crypto {} (o := secretObj typ v) hj.symm rfl hf
    refine ⟨kd, m, p, d, j1, j2, fun s o h1 h2 => ?_⟩
    obtain ⟨kd', m', p', _, j1', _, j3'⟩ := job_init e.crypto s (o := o) (h1.trans hj.symm) h2 hf
    have := (j1 0 0).symm.trans (j1' 0 0)
    cases this
    exact j3'
  obtain ⟨g1, g2⟩ := huse mid hmid now hnow hbt hlen hgood kd m p j3
  rw [j1]
  refine ⟨g1, fun cs' hcs' hgd => ?_⟩
  obtain ⟨s, o, st, _, t3, g3, g4⟩ := g2 cs' hcs' hgd
  have := g4 (d rnd)
  unfold dataOf initOf at this
  rw [j2, this]
  exact job_run e.crypto hm ha s st t3 hf j1 g3 (j2 h rnd)

/-! ## A key imported into a used session -/

namespace Demo

/-- A session in which a key has been searched for, an encryption has been begun and given up, and a key destroyed. -/
def used : List Call :=
  setup ++ [createCall 65538 (openTmpl false 9), .sess 65538 (.cryptInit .encrypt (some (.aesCbcPad, .raw (List.replicate 16 1))) 1),
    .sess 65538 (.crypt (.encryptUpdate (some [1, 2, 3]) (.buf 16))), .sess 65538 (.destroy 1), .sess 65538 (.findInit (some []))]

set_option maxRecDepth 40000 in
example : OpenAs env (run env fresh used) 65538 true ∧ (sessObjs (run env fresh used) 65538).length < 8 ∧
    (tokenObjs (run env fresh used)).length < 64 ∧
    (∀ c ∈ [loginCall 65538 .user userPin 0, createCall 65538 (openTmpl true 3)], Spares 65538 1 c) :=
  ⟨⟨.rwUser, by decide +kernel⟩, by decide +kernel, by decide +kernel, by simp [loginCall, createCall, Spares]; decide⟩

example : (Job.seal' (List.replicate 12 1) none 128 [1, 2, 3]).Fit env.crypto (List.replicate 16 5) 19 ∧
    (Job.encrypt (List.replicate 16 1) (List.replicate 32 2)).Fit env.crypto (List.replicate 16 5) 32 := by
  unfold Job.Fit; decide

end Demo
end Verif
