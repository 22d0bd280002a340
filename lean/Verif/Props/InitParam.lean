import Verif.Spec.Param
import Verif.Proofs.Run
import Verif.Proofs.DemoEnv
import Verif.Props.Pair

/-!
# What an Init accepts and what it leaves when it does not (C83, C71)
-/

namespace Verif

variable {e : Env}

theorem toInt32_small {n : Nat} (h : n < 2 ^ 31) : toInt32 n = n := by
  unfold toInt32
  rw [Nat.mod_eq_of_lt (by omega), if_pos h]

theorem plainInit_param {s s1 : OpSt} {o : Obj} {t : Nat} {m : Mech} {p : MechParam} {i : OpInit}
    (h : plainInit s o t m p i = (s1, .ok)) : p = .null 0 := by
  unfold plainInit at h
  split at h
  · cases h
  split at h
  · cases h
  rename_i h2
  cases p with
  | null n => cases n with
    | zero => rfl
    | succ n => exact absurd rfl h2
  | _ => exact absurd rfl h2

theorem cbcInit_param {s s1 : OpSt} {o : Obj} {m : Mech} {p : MechParam} {i : OpInit}
    (h : cbcInit s o m p i = (s1, .ok)) : ∃ iv, p = .raw iv ∧ iv.length = 16 := by
  unfold cbcInit at h
  split at h
  · cases h
  split at h
  · split at h
    · cases h
    · rename_i iv h2; exact ⟨iv, rfl, Decidable.not_not.mp h2⟩
  · cases h

theorem gcmInit_param {s s1 : OpSt} {o : Obj} {p : MechParam} {i : OpInit} (hs : SmallNumbers p)
    (h : gcmInit s o p i = (s1, .ok)) : ParamOk .aesGcm p := by
  unfold gcmInit at h
  split at h
  · cases h
  split at h
  · rename_i iv aad t
    rw [toInt32_small hs] at h
    unfold GcmSt.setParams at h
    split at h
    · cases h
    rename_i hg
    split at hg
    · cases hg
    · rename_i hn
      exact ⟨by omega, by omega⟩
  · cases h

theorem oaepInit_param {s s1 : OpSt} {o : Obj} {p : MechParam} {i : OpInit}
    (h : oaepInit s o p i = (s1, .ok)) : ParamOk .rsaOaep p := by
  unfold oaepInit at h
  split at h
  · cases h
  split at h
  · rename_i hh mm src lab
    split at h
    · cases h
    rename_i hsrc
    cases hh <;> cases mm <;> try (cases h; done)
    show src = true
    cases src <;> simp_all
  · cases h

theorem pssInit_param {s s1 : OpSt} {o : Obj} {p : MechParam} {i : OpInit} (hs : SmallNumbers p)
    (h : pssInit s o p i = (s1, .ok)) : ParamOk .rsaPss p := by
  unfold pssInit at h
  split at h
  · cases h
  split at h
  · rename_i hh mm salt
    rw [toInt32_small hs] at h
    cases hh <;> cases mm <;> try (cases h; done)
    show salt ≤ 62
    by_cases hn : salt ≤ 62
    · exact hn
    · have : (salt : Int) > pssSaltMax := by unfold pssSaltMax; omega
      simp only [setPss, if_pos this] at h
      cases h
  · cases h

theorem hmacInit_param {x : Crypto} {s s1 : OpSt} {o : Obj} {a : HmacAlg} {p : MechParam} {i : OpInit}
    (h : hmacInit x s o a p i = (s1, .ok)) : p = .null 0 := by
  unfold hmacInit at h
  split at h
  · cases h
  split at h
  · cases h
  rename_i h2
  cases p with
  | null n => cases n with
    | zero => rfl
    | succ n => exact absurd rfl h2
  | _ => exact absurd rfl h2

/-- C83: an Init of any kind succeeds only with a parameter that is valid for the mechanism.
Missing: salt lengths and numbers of tag bits of 2^31 and more (`c83_violated`). -/
theorem c83_partial (x : Crypto) (kd : Kind) (s s1 : OpSt) (o : Obj) (m : Mech) (p : MechParam) (hs : SmallNumbers p)
    (h : initCall x kd s o m p = (s1, .ok)) : ParamOk m p := by
  have cbc : ∀ m i, (m = .aesCbc ∨ m = .aesCbcPad) → cbcInit s o m p i = (s1, .ok) → ParamOk m p := by
    intro m i hm h
    obtain ⟨iv, rfl, hl⟩ := cbcInit_param h
    rcases hm with rfl | rfl <;> exact hl
  have pl : ∀ m t i, (m = .rsaX509 ∨ m = .rsaPkcs ∨ m = .ecdsa) → plainInit s o t m p i = (s1, .ok) → ParamOk m p := by
    intro m t i hm h
    have := plainInit_param h
    subst this
    rcases hm with rfl | rfl | rfl <;> rfl
  have hm : ∀ a i, hmacInit x s o a p i = (s1, .ok) → ParamOk (.hmac a) p := by
    intro a i h
    have := hmacInit_param h
    subst this
    rfl
  cases kd <;> cases m <;> try (cases h; done)
  all_goals first
    | exact gcmInit_param hs h
    | exact oaepInit_param h
    | exact pssInit_param hs h
    | exact cbc _ _ (by simp) h
    | exact pl _ _ _ (by simp) h
    | exact hm _ _ h

/-- **C83** is violated: the salt length 2^64 - 2 becomes -2, which is accepted and handed to
wolfCrypt, where it means any salt length; a tag of 2^32 + 8 bits is accepted as one of 8
bits, and one of 2^64 - 8 bits as one of -8. -/
theorem c83_violated (x : Crypto) (s : OpSt) (o : Obj) (hr : o.typ = CKK_RSA) (o' : Obj) (ha : o'.typ = CKK_AES) (h m : HashAlg) :
    (let r := verifyInit x s o .rsaPss (.pss (some h) (some m) (2 ^ 64 - 2))
     r.2 = .ok ∧ r.1.pss.saltLen = -2) ∧
    (let r := encryptInit s o' .aesGcm (.gcm [] none (2 ^ 32 + 8))
     r.2 = .ok ∧ r.1.gcm.tagSz = 1) ∧
    (let r := encryptInit s o' .aesGcm (.gcm [] none (2 ^ 64 - 8))
     r.2 = .ok ∧ r.1.gcm.tagBits = -8) ∧
    ¬ ParamOk .rsaPss (.pss (some h) (some m) (2 ^ 64 - 2)) ∧ ¬ ParamOk .aesGcm (.gcm [] none (2 ^ 32 + 8)) := by
  refine ⟨?_, ?_, ?_, ?_, ?_⟩
  · simp only [verifyInit, pssInit, hr]
    exact ⟨rfl, rfl⟩
  · simp only [encryptInit, gcmInit, ha]
    exact ⟨rfl, rfl⟩
  · simp only [encryptInit, gcmInit, ha]
    exact ⟨rfl, rfl⟩
  · show ¬ (_ ≤ _); omega
  · show ¬ (_ ∧ _); omega

/-- An Init that fails changes nothing of the session, unless it is refused late. -/
theorem initCall_refused {x : Crypto} {kd : Kind} {s : OpSt} {o : Obj} {m : Mech} {p : MechParam}
    (h : (initCall x kd s o m p).2 ≠ .ok) (hm : ¬ RefusedLate m p (initCall x kd s o m p).2) : (initCall x kd s o m p).1 = s := by
  have pl : ∀ t i, (plainInit s o t m p i).2 ≠ .ok → (plainInit s o t m p i).1 = s := by
    intro t i h
    unfold plainInit at h ⊢
    split at h
    · rename_i h1; rw [if_pos h1]
    rename_i h1
    rw [if_neg h1]
    split at h
    · rename_i h2; rw [if_pos h2]
    · exact absurd rfl h
  have cbc : ∀ i, (cbcInit s o m p i).2 ≠ .ok → (cbcInit s o m p i).2 ≠ .functionFailed → (cbcInit s o m p i).1 = s := by
    intro i
    unfold cbcInit
    repeat' split
    all_goals intro h h'
    all_goals first
      | rfl
      | exact absurd rfl h
      | exact absurd rfl h'
  have gcm : ∀ i, (gcmInit s o p i).2 ≠ .ok → (gcmInit s o p i).1 = s := by
    intro i
    unfold gcmInit
    repeat' split
    all_goals intro h
    all_goals first
      | rfl
      | exact absurd rfl h
  have hmac : ∀ a i, (hmacInit x s o a p i).2 ≠ .ok → (hmacInit x s o a p i).2 ≠ .functionFailed → (hmacInit x s o a p i).1 = s := by
    intro a i
    unfold hmacInit
    dsimp only
    repeat' split
    all_goals intro h h'
    all_goals first
      | rfl
      | exact absurd rfl h
      | exact absurd rfl h'
  have oaep : ∀ i, (oaepInit s o p i).2 ≠ .ok → ¬ RefusedLate .rsaOaep p (oaepInit s o p i).2 → (oaepInit s o p i).1 = s := by
    intro i
    unfold oaepInit
    dsimp only
    repeat' split
    all_goals intro h h'
    all_goals first
      | rfl
      | exact absurd rfl h
      | exact absurd rfl h'
  have pss : ∀ i, (pssInit s o p i).2 ≠ .ok → ¬ RefusedLate .rsaPss p (pssInit s o p i).2 → (pssInit s o p i).1 = s := by
    intro i
    unfold pssInit
    dsimp only
    repeat' split
    all_goals intro h h'
    all_goals first
      | rfl
      | exact absurd rfl h
      | exact absurd rfl h'
  cases kd <;> cases m <;> first
    | exact pl _ _ h
    | exact cbc _ h hm
    | exact gcm _ h
    | exact hmac _ _ h hm
    | exact oaep _ h hm
    | exact pss _ h hm
    | rfl

theorem handle_inj {ss : List Session} (h : (handles ss).Nodup) {p q : Session} (hp : p ∈ ss) (hq : q ∈ ss)
    (hu : p.handle = q.handle) : p = q := by
  induction ss with
  | nil => cases hp
  | cons o os ih =>
    simp only [handles, List.map_cons, List.nodup_cons] at h
    rcases List.mem_cons.mp hp with rfl | hp' <;> rcases List.mem_cons.mp hq with rfl | hq'
    · rfl
    · exact absurd (List.mem_map.mpr ⟨q, hq', hu.symm⟩) h.1
    · exact absurd (List.mem_map.mpr ⟨p, hp', hu⟩) h.1
    · exact ih h.2 hp' hq'

theorem initCall_no_ub (x : Crypto) (kd : Kind) (s : OpSt) (o : Obj) (m : Mech) (p : MechParam) :
    (initCall x kd s o m p).2 ≠ .ub := by
  have pl : ∀ t m i, (plainInit s o t m p i).2 ≠ .ub := by
    intro t m i
    unfold plainInit OpSt.started
    repeat' split
    all_goals simp
  have cbc : ∀ m i, (cbcInit s o m p i).2 ≠ .ub := by
    intro m i
    unfold cbcInit OpSt.started
    repeat' split
    all_goals simp
  have gcm : ∀ i, (gcmInit s o p i).2 ≠ .ub := by
    intro i
    unfold gcmInit OpSt.started
    repeat' split
    all_goals simp
  have oaep : ∀ i, (oaepInit s o p i).2 ≠ .ub := by
    intro i
    unfold oaepInit OpSt.started
    dsimp only
    repeat' split
    all_goals simp
  have pss : ∀ i, (pssInit s o p i).2 ≠ .ub := by
    intro i
    unfold pssInit OpSt.started
    dsimp only
    repeat' split
    all_goals simp
  have hmac : ∀ a i, (hmacInit x s o a p i).2 ≠ .ub := by
    intro a i
    unfold hmacInit OpSt.started
    dsimp only
    repeat' split
    all_goals simp
  cases kd <;> cases m <;> first
    | exact pl _ _ _
    | exact cbc _ _
    | exact gcm _
    | exact oaep _
    | exact pss _
    | exact hmac _ _
    | exact (fun h => by cases h)

/-- C71: an Init that fails leaves the library as it is: whatever is called afterwards,
in particular the data calls of an operation that was running, answers as if the Init had
not been made.
Missing: the refusals of `RefusedLate` (`c71_violated`, `c71_violated_nonce`, `c71_violated_key`). -/
theorem c71_partial {l₀ : Lib} (h₀ : Start l₀) (cs : List Call) (h k : Nat) (kd : Kind) (m : Mech) (p : MechParam)
    (hf : (answer e (run e l₀ cs) (.sess h (.cryptInit kd (some (m, p)) k))).rv ≠ .ok)
    (hm : ¬ RefusedLate m p (answer e (run e l₀ cs) (.sess h (.cryptInit kd (some (m, p)) k))).rv)
    (hu : (answer e (run e l₀ cs) (.sess h (.cryptInit kd (some (m, p)) k))).rv ≠ .ub) (cs' : List Call) (c : Call) :
    answer e (run e l₀ (cs ++ .sess h (.cryptInit kd (some (m, p)) k) :: cs')) c = answer e (run e l₀ (cs ++ cs')) c := by
  have hi := h₀.sinv.run e cs
  rw [run_append, run_append]
  generalize run e l₀ cs = l at *
  suffices h : (step e l (.sess h (.cryptInit kd (some (m, p)) k))).1 = l by
    show answer e (run e (step e l _).1 cs') c = _
    rw [h]
  cases hb : l.bad with
  | true => rw [step_bad hb]
  | false =>
    unfold answer at hf hu hm
    rw [step_resp hb] at hf hu hm
    have key : (callBody e l (.sess h (.cryptInit kd (some (m, p)) k))).2.rv ≠ .ub ∧
        (callBody e l (.sess h (.cryptInit kd (some (m, p)) k))).1 = l := by
      refine ⟨hu, ?_⟩
      simp only [callBody] at hf hu hm ⊢
      split
      · rfl
      rename_i hc
      rw [if_neg hc] at hf hu hm
      cases hs : getSession l h with
      | none => rfl
      | some s =>
        rw [hs] at hf hu hm
        simp only [sessCall, cCryptInit] at hf hu hm ⊢
        cases hfo : findObj l s k with
        | none => rfl
        | some o =>
          rw [hfo] at hf hu hm
          dsimp only at hf hu hm ⊢
          by_cases hub : (initCall e.crypto kd s.op o m p).2 = .ok ∧ o.cls = CKO_CERTIFICATE
          · rw [if_pos hub] at hu; exact absurd rfl hu
          rw [if_neg hub] at hf hm ⊢
          dsimp only at hf hm ⊢
          rw [initCall_refused hf hm]
          simp only [if_neg hf]
          unfold Lib.upd
          have : (l.sessions.map fun u => if u.handle = s.handle then { u with op := s.op, curr := u.curr } else u) = l.sessions := by
            refine (List.map_congr_left ?_).trans (List.map_id _)
            intro u hu
            split
            · rename_i he
              have : u = s := handle_inj hi.nodup hu (getSession_handle hs).2.2 he
              subst this
              rfl
            · rfl
          rw [this]
    rw [step_eq hb key.1, key.2]

/-- C48 for RSA-OAEP with a label: one Init encrypts one message.  The label is freed after the first
`C_Encrypt` that succeeds, its length is kept, and wolfCrypt refuses a label that is missing (`hx`): so every
later `C_Encrypt` with a large enough buffer fails, and writes nothing.  It does not say that no operation is
active. -/
theorem c48_oaep_label (x : Crypto) (s : OpSt) (o : Obj) (h m : HashAlg) (lab : Bytes) (hl : lab ≠ []) (ho : o.typ = CKK_RSA)
    (hx : ∀ k h m n d rnd, n ≠ 0 → x.rsa.encOaep k h m none n d rnd = none) (d d' w : Bytes) (n n' rnd rnd' : Nat)
    (hw : (encrypt x (encryptInit s o .rsaOaep (.oaep (some h) (some m) true (some lab))).1 (some o) (some d) (.buf n) rnd).2 = ⟨.ok, w, some w.length⟩)
    (hn : o.rsa.keyLen ≤ n') :
    x.rsa.encOaep o.rsa h m (some lab) lab.length d rnd = some w ∧
    (encrypt x (encrypt x (encryptInit s o .rsaOaep (.oaep (some h) (some m) true (some lab))).1 (some o) (some d) (.buf n) rnd).1
      (some o) (some d') (.buf n') rnd').2 = { rv := .functionFailed } := by
  have hini : (encryptInit s o .rsaOaep (.oaep (some h) (some m) true (some lab))).1 =
      { s with oaep := { hash := h, mgf := m, unset := false, label := some lab, labelSz := lab.length }, mech := .rsaOaep,
               init := .rsaOaepEnc } := by
    simp [encryptInit, oaepInit, ho, setOaep, OpSt.started]
  have hl' : lab.length ≠ 0 := fun h => hl (List.eq_nil_of_length_eq_zero h)
  rw [hini] at hw ⊢
  by_cases hk : o.rsa.keyLen > n
  · simp [encrypt, withArgs, needInit, sized, hk] at hw
  cases hr : x.rsa.encOaep o.rsa h m (some lab) lab.length d rnd with
  | none => simp [encrypt, withArgs, needInit, sized, hk, oaepEnc, hr, oaepDone, finish] at hw
  | some v =>
    simp [encrypt, withArgs, needInit, sized, hk, oaepEnc, hr, oaepDone, finish] at hw
    obtain rfl := hw.1
    refine ⟨rfl, ?_⟩
    have hk' : ¬ o.rsa.keyLen > n' := by omega
    simp [encrypt, withArgs, needInit, sized, hk, hk', oaepEnc, hr, oaepDone, finish, hx _ _ _ _ _ _ hl']

/-- The same for decryption. -/
theorem c48_oaep_label_decrypt (x : Crypto) (s : OpSt) (o : Obj) (h m : HashAlg) (lab : Bytes) (hl : lab ≠ []) (ho : o.typ = CKK_RSA)
    (hx : ∀ k h m n d, n ≠ 0 → x.rsa.decOaep k h m none n d = none) (d d' w : Bytes) (n n' rnd rnd' : Nat)
    (hw : (decrypt x (decryptInit s o .rsaOaep (.oaep (some h) (some m) true (some lab))).1 (some o) (some d) (.buf n) rnd).2 = ⟨.ok, w, some w.length⟩)
    (hn : o.rsa.keyLen ≤ n') :
    x.rsa.decOaep o.rsa h m (some lab) lab.length d = some w ∧
    (decrypt x (decrypt x (decryptInit s o .rsaOaep (.oaep (some h) (some m) true (some lab))).1 (some o) (some d) (.buf n) rnd).1
      (some o) (some d') (.buf n') rnd').2 = { rv := .functionFailed } := by
  have hini : (decryptInit s o .rsaOaep (.oaep (some h) (some m) true (some lab))).1 =
      { s with oaep := { hash := h, mgf := m, unset := false, label := some lab, labelSz := lab.length }, mech := .rsaOaep,
               init := .rsaOaepDec } := by
    simp [decryptInit, oaepInit, ho, setOaep, OpSt.started]
  have hl' : lab.length ≠ 0 := fun h => hl (List.eq_nil_of_length_eq_zero h)
  rw [hini] at hw ⊢
  by_cases hk : o.rsa.keyLen > n
  · simp [decrypt, withArgs, needInit, sized, hk] at hw
  cases hr : x.rsa.decOaep o.rsa h m (some lab) lab.length d with
  | none => simp [decrypt, withArgs, needInit, sized, hk, oaepDec, hr, oaepDone, finish] at hw
  | some v =>
    simp [decrypt, withArgs, needInit, sized, hk, oaepDec, hr, oaepDone, finish] at hw
    obtain rfl := hw.1
    refine ⟨rfl, ?_⟩
    have hk' : ¬ o.rsa.keyLen > n' := by omega
    simp [decrypt, withArgs, needInit, sized, hk, hk', oaepDec, hr, oaepDone, finish, hx _ _ _ _ _ hl']

/-! ### Non-vacuity and violation -/

namespace Demo

/-- Toy OAEP that refuses a label that is missing. -/
def needsLabel : Crypto := { Demo.x with rsa := { blockRsa with
  encOaep := fun _ _ _ lab n d _ => if lab = none ∧ n ≠ 0 then none else some (lab.getD [] ++ d)
  decOaep := fun _ _ _ lab n d => if lab = none ∧ n ≠ 0 then none else some (d.drop (lab.getD []).length) } }

/-- Non-vacuity of `c48_oaep_label` and `c48_oaep_label_decrypt`. -/
example :
    let o : Obj := { typ := CKK_RSA, cls := CKO_PUBLIC_KEY, data := .rsa {} }
    let p : MechParam := .oaep (some .sha256) (some .sha1) true (some [7, 8])
    (∀ k h m n d rnd, n ≠ 0 → needsLabel.rsa.encOaep k h m none n d rnd = none) ∧
    (∀ k h m n d, n ≠ 0 → needsLabel.rsa.decOaep k h m none n d = none) ∧
    (encrypt needsLabel (encryptInit {} o .rsaOaep p).1 (some o) (some [1, 2, 3]) (.buf 64) 0).2 = ⟨.ok, [7, 8, 1, 2, 3], some 5⟩ ∧
    (decrypt needsLabel (decryptInit {} o .rsaOaep p).1 (some o) (some [7, 8, 1, 2, 3]) (.buf 64) 0).2 = ⟨.ok, [1, 2, 3], some 3⟩ :=
  ⟨fun _ _ _ _ _ _ h => by simp [needsLabel, h], fun _ _ _ _ _ h => by simp [needsLabel, h], by decide, by decide⟩

/-- Toy OAEP that puts the label in front. -/
def labelEnv : Env := { pairEnv with
  crypto := { Demo.x with rsa := { blockRsa with
    encOaep := fun _ _ _ lab _ d _ => some (lab.getD [] ++ d) } } }

def oaepGen : Call := Verif.pairCall 65538 .rsaKeyPairGen (.null 0) (.of .encrypt [1] :: rsaPub) [.of .decrypt [1]]

def oaepInit (h : Option HashAlg) (lab : Option Bytes) : Call :=
  .sess 65538 (.cryptInit .encrypt (some (.rsaOaep, .oaep h (some .sha1) true lab)) 1)

def oaepEncrypt : Call := .sess 65538 (.crypt (.encrypt (some [5]) (.buf 8) 0))

set_option maxRecDepth 20000 in
/-- **C71** is violated: an OAEP encryption with the label 7 is running; an Init with an
unknown hash function is refused; the encryption then fails. -/
theorem c71_violated :
    let cs := setup ++ [oaepGen, oaepInit (some .sha256) (some [7])]
    (answer labelEnv (run labelEnv fresh (setup ++ [oaepGen])) (oaepInit (some .sha256) (some [7]))).rv = .ok ∧
    (answer labelEnv (run labelEnv fresh cs) (oaepInit none none)).rv = .mechanismParamInvalid ∧
    (answer labelEnv (run labelEnv fresh (cs ++ [])) oaepEncrypt).out = some { rv := .ok, wr := [7, 5], len := some 2 } ∧
    (answer labelEnv (run labelEnv fresh (cs ++ oaepInit none none :: [])) oaepEncrypt).out =
      some { rv := .functionFailed, len := none } := by decide

/-- Start an encryption with AES-GCM. -/
def gcmStart (nonce : Bytes) : Call := .sess 65538 (.cryptInit .encrypt (some (.aesGcm, .gcm nonce none 128)) 3)

/-- Start a signature with RSA-PSS whose salt is too long. -/
def pssRefused : Call := .sess 65538 (.cryptInit .sign (some (.rsaPss, .pss (some .sha256) (some .sha256) 63)) 1)

/-- Encrypt two bytes. -/
def gcmEncrypt : Call := .sess 65538 (.crypt (.encrypt (some [5, 6]) (.buf 64) 0))

/-- An RSA key pair and an AES key. -/
def rsaAndAes : List Call := setup ++ [oaepGen, createCall 65538 (aesTmpl false 7)]

set_option maxRecDepth 20000 in
/-- **C71** is violated, and the nonce of AES-GCM is lost: two encryptions are started under
two nonces; a signature that is refused because its salt is too long replaces the nonce by
the numbers of its hash functions, so that both give the same ciphertext. -/
theorem c71_violated_nonce :
    let n1 : Bytes := [1, 2, 3, 4, 5, 6, 7, 8, 9, 10, 11, 12]
    let n2 : Bytes := [21, 22, 23, 24, 25, 26, 27, 28, 29, 30, 31, 32]
    (answer pairEnv (run pairEnv fresh (rsaAndAes ++ [gcmStart n1])) pssRefused).rv = .mechanismParamInvalid ∧
    (answer pairEnv (run pairEnv fresh (rsaAndAes ++ [gcmStart n1])) gcmEncrypt).rv = .ok ∧
    (answer pairEnv (run pairEnv fresh (rsaAndAes ++ [gcmStart n1])) gcmEncrypt).out ≠
      (answer pairEnv (run pairEnv fresh (rsaAndAes ++ [gcmStart n2])) gcmEncrypt).out ∧
    (answer pairEnv (run pairEnv fresh (rsaAndAes ++ [gcmStart n1, pssRefused])) gcmEncrypt).rv = .ok ∧
    (answer pairEnv (run pairEnv fresh (rsaAndAes ++ [gcmStart n1, pssRefused])) gcmEncrypt).out =
      (answer pairEnv (run pairEnv fresh (rsaAndAes ++ [gcmStart n2, pssRefused])) gcmEncrypt).out :=
  ⟨by decide, by decide, by decide, by decide, by decide⟩

set_option maxRecDepth 20000 in
/-- **C71** is violated, and behaviour is undefined: a refused Init with OAEP clears the start of
the AES key of the encryption in progress. -/
theorem c71_violated_ub :
    let start : Call := .sess 65538 (.cryptInit .encrypt (some (.aesCbc, .raw (List.replicate 16 0))) 3)
    let data : Call := .sess 65538 (.crypt (.encrypt (some (List.replicate 16 5)) (.buf 16) 0))
    (answer pairEnv (run pairEnv fresh (rsaAndAes ++ [start])) data).rv = .ok ∧
    (answer pairEnv (run pairEnv fresh (rsaAndAes ++ [start])) (oaepInit none none)).rv = .mechanismParamInvalid ∧
    (answer pairEnv (run pairEnv fresh (rsaAndAes ++ [start, oaepInit none none])) data).rv = .ub :=
  ⟨by decide, by decide, by decide⟩

/-- An AES key of five bytes. -/
def shortKey : Call := createCall 65538 [.of .cls (ulong CKO_SECRET_KEY), .of .keyType (ulong CKK_AES), .of .value [1, 2, 3, 4, 5]]

set_option maxRecDepth 20000 in
/-- **C71** is violated, and behaviour is undefined: an Init with a key whose length is not one of AES
is refused, and the `Aes` object of the encryption in progress is a new one without a key. -/
theorem c71_violated_key :
    let start (k : Nat) : Call := .sess 65538 (.cryptInit .encrypt (some (.aesCbc, .raw (List.replicate 16 0))) k)
    let data : Call := .sess 65538 (.crypt (.encrypt (some (List.replicate 16 5)) (.buf 16) 0))
    let cs := rsaAndAes ++ [shortKey, start 3]
    (answer pairEnv (run pairEnv fresh cs) data).rv = .ok ∧
    (answer pairEnv (run pairEnv fresh cs) (start 4)).rv = .functionFailed ∧
    (answer pairEnv (run pairEnv fresh (cs ++ [start 4])) data).rv = .ub :=
  ⟨by decide, by decide, by decide⟩

set_option maxRecDepth 20000 in
/-- Non-vacuity of `c71_partial` for a mechanism that may be refused late: a signature with RSA-PSS and an
AES key is refused because of the key while an AES-GCM encryption is running, which goes on as before. -/
example :
    let cs := rsaAndAes ++ [gcmStart [1, 2, 3, 4, 5, 6, 7, 8, 9, 10, 11, 12]]
    let refused : Call := .sess 65538 (.cryptInit .sign (some (.rsaPss, .pss (some .sha256) (some .sha256) 63)) 3)
    (answer pairEnv (run pairEnv fresh cs) refused).rv = .keyTypeInconsistent ∧
    ¬ RefusedLate .rsaPss (.pss (some .sha256) (some .sha256) 63) .keyTypeInconsistent ∧
    (answer pairEnv (run pairEnv fresh (cs ++ refused :: [])) gcmEncrypt).rv = .ok :=
  ⟨by decide, (fun h => by cases h), by decide⟩

set_option maxRecDepth 20000 in
/-- Non-vacuity of `c71_partial`: an encryption with AES-CBC and a wrong IV is refused while
an RSA encryption is running. -/
example :
    let cs := setup ++ [oaepGen, .sess 65538 (.cryptInit .encrypt (some (.rsaPkcs, .null 0)) 1)]
    ¬ RefusedLate .aesCbc (.raw [1]) (answer pairEnv (run pairEnv fresh cs) (.sess 65538 (.cryptInit .encrypt (some (.aesCbc, .raw [1])) 1))).rv ∧
    (answer pairEnv (run pairEnv fresh cs) (.sess 65538 (.cryptInit .encrypt (some (.aesCbc, .raw [1])) 1))).rv ≠ .ok ∧
    (answer pairEnv (run pairEnv fresh (cs ++ .sess 65538 (.cryptInit .encrypt (some (.aesCbc, .raw [1])) 1) :: []))
      (.sess 65538 (.crypt (.encrypt (some [5, 6]) (.buf 8) 0)))).rv = .ok :=
  ⟨by unfold RefusedLate; decide, by decide, by decide⟩

/-- Non-vacuity of `c83_partial`. -/
example :
    (signInit Demo.x {} demoRsa .rsaPss (.pss (some .sha256) (some .sha1) 32)).2 = .ok ∧
    SmallNumbers (.pss (some .sha256) (some .sha1) 32) ∧
    (signInit Demo.x {} demoRsa .rsaPss (.pss (some .sha256) (some .sha1) 63)).2 = .mechanismParamInvalid :=
  ⟨by decide, by show _ < _; decide, by decide⟩

end Demo
end Verif
