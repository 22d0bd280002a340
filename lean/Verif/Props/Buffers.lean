import Verif.Props.BufHist

/-!
# C143: the data calls of all other mechanisms keep to the output buffer
-/

namespace Verif

variable {e : Env} {x : Crypto}

/-! ## The size of the digest -/

/-- The operation is one of HMAC. -/
def OpInit.IsMac (i : OpInit) : Prop := i = .hmacSign ∨ i = .hmacVerify

/-- While HMAC is in progress the size kept is that of its digest. -/
def OpSt.MacOk (x : Crypto) (s : OpSt) : Prop :=
  s.init.IsMac → (∃ a, s.mech = .hmac a) ∧ s.hmac.size = x.mac.size s.hmac.alg

/-- The function and the size of HMAC are as before. -/
def SameMac (s : OpSt) (r : OpSt × Out) : Prop := r.1.hmac.alg = s.hmac.alg ∧ r.1.hmac.size = s.hmac.size

theorem sameMac_refl (s : OpSt) (o : Out) : SameMac s (s, o) := ⟨rfl, rfl⟩

theorem sameMac_withArgs {s : OpSt} {curr : Option Obj} {d : Option Bytes} {ob : OutBuf}
    {f : Obj → Bytes → OpSt × Out} (h : ∀ o d, SameMac s (f o d)) : SameMac s (withArgs s curr d ob f) := by
  unfold withArgs
  repeat' split
  all_goals first | exact sameMac_refl _ _ | exact h _ _

theorem sameMac_needInit {s : OpSt} {i : OpInit} {k : OpSt × Out} (h : SameMac s k) : SameMac s (needInit s i k) := by
  unfold needInit
  repeat' split
  all_goals first | exact sameMac_refl _ _ | exact h

theorem sameMac_sized {s : OpSt} {ob : OutBuf} {n : Nat} {k : OpSt × Out} (h : SameMac s k) : SameMac s (sized s ob n k) := by
  unfold sized
  repeat' split
  all_goals first | exact sameMac_refl _ _ | exact h

theorem sameMac_finish {s s' : OpSt} {r : Option Bytes} (h : s'.hmac = s.hmac) : SameMac s (finish s' r) := by
  unfold finish; split <;> exact ⟨congrArg _ h, congrArg _ h⟩

theorem sameMac_finishSig {s s' : OpSt} {n : Nat} {r : Option Bytes} (h : s'.hmac = s.hmac) : SameMac s (finishSig s' n r) := by
  unfold finishSig; split <;> exact ⟨congrArg _ h, congrArg _ h⟩

theorem sameMac_finishVerify {s s' : OpSt} {r : Option Bool} (h : s'.hmac = s.hmac) : SameMac s (finishVerify s' r) := by
  unfold finishVerify; split <;> exact ⟨congrArg _ h, congrArg _ h⟩

theorem run_sameMac (x : Crypto) (s : OpSt) (curr : Option Obj) (c : DataCall) : SameMac s (c.run x s curr) := by
  cases c <;> simp only [DataCall.run, encrypt, encryptUpdate, encryptFinal, decrypt, decryptUpdate,
    decryptFinal, sign, signUpdate, macUpdate, signFinal, verify, verifyUpdate, verifyFinal]
  case verify d sg =>
    split
    · exact sameMac_refl _ _
    · apply sameMac_withArgs
      intro o d
      split <;> first
        | exact sameMac_refl _ _
        | (apply sameMac_needInit; repeat' split
           all_goals first | exact sameMac_refl _ _ | exact sameMac_finishVerify rfl)
  all_goals
    apply sameMac_withArgs; intro o d
    split <;> first
      | exact sameMac_refl _ _
      | (apply sameMac_needInit; first
          | exact ⟨rfl, rfl⟩ | exact sameMac_finishVerify rfl
          | (unfold cbcFinal; repeat' split
             all_goals exact ⟨rfl, rfl⟩)
          | (split <;> first | exact ⟨rfl, rfl⟩ | exact sameMac_finish rfl)
          | (split
             · exact ⟨rfl, rfl⟩
             · split <;> exact ⟨rfl, rfl⟩))
      | (apply sameMac_needInit; apply sameMac_sized; first
          | exact ⟨rfl, rfl⟩
          | exact sameMac_finish rfl
          | exact sameMac_finishSig rfl
          | (unfold oaepDone; split <;> exact sameMac_finish rfl)
          | (unfold gcmDecrypt; split <;> first | exact ⟨rfl, rfl⟩ | exact sameMac_finish rfl)
          | (split <;> first | exact ⟨rfl, rfl⟩ | exact sameMac_finish rfl))
      | (apply sameMac_needInit; split
         · exact sameMac_refl _ _
         · apply sameMac_sized; split <;> first | exact sameMac_refl _ _ | exact sameMac_finishSig rfl)
      | (apply sameMac_needInit; split
         · exact ⟨rfl, rfl⟩
         · split
           · split <;> exact ⟨rfl, rfl⟩
           · exact ⟨rfl, rfl⟩)

theorem not_isMac_none : ¬ OpInit.none.IsMac := by unfold OpInit.IsMac; simp

theorem not_isMac_tear (i : OpInit) : ¬ i.tear.IsMac := by
  unfold OpInit.IsMac
  cases i <;> simp [OpInit.tear]

theorem OpSt.MacOk.run {s : OpSt} (h : s.MacOk x) (curr : Option Obj) (c : DataCall) : (c.run x s curr).1.MacOk x := by
  intro hi
  obtain ⟨h1, h2⟩ := run_keeps x s curr c
  obtain ⟨h3, h4⟩ := run_sameMac x s curr c
  rcases h2 with h2 | h2
  · rw [h2] at hi
    obtain ⟨⟨a, ha⟩, hs⟩ := h hi
    exact ⟨⟨a, by rw [h1]; exact ha⟩, by rw [h3, h4]; exact hs⟩
  · rw [h2] at hi; exact absurd hi not_isMac_none

theorem OpSt.MacOk.same {s s' : OpSt} (h : s.MacOk x) (h1 : s'.mech = s.mech) (h2 : s'.init = s.init ∨ ¬ s'.init.IsMac)
    (h3 : s'.hmac = s.hmac) : s'.MacOk x := by
  intro hi
  rcases h2 with h2 | h2
  · obtain ⟨⟨a, ha⟩, hs⟩ := h (h2 ▸ hi)
    exact ⟨⟨a, by rw [h1]; exact ha⟩, by rw [h3]; exact hs⟩
  · exact absurd hi h2

theorem OpSt.MacOk.final {s : OpSt} (h : s.MacOk x) : (opFinal s).MacOk x := by
  unfold opFinal
  split
  all_goals first | exact h | exact h.same rfl (.inl rfl) rfl | exact h.same rfl (.inr not_isMac_none) rfl

theorem macOk_mark {s : OpSt} : s.mark.MacOk x := fun hi => absurd hi (not_isMac_tear _)

theorem OpSt.MacOk.tear {s : OpSt} (h : s.MacOk x) (w : Bool) : (s.tear w).MacOk x := by
  unfold OpSt.tear
  repeat' split
  all_goals first | exact h | exact macOk_mark

theorem OpSt.MacOk.pssOver {s : OpSt} (h : s.MacOk x) (a b : Option HashAlg) (n : Int) : (s.pssOver a b n).MacOk x := by
  unfold OpSt.pssOver
  repeat' split
  all_goals first | exact h | exact macOk_mark | exact h.same rfl (.inl rfl) rfl

theorem OpSt.MacOk.oaepOver {s : OpSt} (h : s.MacOk x) (a : Option HashAlg) : (s.oaepOver a).MacOk x := by
  unfold OpSt.oaepOver
  repeat' split
  all_goals first | exact h | exact macOk_mark | exact h.same rfl (.inl rfl) rfl

theorem OpSt.MacOk.init {s : OpSt} (hs : s.MacOk x) (k : Kind) (o : Obj) (m : Mech) (p : MechParam) :
    (initCall x k s o m p).1.MacOk x := by
  have new : ∀ {s' : OpSt}, ¬ s'.init.IsMac → s'.MacOk x := fun h hi => absurd hi h
  have pl : ∀ t m i, ¬ OpInit.IsMac i → (plainInit s o t m p i).1.MacOk x := by
    intro t m i hi
    unfold plainInit OpSt.started
    repeat' split
    all_goals first | exact hs | exact new hi
  have cbc : ∀ m i, ¬ OpInit.IsMac i → (cbcInit s o m p i).1.MacOk x := by
    intro m i hi
    unfold cbcInit OpSt.started
    repeat' split
    all_goals first | exact hs | exact hs.tear _ | exact new hi
  have gcm : ∀ i, ¬ OpInit.IsMac i → (gcmInit s o p i).1.MacOk x := by
    intro i hi
    unfold gcmInit OpSt.started
    repeat' split
    all_goals first | exact hs | exact new hi
  have oaep : ∀ i, ¬ OpInit.IsMac i → (oaepInit s o p i).1.MacOk x := by
    intro i hi
    unfold oaepInit OpSt.started setOaep
    dsimp only
    repeat' split
    all_goals first | exact hs | exact new hi | exact hs.oaepOver _ | (exfalso; simp_all; done)
  have pss : ∀ i, ¬ OpInit.IsMac i → (pssInit s o p i).1.MacOk x := by
    intro i hi
    unfold pssInit OpSt.started setPss
    dsimp only
    repeat' split
    all_goals first | exact hs | exact new hi | exact hs.pssOver _ _ _ | (exfalso; simp_all; done)
  have hmac : ∀ a i, (hmacInit x s o a p i).1.MacOk x := by
    intro a i
    unfold hmacInit
    split
    · exact hs
    split
    · exact hs
    dsimp only
    unfold HmacSt.start
    by_cases hk : x.mac.keyOk a o.symm = true
    · simp only [hk, if_true, OpSt.started]
      exact fun _ => ⟨⟨a, rfl⟩, rfl⟩
    · simp only [hk, if_false, Bool.false_eq_true]
      unfold OpSt.tear
      dsimp only
      repeat' split
      all_goals first | exact macOk_mark | skip
      all_goals
        intro hi
        obtain ⟨⟨b, hb⟩, _⟩ := hs hi
        simp_all
  have nc : ∀ {i : OpInit}, i ≠ .hmacSign → i ≠ .hmacVerify → ¬ i.IsMac := fun h1 h2 h => h.elim h1 h2
  cases k <;> cases m <;> first
    | exact hs
    | exact pl _ _ _ (nc (by simp) (by simp))
    | exact cbc _ _ (nc (by simp) (by simp))
    | exact gcm _ (nc (by simp) (by simp))
    | exact oaep _ (nc (by simp) (by simp))
    | exact pss _ (nc (by simp) (by simp))
    | exact hmac _ _

theorem macOk_keeps : OpKeeps e (OpSt.MacOk e.crypto) :=
  ⟨fun h => absurd h not_isMac_none, fun h => h.final, fun h curr c => h.run curr c, fun h k o m p => h.init k o m p⟩

/-! ## The data calls -/

theorem respects_fail {ob : OutBuf} {o : Out} (h1 : o.wr = []) (h2 : o.rv ≠ .ok) : Respects ob o := by
  cases ob
  · exact h1
  · exact h1
  · exact ⟨by rw [h1]; exact Nat.zero_le _, fun h => absurd h h2, fun _ => h1⟩

theorem respects_withArgs {s : OpSt} {curr : Option Obj} {d : Option Bytes} {ob ob' : OutBuf} {f : Obj → Bytes → OpSt × Out}
    (h : ∀ o d', d = some d' → Respects ob (f o d').2) : Respects ob (withArgs s curr d ob' f).2 := by
  unfold withArgs
  repeat' split
  all_goals first | exact h _ _ rfl | exact respects_fail rfl (by simp)

theorem respects_needInit {s : OpSt} {i : OpInit} {ob : OutBuf} {k : OpSt × Out} (h : s.init = i → Respects ob k.2) :
    Respects ob (needInit s i k).2 := by
  unfold needInit
  split
  · exact h (by assumption)
  · split <;> exact respects_fail rfl (by simp)

theorem respects_sized {s : OpSt} {ob : OutBuf} {need : Nat} {k : OpSt × Out}
    (h : ∀ n, need ≤ n → Respects (.buf n) k.2) : Respects ob (sized s ob need k).2 := by
  unfold sized
  split
  · exact respects_fail rfl (by simp)
  · rfl
  · rename_i n
    split
    · exact respects_fail rfl (by simp)
    · exact h n (by omega)

theorem respects_finish {s : OpSt} {n : Nat} {r : Option Bytes} (h : ∀ w, r = some w → w.length ≤ n) :
    Respects (.buf n) (finish s r).2 := by
  unfold finish
  split
  · exact respects_fail rfl (by simp)
  · exact ⟨h _ rfl, fun _ => rfl, fun hk => absurd rfl hk⟩

theorem respects_finishSig {s : OpSt} {n m : Nat} {r : Option Bytes} (h : ∀ w, r = some w → w.length ≤ n) :
    Respects (.buf n) (finishSig s m r).2 := by
  unfold finishSig
  split
  · exact respects_fail rfl (by simp)
  · exact ⟨h _ rfl, fun _ => rfl, fun hk => absurd rfl hk⟩

theorem respects_finishVerify {s : OpSt} {r : Option Bool} : Respects .noLen (finishVerify s r).2 := by
  unfold finishVerify
  repeat' split
  all_goals rfl

theorem decodeInt_length {inp w : Bytes} {i j sz : Nat} (h : decodeInt inp i sz = .ok (w, j)) : w.length ≤ sz := by
  unfold decodeInt at h
  split at h
  · rename_i t' l' _ _
    split at h
    · cases h
    split at h
    · cases h
    split at h
    · cases h
    split at h
    · cases h
    · rename_i z hz
      split at h
      · cases h
      dsimp only at h
      generalize (if z = 0 then i + 3 else i + 2) = i' at h
      generalize (if z = 0 then l'.toNat - 1 else l'.toNat) = len at h
      split at h
      · cases h
      · simp only [DecRes.ok.injEq, Prod.mk.injEq] at h
        rw [← h.1]
        simp
        omega
  · cases h

theorem sigDecode_length {inp w : Bytes} {sz : Nat} (h : sigDecode inp sz = .ok w) : w.length ≤ 2 * sz := by
  unfold sigDecode at h
  split at h
  · cases h
  split at h
  · cases h
  split at h
  · cases h
  dsimp only at h
  generalize (if inp.getD 1 0 ≥ 0x80 then 3 else 2) = q at h
  split at h
  · cases h
  split at h
  · cases h
  · cases h
  · rename_i r i hr
    split at h
    · cases h
    split at h
    · cases h
    · cases h
    · rename_i s j hs
      cases h
      have h1 := decodeInt_length hr
      have h2 := decodeInt_length hs
      simp; omega

theorem gcmDecrypt_respects (hx : OutLens x) {s : OpSt} {o : Obj} {d : Bytes} {n : Nat} (hd : d.length < 2 ^ 32)
    (hn : w32sub d.length s.gcm.tagSz ≤ n) : Respects (.buf n) (gcmDecrypt x s o d).2 := by
  unfold gcmDecrypt
  split
  · exact respects_fail rfl (by simp)
  · refine respects_finish fun w hw => ?_
    unfold GcmSt.decrypt at hw
    have := hx.gcmDec _ _ _ _ _ _ _ hw
    rw [this, List.length_take]
    unfold w32sub at hn
    omega

/-- A data call of an operation other than AES-CBC keeps to its buffer. -/
theorem respects_other (hx : OutLens x) {s : OpSt} (hs : s.MacOk x) (h1 : s.mech ≠ .aesCbc) (h2 : s.mech ≠ .aesCbcPad)
    (curr : Option Obj) (c : DataCall) (hc : c.Short s) : Respects c.buf (c.run x s curr).2 := by
  have hmac : ∀ d, s.init = .hmacSign → (x.mac.mac s.hmac.alg s.hmac.key d).length ≤ s.hmac.size := by
    intro d hi
    rw [(hs (.inl hi)).2, (hx.mac _ _ _).1]
    exact Nat.le_refl _
  cases c <;> simp only [DataCall.run, DataCall.buf, encrypt, encryptUpdate, encryptFinal, decrypt, decryptUpdate,
    decryptFinal, sign, signUpdate, macUpdate, signFinal, verify, verifyUpdate, verifyFinal]
  case encrypt d ob rnd =>
    apply respects_withArgs
    rintro o d rfl
    split
    · exact respects_needInit fun _ => respects_sized fun n hn => respects_finish fun w hw =>
        (hx.rsa.raw_len _ _ _ _ _ hw) ▸ hn
    · exact respects_needInit fun _ => respects_sized fun n hn => respects_finish fun w hw =>
        (hx.rsa.encPkcs_len _ _ _ _ hw) ▸ hn
    · refine respects_needInit fun _ => respects_sized fun n hn => respects_finish fun w hw => ?_
      unfold oaepEnc at hw
      split at hw
      · cases hw
      · exact (hx.rsa.encOaep_len _ _ _ _ _ _ _ _ hw) ▸ hn
    · exact absurd (by assumption) h1
    · exact absurd (by assumption) h2
    · rename_i hm
      have hd := hc hm
      refine respects_needInit fun _ => respects_sized fun n hn => respects_finish fun w hw => ?_
      unfold GcmSt.encrypt at hw
      obtain ⟨r, hr, rfl⟩ := Option.map_eq_some_iff.mp hw
      obtain ⟨g1, g2, g3⟩ := hx.gcmEnc _ _ _ _ _ _ _ _ hr
      rw [List.length_append, g2, g3]
      omega
    · exact respects_fail rfl (by simp)
  case encryptUpdate d ob =>
    apply respects_withArgs
    rintro o d rfl
    split
    · exact absurd (by assumption) h1
    · exact absurd (by assumption) h2
    · refine respects_needInit fun _ => respects_sized fun n hn => respects_finish fun w hw => ?_
      unfold GcmSt.encUpdate at hw
      split at hw
      · cases hw
      · rename_i ct tag hr
        cases hw
        rw [(hx.gcmEnc _ _ _ _ _ _ _ _ hr).2.1]
        exact hn
    · exact respects_fail rfl (by simp)
  case encryptFinal ob =>
    apply respects_withArgs
    intro o d _
    split
    · exact absurd (by assumption) h1
    · exact absurd (by assumption) h2
    · refine respects_needInit fun _ => respects_sized fun n hn => respects_finish fun w hw => ?_
      cases hw
      unfold GcmSt.encFinal
      rw [List.length_take]
      omega
    · exact respects_fail rfl (by simp)
  case decrypt d ob rnd =>
    apply respects_withArgs
    rintro o d rfl
    split
    · exact respects_needInit fun _ => respects_sized fun n hn => respects_finish fun w hw =>
        (hx.rsa.raw_len _ _ _ _ _ hw) ▸ hn
    · exact respects_needInit fun _ => respects_sized fun n hn => respects_finish fun w hw =>
        Nat.le_trans (hx.rsa.decPkcs_len _ _ _ hw) hn
    · refine respects_needInit fun _ => respects_sized fun n hn => respects_finish fun w hw => ?_
      unfold oaepDec at hw
      split at hw
      · cases hw
      · exact Nat.le_trans (hx.rsa.decOaep_len _ _ _ _ _ _ _ hw) hn
    · exact absurd (by assumption) h1
    · exact absurd (by assumption) h2
    · rename_i hm
      exact respects_needInit fun _ => respects_sized fun n hn => gcmDecrypt_respects hx (hc hm) hn
    · exact respects_fail rfl (by simp)
  case decryptUpdate d ob =>
    apply respects_withArgs
    rintro o d rfl
    split
    · exact absurd (by assumption) h1
    · exact absurd (by assumption) h2
    · refine respects_needInit fun _ => ?_
      cases ob
      · rfl
      · rfl
      · exact ⟨Nat.zero_le _, fun _ => rfl, fun _ => rfl⟩
    · exact respects_fail rfl (by simp)
  case decryptFinal ob =>
    apply respects_withArgs
    intro o d _
    split
    · exact absurd (by assumption) h1
    · exact absurd (by assumption) h2
    · rename_i hm
      have hd := hc hm
      refine respects_needInit fun _ => respects_sized fun n hn => ?_
      split
      · exact respects_fail rfl (by simp)
      · refine respects_finish fun w hw => ?_
        unfold GcmSt.decFinal GcmSt.decrypt at hw
        have := hx.gcmDec _ _ _ _ _ _ _ hw
        rw [this, List.length_take]
        unfold w32sub at hn
        omega
    · exact respects_fail rfl (by simp)
  case sign d ob rnd =>
    apply respects_withArgs
    rintro o d rfl
    split
    · exact respects_needInit fun _ => respects_sized fun n hn => respects_finishSig fun w hw =>
        (hx.rsa.raw_len _ _ _ _ _ hw) ▸ hn
    · exact respects_needInit fun _ => respects_sized fun n hn => respects_finishSig fun w hw =>
        (hx.rsa.signPkcs_len _ _ _ _ hw) ▸ hn
    · refine respects_needInit fun _ => respects_sized fun n hn => respects_finishSig fun w hw => ?_
      unfold pssSign at hw
      split at hw
      · cases hw
      · exact Nat.le_trans (Nat.le_of_eq (hx.rsa.signPss_len _ _ _ _ _ _ _ hw)) hn
    · refine respects_needInit fun _ => ?_
      split
      · exact respects_fail rfl (by simp)
      · refine respects_sized fun n hn => ?_
        split
        · exact respects_fail rfl (by simp)
        · exact respects_finishSig fun w hw => by cases hw
        · rename_i w hw
          refine respects_finishSig fun v hv => ?_
          cases hv
          unfold ecSign at hw
          split at hw
          · cases hw
          · exact Nat.le_trans (sigDecode_length hw) hn
    · exact respects_needInit fun hi => respects_sized fun n hn => respects_finishSig fun w hw => by
        cases hw; exact Nat.le_trans (hmac _ hi) hn
    · exact respects_fail rfl (by simp)
  case signFinal ob =>
    apply respects_withArgs
    intro o d _
    split
    · exact respects_needInit fun hi => respects_sized fun n hn => respects_finishSig fun w hw => by
        cases hw; exact Nat.le_trans (hmac _ hi) hn
    · exact respects_fail rfl (by simp)
  case verify d sg =>
    split
    · rfl
    · apply respects_withArgs
      intro o d _
      split
      all_goals first
        | rfl
        | (apply respects_needInit; intro _; first
            | exact respects_finishVerify
            | (split
               · rfl
               · exact respects_finishVerify))
  all_goals
    apply respects_withArgs
    intro o d _
    split
    all_goals first
      | rfl
      | (apply respects_needInit; intro _; first | rfl | exact respects_finishVerify)

/-- **C143** (partial for AES-GCM data of 4 GB and more).  Whatever happened before in any session, a data call of an
operation of RSA, ECDSA, HMAC or AES-GCM never writes more bytes than the buffer has, and after `CKR_OK` reports the
number of bytes written. -/
theorem c143_buffers_partial (hx : OutLens e.crypto) {l₀ : Lib} (h₀ : Start l₀) (cs : List Call) (h : Nat) {st : OpSt}
    (hop : operation (run e l₀ cs) h = some st) (h1 : st.mech ≠ .aesCbc) (h2 : st.mech ≠ .aesCbcPad) (d : DataCall)
    (hd : d.Short st) {out : Out} (ho : (answer e (run e l₀ cs) (.sess h (.crypt d))).out = some out) :
    Respects d.buf out := by
  have hi := h₀.sinv.run e cs
  have hf : AllOps (OpSt.MacOk e.crypto) (run e l₀ cs) := AllOps.run h₀.allOps macOk_keeps cs
  generalize run e l₀ cs = l at *
  unfold answer at ho
  cases hb : l.bad with
  | true => rw [step_bad hb] at ho; cases ho
  | false =>
  rw [step_resp hb] at ho
  by_cases hc0 : l.count ≤ 0
  · simp only [callBody, if_pos hc0] at ho; cases ho
  cases hs : getSession l h with
  | none => simp only [callBody, if_neg hc0, hs] at ho; cases ho
  | some s =>
    simp only [callBody, if_neg hc0, hs, sessCall, cCrypt] at ho
    obtain ⟨hsj, _, hsm⟩ := getSession_handle hs
    have hst : s.op = st := by
      unfold operation at hop
      rw [(find_iff hi.nodup).mpr ⟨hsm, hsj⟩] at hop
      exact Option.some.inj hop
    have hsf := hf s hsm
    rw [hst] at ho hsf
    split at ho
    · cases ho; exact respects_other hx hsf h1 h2 _ d hd
    · cases ho; exact respects_other hx hsf h1 h2 _ d hd
    · split at ho
      · cases ho; exact respects_other hx hsf h1 h2 _ d hd
      · cases ho

namespace Demo

/-- The toy cryptography, refusing tags of more than a block. -/
def lenX : Crypto :=
  { Demo.x with gcm := { gcm with enc := fun key iv aad aadSz pt n => if n ≤ 16 then gcm.enc key iv aad aadSz pt n else none } }

theorem lenX_lens : OutLens lenX := by
  refine ⟨rsa_lawful, mac_lawful, ?_, ?_⟩
  · intro key iv aad aadSz pt n ct tag h
    unfold lenX at h
    dsimp only at h
    split at h
    · rename_i hn
      obtain ⟨h1, h2, _⟩ := gcm_lawful key iv aad aadSz pt ct tag n hn h
      exact ⟨hn, h1, h2⟩
    · cases h
  · intro key iv aad aadSz ct tag pt h
    simp only [lenX, gcm] at h
    split at h
    · cases h; rfl
    · cases h

def lenEnv : Env := { env with crypto := lenX }

/-- An AES-GCM encryption that was begun. -/
def gcmOpen : List Call := setup ++ [createCall 65538 (aesTmpl false 1),
  .sess 65538 (.cryptInit .encrypt (some (.aesGcm, .gcm iv none 128)) 1)]

set_option maxRecDepth 20000 in
/-- Non-vacuity of `c143_buffers_partial`: three bytes give nineteen, and a buffer of eighteen is refused. -/
example :
    let l := run lenEnv fresh gcmOpen
    Start fresh ∧ OutLens lenEnv.crypto ∧ (operation l 65538).map (·.mech) = some .aesGcm ∧
    (answer lenEnv l (.sess 65538 (.crypt (.encrypt (some [1, 2, 3]) (.buf 19) 0)))).out.map
      (fun o => (o.rv, o.wr.length, o.len)) = some (.ok, 19, some 19) ∧
    (answer lenEnv l (.sess 65538 (.crypt (.encrypt (some [1, 2, 3]) (.buf 18) 0)))).out = some { rv := .bufferTooSmall } := by
  refine ⟨fresh_start, lenX_lens, by decide, by decide, by decide⟩

/-- C143 fails for AES-GCM data of 4 GB less 16 bytes: the length needed is computed in 32 bits, so that an empty
buffer is large enough. -/
theorem c143_violated_gcm_long :
    OutLens lenX ∧ (encryptInit {} key .aesGcm (.gcm iv none 128)).2 = .ok ∧
    ∀ d : Bytes, d.length = 2 ^ 32 - 16 →
      ¬ Respects (.buf 0) (encrypt lenX (encryptInit {} key .aesGcm (.gcm iv none 128)).1 (some key) (some d) (.buf 0) 0).2 := by
  refine ⟨lenX_lens, by decide, fun d hd h => ?_⟩
  have h1 := h.1
  have hi : (encryptInit {} key .aesGcm (.gcm iv none 128)).1 =
      { mech := .aesGcm, init := .aesGcmEnc, gcm := { iv := iv, tagBits := 128 } } := by decide
  have ht : GcmSt.tagSz { iv := iv, tagBits := 128 } = 16 := by decide
  rw [hi] at h1
  simp only [encrypt, withArgs, needInit, sized, if_true, reduceCtorEq, if_false, ht, GcmSt.encrypt, lenX, gcm,
    Nat.le_refl, Option.map_some, finish, List.length_append, hd] at h1
  split at h1
  · rename_i hc; exact absurd hc (by decide)
  · simp only [List.length_append, hd] at h1; omega

end Demo

end Verif
