import Verif.Props.CbcBuf
import Verif.Proofs.Whole

/-!
# The AES-CBC state of every session is in order
-/

namespace Verif

variable {e : Env}

/-- A 16-byte register and partial block, at most a block buffered, and a valid key. -/
structure Cbc.Good (c : Cbc) : Prop where
  ok : c.Ok
  reg : c.reg.length = 16
  key : c.key.length = 16 ∨ c.key.length = 24 ∨ c.key.length = 32

/-- The operation is one of AES-CBC. -/
def OpInit.IsCbc (i : OpInit) : Prop := i = .aesCbcEnc ∨ i = .aesCbcDec ∨ i = .aesCbcPadEnc ∨ i = .aesCbcPadDec

theorem OpInit.not_isCbc_tear (i : OpInit) : ¬ i.tear.IsCbc := by
  unfold OpInit.IsCbc
  cases i <;> simp [OpInit.tear]

/-- The AES-CBC state is in order, with a valid key while it is used. -/
structure OpSt.Fit (s : OpSt) : Prop where
  ok : s.cbc.Ok
  reg : s.cbc.reg.length = 16
  key : s.init.IsCbc → s.cbc.Good

theorem OpSt.Fit.of_good {s : OpSt} (h : s.cbc.Good) : s.Fit := ⟨h.ok, h.reg, fun _ => h⟩

theorem OpSt.Fit.of_same {s s' : OpSt} (h : s.Fit) (hc : s'.cbc = s.cbc) (hi : s'.init.IsCbc → s.init.IsCbc) : s'.Fit :=
  ⟨hc ▸ h.ok, hc ▸ h.reg, fun h' => hc ▸ h.key (hi h')⟩

theorem fit_new : ({} : OpSt).Fit :=
  ⟨⟨rfl, Nat.zero_le _⟩, rfl, fun h => by unfold OpInit.IsCbc at h; simp at h⟩

/-! ## The operations on the AES-CBC state -/

namespace Cbc

variable {x : Crypto} {c : Cbc} {d : Bytes}

theorem good_final (h : c.Good) : c.final.Good := ⟨⟨h.ok.part, Nat.zero_le _⟩, h.reg, h.key⟩

theorem good_encrypt (hx : x.aes.Lawful) (h : c.Good) : (c.encrypt x.aes d).2.2.Good :=
  ⟨⟨h.ok.part, h.ok.sz⟩, (cbcEnc_length (hx _ h.key) c.reg d h.reg).2, h.key⟩

theorem good_decrypt (hx : x.aes.Lawful) (h : c.Good) {r : Bytes × Nat × Cbc} (hr : c.decrypt x.aes d = some r) : r.2.2.Good := by
  unfold decrypt rawDec at hr
  split at hr
  · cases hr
    exact ⟨⟨h.ok.part, h.ok.sz⟩, (cbcDec_length (hx _ h.key) c.reg d h.reg).2, h.key⟩
  · cases hr

theorem good_encUpdate (hx : x.aes.Lawful) (h : c.Good) : (c.encUpdate x.aes d).2.Good := by
  obtain ⟨e1, e2, e3, w, e4, e5, e6⟩ := encUpdate_spec x.aes c d h.ok
  have l1 := cbcEnc_length (hx _ h.key) c.reg w h.reg
  rw [← e5] at l1
  exact ⟨e1, l1.2, e2 ▸ h.key⟩

theorem good_decUpdate (hx : x.aes.Lawful) (h : c.Good) {r : Bytes × Cbc} (hr : c.decUpdate x.aes d = some r) : r.2.Good := by
  obtain ⟨r', d0, d1, d2, d3, v, d4, d5, d6⟩ := decUpdate_spec x.aes c d h.ok
  rw [hr] at d0; cases d0
  have l1 := cbcDec_length (hx _ h.key) c.reg v h.reg
  rw [← d5] at l1
  exact ⟨d1, l1.2, d2 ▸ h.key⟩

theorem good_padDecUpdate (hx : x.aes.Lawful) (h : c.Good) {r : Bytes × Cbc} (hr : c.padDecUpdate x.aes d = some r) : r.2.Good := by
  obtain ⟨r', d0, d1, d2, d3, v, d4, d5, d6⟩ := padDecUpdate_spec x.aes c d h.ok
  rw [hr] at d0; cases d0
  have l1 := cbcDec_length (hx _ h.key) c.reg v h.reg
  rw [← d5] at l1
  exact ⟨d1, l1.2, d2 ▸ h.key⟩

theorem good_padEncFinal (hx : x.aes.Lawful) (h : c.Good) : (c.padEncFinal x.aes).2.Good := by
  have h1 := h.ok.part
  have h2 := h.ok.sz
  refine ⟨⟨?_, Nat.zero_le _⟩, (cbcEnc_length (hx _ h.key) c.reg _ h.reg).2, h.key⟩
  show (c.part.take c.partSz ++ List.replicate (16 - c.partSz) (UInt8.ofNat (16 - c.partSz))).length = 16
  simp [h1]; omega

theorem good_padEncrypt (hx : x.aes.Lawful) (h : c.Good) : (c.padEncrypt x.aes d).2.Good :=
  good_padEncFinal hx (good_encUpdate hx h)

theorem good_padDecFinal (hx : x.aes.Lawful) (h : c.Good) : (c.padDecFinal x.aes).2.Good := by
  have h1 := h.ok.part
  have h2 := h.ok.sz
  unfold padDecFinal rawDec
  split
  · exact ⟨⟨h1, Nat.zero_le _⟩, h.reg, h.key⟩
  · rename_i r hr
    split at hr
    · cases hr
      have hl := cbcDec_length (hx _ h.key) c.reg (c.part.take c.partSz) h.reg
      refine ⟨⟨?_, Nat.zero_le _⟩, hl.2, h.key⟩
      show (Bytes.write c.part 0 (Spec.cbcDec (x.aes.dec c.key) c.reg (c.part.take c.partSz)).1).length = 16
      rw [Bytes.length_write _ _ _ (by rw [hl.1, List.length_take]; omega), h1]
    · cases hr

theorem good_padDecrypt (hx : x.aes.Lawful) (h : c.Good) : (c.padDecrypt x.aes d).2.1.Good := by
  unfold padDecrypt
  split
  · exact h
  · rename_i r hr
    exact good_padDecFinal hx (good_padDecUpdate hx h hr)

end Cbc

/-! ## Data calls -/

/-- The AES-CBC state is as before or in order with a valid key. -/
def CbcKept (s : OpSt) (r : OpSt × Out) : Prop := r.1.cbc = s.cbc ∨ r.1.cbc.Good

theorem cbcKept_refl (s : OpSt) (o : Out) : CbcKept s (s, o) := .inl rfl

theorem cbcKept_withArgs {s : OpSt} {curr : Option Obj} {d : Option Bytes} {ob : OutBuf}
    {f : Obj → Bytes → OpSt × Out} (h : ∀ o d, CbcKept s (f o d)) : CbcKept s (withArgs s curr d ob f) := by
  unfold withArgs
  repeat' split
  all_goals first | exact cbcKept_refl _ _ | exact h _ _

theorem cbcKept_needInit {s : OpSt} {i : OpInit} {k : OpSt × Out} (h : s.init = i → CbcKept s k) : CbcKept s (needInit s i k) := by
  unfold needInit; split
  · exact h (by assumption)
  · split <;> exact cbcKept_refl _ _

theorem cbcKept_sized {s : OpSt} {ob : OutBuf} {n : Nat} {k : OpSt × Out} (h : CbcKept s k) :
    CbcKept s (sized s ob n k) := by
  unfold sized; repeat' split
  all_goals first | exact cbcKept_refl _ _ | exact h

theorem cbcKept_finish {s s' : OpSt} {r : Option Bytes} (h : s'.cbc = s.cbc ∨ s'.cbc.Good) : CbcKept s (finish s' r) := by
  unfold finish; split <;> exact h

theorem cbcKept_finishSig {s s' : OpSt} {n : Nat} {r : Option Bytes} (h : s'.cbc = s.cbc) : CbcKept s (finishSig s' n r) := by
  unfold finishSig; split <;> exact .inl h

theorem cbcKept_finishVerify {s s' : OpSt} {r : Option Bool} (h : s'.cbc = s.cbc) : CbcKept s (finishVerify s' r) := by
  unfold finishVerify; split <;> exact .inl h

theorem run_cbcKept {x : Crypto} (hx : x.aes.Lawful) {s : OpSt} (hs : s.Fit) (curr : Option Obj) (c : DataCall) :
    CbcKept s (c.run x s curr) := by
  have g1 : s.init = .aesCbcEnc → s.cbc.Good := fun h => hs.key (.inl h)
  have g2 : s.init = .aesCbcDec → s.cbc.Good := fun h => hs.key (.inr (.inl h))
  have g3 : s.init = .aesCbcPadEnc → s.cbc.Good := fun h => hs.key (.inr (.inr (.inl h)))
  have g4 : s.init = .aesCbcPadDec → s.cbc.Good := fun h => hs.key (.inr (.inr (.inr h)))
  cases c <;> simp only [DataCall.run, encrypt, encryptUpdate, encryptFinal, decrypt, decryptUpdate,
    decryptFinal, sign, signUpdate, macUpdate, signFinal, verify, verifyUpdate, verifyFinal]
  case verify d sg =>
    split
    · exact cbcKept_refl _ _
    · apply cbcKept_withArgs
      intro o d
      split <;> first
        | exact cbcKept_refl _ _
        | (apply cbcKept_needInit; intro _; repeat' split
           all_goals first | exact cbcKept_refl _ _ | exact cbcKept_finishVerify rfl)
  case encrypt =>
    apply cbcKept_withArgs; intro o d
    split <;> first
      | exact cbcKept_refl _ _
      | (apply cbcKept_needInit; intro hi; apply cbcKept_sized
         first
          | exact .inr (Cbc.good_encrypt hx (g1 hi))
          | exact cbcKept_finish (.inr (Cbc.good_padEncrypt hx (g3 hi)))
          | exact cbcKept_finish (.inl rfl)
          | (unfold oaepDone; split <;> exact cbcKept_finish (.inl rfl)))
  case encryptUpdate =>
    apply cbcKept_withArgs; intro o d
    split <;> first
      | exact cbcKept_refl _ _
      | (apply cbcKept_needInit; intro hi; apply cbcKept_sized
         first
          | exact cbcKept_finish (.inr (Cbc.good_encUpdate hx (g1 hi)))
          | exact cbcKept_finish (.inr (Cbc.good_encUpdate hx (g3 hi)))
          | exact cbcKept_finish (.inl rfl))
  case encryptFinal =>
    apply cbcKept_withArgs; intro o d
    split
    · apply cbcKept_needInit; intro hi; unfold cbcFinal; repeat' split
      all_goals first | exact .inr (Cbc.good_final (g1 hi)) | exact cbcKept_refl _ _
    · apply cbcKept_needInit; intro hi; apply cbcKept_sized; exact .inr (Cbc.good_padEncFinal hx (g3 hi))
    · apply cbcKept_needInit; intro _; apply cbcKept_sized; exact cbcKept_finish (.inl rfl)
    · exact cbcKept_refl _ _
  case decrypt =>
    apply cbcKept_withArgs; intro o d
    split
    · apply cbcKept_needInit; intro _; apply cbcKept_sized; exact cbcKept_finish (.inl rfl)
    · apply cbcKept_needInit; intro _; apply cbcKept_sized; exact cbcKept_finish (.inl rfl)
    · apply cbcKept_needInit; intro _; apply cbcKept_sized
      unfold oaepDone; split <;> exact cbcKept_finish (.inl rfl)
    · apply cbcKept_needInit; intro hi; apply cbcKept_sized
      split
      · exact .inl rfl
      · rename_i r hr
        exact .inr (Cbc.good_decrypt hx (g2 hi) hr)
    · apply cbcKept_needInit; intro hi
      split
      · exact cbcKept_finish (.inr (Cbc.good_padDecrypt hx (g4 hi)))
      · exact cbcKept_refl _ _
    · apply cbcKept_needInit; intro _; apply cbcKept_sized
      unfold gcmDecrypt; split
      · exact cbcKept_refl _ _
      · exact cbcKept_finish (.inl rfl)
    · exact cbcKept_refl _ _
  case decryptUpdate =>
    apply cbcKept_withArgs; intro o d
    split
    · apply cbcKept_needInit; intro hi; apply cbcKept_sized
      split
      · exact cbcKept_refl _ _
      · rename_i r hr
        exact cbcKept_finish (.inr (Cbc.good_decUpdate hx (g2 hi) hr))
    · apply cbcKept_needInit; intro hi; apply cbcKept_sized
      split
      · exact cbcKept_refl _ _
      · rename_i r hr
        exact cbcKept_finish (.inr (Cbc.good_padDecUpdate hx (g4 hi) hr))
    · apply cbcKept_needInit; intro _
      split <;> exact .inl rfl
    · exact cbcKept_refl _ _
  case decryptFinal =>
    apply cbcKept_withArgs; intro o d
    split
    · apply cbcKept_needInit; intro hi; unfold cbcFinal; repeat' split
      all_goals first | exact .inr (Cbc.good_final (g2 hi)) | exact cbcKept_refl _ _
    · apply cbcKept_needInit; intro hi
      split
      · exact .inr (Cbc.good_final (g4 hi))
      split
      · split <;> exact .inr (Cbc.good_padDecFinal hx (g4 hi))
      · exact cbcKept_refl _ _
    · apply cbcKept_needInit; intro _; apply cbcKept_sized
      split
      · exact cbcKept_refl _ _
      · exact cbcKept_finish (.inl rfl)
    · exact cbcKept_refl _ _
  case sign =>
    apply cbcKept_withArgs; intro o d
    split <;> first
      | exact cbcKept_refl _ _
      | (apply cbcKept_needInit; intro _; apply cbcKept_sized; exact cbcKept_finishSig rfl)
      | (apply cbcKept_needInit; intro _; split
         · exact cbcKept_refl _ _
         · apply cbcKept_sized; split <;> first | exact cbcKept_refl _ _ | exact cbcKept_finishSig rfl)
  all_goals
    apply cbcKept_withArgs; intro o d
    split <;> first
      | exact cbcKept_refl _ _
      | (apply cbcKept_needInit; intro _; first | exact .inl rfl | exact cbcKept_finishVerify rfl)
      | (apply cbcKept_needInit; intro _; apply cbcKept_sized; exact cbcKept_finishSig rfl)
      | (apply cbcKept_needInit; intro _; split <;> exact .inl rfl)

theorem fit_run {x : Crypto} (hx : x.aes.Lawful) {s : OpSt} (hs : s.Fit) (curr : Option Obj) (c : DataCall) :
    (c.run x s curr).1.Fit := by
  rcases run_cbcKept hx hs curr c with h | h
  · refine hs.of_same h fun hi => ?_
    rcases (run_keeps x s curr c).2 with h1 | h1
    · rwa [h1] at hi
    · rw [h1] at hi; unfold OpInit.IsCbc at hi; simp at hi
  · exact .of_good h

theorem fit_final {s : OpSt} (h : s.Fit) : (opFinal s).Fit := by
  unfold opFinal
  split
  · exact h.of_same rfl id
  · exact h.of_same rfl (fun hi => by unfold OpInit.IsCbc at hi; simp at hi)
  · exact h.of_same rfl (fun hi => by unfold OpInit.IsCbc at hi; simp at hi)
  · exact h.of_same rfl id
  · exact h

/-! ## Init calls -/

theorem fit_mark {s : OpSt} (h : s.Fit) : s.mark.Fit := h.of_same rfl fun hi => absurd hi (OpInit.not_isCbc_tear _)

theorem fit_tear {s : OpSt} (h : s.Fit) (w : Bool) : (s.tear w).Fit := by
  unfold OpSt.tear
  repeat' split
  all_goals first | exact h | exact fit_mark h

theorem fit_pssOver {s : OpSt} (h : s.Fit) (a b : Option HashAlg) (n : Int) : (s.pssOver a b n).Fit := by
  unfold OpSt.pssOver
  repeat' split
  all_goals first | exact h | exact fit_mark h | exact h.of_same rfl id

theorem fit_oaepOver {s : OpSt} (h : s.Fit) (a : Option HashAlg) : (s.oaepOver a).Fit := by
  unfold OpSt.oaepOver
  repeat' split
  all_goals first | exact h | exact fit_mark h | exact h.of_same rfl id

theorem fit_init {x : Crypto} (k : Kind) {s : OpSt} (hs : s.Fit) (o : Obj) (m : Mech) (p : MechParam) :
    (initCall x k s o m p).1.Fit := by
  have pl : ∀ t m i, ¬ OpInit.IsCbc i → (plainInit s o t m p i).1.Fit := by
    intro t m i hi
    unfold plainInit OpSt.started
    repeat' split
    all_goals first | exact hs | exact hs.of_same rfl fun h => absurd h hi
  have cbc : ∀ m i, (cbcInit s o m p i).1.Fit := by
    intro m i
    unfold cbcInit OpSt.started
    repeat' split
    all_goals first | exact hs | exact fit_tear hs _ | skip
    rename_i iv hiv _ c hc
    unfold Cbc.setParams at hc
    split at hc
    · cases hc
      rename_i hk
      exact .of_good ⟨⟨hs.ok.part, hs.ok.sz⟩, Decidable.of_not_not hiv, hk⟩
    · cases hc
  have gcm : ∀ i, ¬ OpInit.IsCbc i → (gcmInit s o p i).1.Fit := by
    intro i hi
    unfold gcmInit OpSt.started
    repeat' split
    all_goals first | exact hs | exact hs.of_same rfl fun h => absurd h hi
  have oaep : ∀ i, ¬ OpInit.IsCbc i → (oaepInit s o p i).1.Fit := by
    intro i hi
    unfold oaepInit OpSt.started setOaep
    dsimp only
    repeat' split
    all_goals first | exact hs | exact fit_oaepOver hs _ | exact hs.of_same rfl fun h => absurd h hi | (exfalso; simp_all; done)
  have pss : ∀ i, ¬ OpInit.IsCbc i → (pssInit s o p i).1.Fit := by
    intro i hi
    unfold pssInit OpSt.started setPss
    dsimp only
    repeat' split
    all_goals first | exact hs | exact fit_pssOver hs _ _ _ | exact hs.of_same rfl fun h => absurd h hi | (exfalso; simp_all; done)
  have hmac : ∀ a i, ¬ OpInit.IsCbc i → (hmacInit x s o a p i).1.Fit := by
    intro a i hi
    unfold hmacInit OpSt.started
    dsimp only
    have hs' : ({ s with hmac := (s.hmac.start x.mac a o.symm).2 } : OpSt).Fit := hs.of_same rfl id
    repeat' split
    all_goals first | exact hs | exact fit_tear hs' _ | exact hs.of_same rfl fun h => absurd h hi
  have nc : ∀ {i : OpInit}, i ≠ .aesCbcEnc → i ≠ .aesCbcDec → i ≠ .aesCbcPadEnc → i ≠ .aesCbcPadDec → ¬ i.IsCbc := by
    intro i h1 h2 h3 h4 h
    rcases h with h | h | h | h
    · exact h1 h
    · exact h2 h
    · exact h3 h
    · exact h4 h
  cases k <;> cases m <;> first
    | exact hs
    | exact pl _ _ _ (nc (by simp) (by simp) (by simp) (by simp))
    | exact cbc _ _
    | exact gcm _ (nc (by simp) (by simp) (by simp) (by simp))
    | exact oaep _ (nc (by simp) (by simp) (by simp) (by simp))
    | exact pss _ (nc (by simp) (by simp) (by simp) (by simp))
    | exact hmac _ _ (nc (by simp) (by simp) (by simp) (by simp))

/-! ## Every call -/

/-- The operations of all sessions have the property. -/
def AllOps (P : OpSt → Prop) (l : Lib) : Prop := ∀ s ∈ l.sessions, P s.op

/-- The calls on one operation keep the property. -/
structure OpKeeps (e : Env) (P : OpSt → Prop) : Prop where
  new : P {}
  final : ∀ {s}, P s → P (opFinal s)
  run : ∀ {s}, P s → ∀ curr (c : DataCall), P (c.run e.crypto s curr).1
  init : ∀ {s}, P s → ∀ k o m p, P (initCall e.crypto k s o m p).1

variable {P : OpSt → Prop}

theorem AllOps.same {l l' : Lib} (hf : AllOps P l) (hs : SameAt Session.ops l l') : AllOps P l' := by
  intro s hm
  have : s.ops ∈ l'.sessions.map Session.ops := List.mem_map_of_mem (f := Session.ops) hm
  rw [hs] at this
  obtain ⟨t, ht, he⟩ := List.mem_map.mp this
  have h2 : t.op = s.op := congrArg Prod.snd he
  rw [← h2]
  exact hf t ht

theorem AllOps.upd {l : Lib} (hf : AllOps P l) {k : Nat} {f : Session → Session}
    (ho : ∀ t ∈ l.sessions, P (f t).op) : AllOps P (l.upd k f) := by
  intro s hm
  obtain ⟨t, ht, rfl⟩ := List.mem_map.mp hm
  by_cases hk : t.handle = k
  · simp only [hk, if_true]; exact ho t ht
  · simp only [hk, if_false]; exact hf t ht

theorem AllOps.callBody {l : Lib} (hf : AllOps P l) (hP : OpKeeps e P) (c : Call) : AllOps P (callBody e l c).1 := by
  have hnew : P {} := hP.new
  have hob : NoObjs Session.ops := fun _ _ => rfl
  cases c with
  | cInit =>
    simp only [Verif.callBody, cInitialize]
    split
    · intro s hs
      simp only [addSession, List.mem_cons, List.not_mem_nil, or_false] at hs
      rcases hs with rfl | rfl <;> exact hnew
    · exact hf
  | cFinal =>
    simp only [Verif.callBody, cFinalize]
    split
    · intro s hs; cases hs
    · exact hf
  | slot id c =>
    simp only [Verif.callBody]
    split
    · exact hf
    split
    · exact hf
    cases c with
    | tokenInfo p n => simp only [slotCall]; split <;> exact hf
    | initToken p lab => exact hf.same (.of (initToken_sessions e l p lab).1)
    | closeAll =>
      intro s hs
      simp only [slotCall] at hs
      unfold Verif.closeAll at hs
      split at hs
      · cases hs
      · rename_i a as heq
        rcases List.mem_cons.mp hs with rfl | h1
        · exact hP.final (hf a (mem_closeDown (heq ▸ List.mem_cons_self)))
        · exact hf s (mem_closeDown (heq ▸ List.mem_cons_of_mem _ h1))
    | openSession rw' serial ptr =>
      simp only [slotCall]
      split
      · exact hf
      split
      · exact hf
      unfold openSession
      dsimp only
      split
      · exact hf
      split
      · exact hf.same (.upd (by intro _; rfl))
      · split
        · exact hf
        · split
          · rename_i s rest hadd
            intro t ht
            cases hss : l.sessions with
            | nil =>
              rw [hss] at hadd
              simp only [addSession, List.cons.injEq] at hadd
              obtain ⟨rfl, rfl⟩ := hadd
              simp only [List.mem_cons, List.not_mem_nil, or_false] at ht
              subst ht; exact hnew
            | cons a as =>
              rw [hss] at hadd
              simp only [addSession, List.cons.injEq] at hadd
              obtain ⟨rfl, rfl⟩ := hadd
              rcases List.mem_cons.mp ht with rfl | ht
              · exact hnew
              · exact hf t (hss ▸ ht)
          · exact hf
  | sess k c =>
    simp only [Verif.callBody]
    split
    · exact hf
    split
    · exact hf
    rename_i s hs
    obtain ⟨hsh, _, hsm⟩ := getSession_handle hs
    have hse := hf s hsm
    cases c with
    | close =>
      intro t ht
      rw [show (sessCall e l s .close).1.sessions = closeOne l.sessions s.handle from
        (closeSession_sessions e l s.handle).1] at ht
      unfold Verif.closeOne at ht
      split at ht
      · cases ht
      · rename_i heq
        split at ht
        · exact hf t (heq ▸ List.mem_cons_of_mem _ (mem_dropUnused ht))
        · obtain ⟨t, htm, rfl⟩ := List.mem_map.mp ht
          by_cases hk : t.handle = s.handle
          · simp only [hk, if_true]; exact hP.final (hf t (heq ▸ htm))
          · simp only [hk, if_false]; exact hf t (heq ▸ htm)
    | findInit t =>
      simp only [sessCall, cFindInit]
      repeat' split
      all_goals first | exact hf | exact hf.same (.upd (by intro _; rfl))
    | findNext p n =>
      simp only [sessCall, cFindNext]
      split
      · exact hf
      · exact hf.same (.upd (by intro _; rfl))
    | findFinal => exact hf.same (.upd (by intro _; rfl))
    | cryptInit kd m key =>
      simp only [sessCall, cCryptInit]
      split
      · exact hf
      rename_i m p
      split
      · exact hf
      rename_i o ho
      split
      · exact hf
      exact hf.upd fun _ _ => hP.init hse _ _ _ _
    | crypt d =>
      simp only [sessCall, cCrypt]
      split
      · exact hf.upd fun _ _ => hP.run hse _ _
      · exact hf.upd fun _ _ => hP.run hse _ _
      · split <;> exact hf
    | wrap m wk key ob =>
      simp only [sessCall, cWrap]
      split
      · exact hf
      rename_i m p
      split
      · exact hf
      split
      · exact hf
      split
      · exact hf
      split
      · exact hf
      rename_i w hw
      split
      · exact hf
      split
      · exact hf
      split
      · exact hf
      split
      · exact hf
      have h1 : P (encryptInit s.op w m p).1 :=
        hP.init hse .encrypt _ _ _
      split
      · exact hf.upd fun _ _ => h1
      · exact hf.upd fun _ _ => hP.run h1 _ (.encrypt _ _ _)
    | unwrap m wk d t ptr =>
      simp only [sessCall, cUnwrap]
      split
      · exact hf
      split
      · rename_i m p d t
        split
        · exact hf
        split
        · exact hf
        rename_i w hw
        split
        · exact hf
        split
        · exact hf
        split
        · exact hf
        have h1 : P (decryptInit s.op w m p).1 :=
          hP.init hse .decrypt _ _ _
        split
        · exact hf.upd fun _ _ => h1
        have h2 : AllOps P (l.upd s.handle fun u =>
            { u with op := (decrypt e.crypto (decryptInit s.op w m p).1 (some w) (some d) (.buf 0) 0).1, curr := some w.uid }) :=
          hf.upd fun _ _ => hP.run h1 _ (.decrypt _ _ _)
        split
        · exact h2
        · unfold addRsaPrivate
          split
          · split
            · exact h2
            · exact h2.same (same_addObject hob ..)
          · exact h2
      · exact hf
    | _ =>
      exact hf.same (same_objs hob s _ (by simp) (by simp) (by simp) (by simp) (by simp) (by simp) (by simp) (by simp))

theorem AllOps.step {l : Lib} (hf : AllOps P l) (hP : OpKeeps e P) (c : Call) : AllOps P (step e l c).1 := by
  unfold Verif.step
  split
  · exact hf
  · dsimp only
    split
    · exact hf.callBody hP c
    · exact hf.callBody hP c

theorem AllOps.run {l : Lib} (hf : AllOps P l) (hP : OpKeeps e P) (cs : List Call) : AllOps P (run e l cs) := by
  induction cs generalizing l with
  | nil => exact hf
  | cons c cs ih => exact ih (hf.step hP c)

theorem Start.allOps {l : Lib} (h : Start l) : AllOps P l := by
  intro s hs
  rw [h.sessions] at hs; cases hs

/-- The AES-CBC states of all sessions are in order. -/
abbrev AllFit (l : Lib) : Prop := AllOps OpSt.Fit l

theorem fit_keeps (hx : e.crypto.aes.Lawful) : OpKeeps e OpSt.Fit :=
  ⟨fit_new, fit_final, fun h curr c => fit_run hx h curr c, fun h k o m p => fit_init k h o m p⟩

end Verif
