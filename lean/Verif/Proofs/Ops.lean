import Verif.Spec.Ops

namespace Verif

/-- The kind an operation code belongs to. -/
def OpInit.kind : OpInit → Option Kind
  | .none => Option.none
  | .aesCbcEnc | .aesGcmEnc | .aesCbcPadEnc | .rsaX509Enc | .rsaPkcsEnc | .rsaOaepEnc => some .encrypt
  | .aesCbcDec | .aesGcmDec | .aesCbcPadDec | .rsaX509Dec | .rsaPkcsDec | .rsaOaepDec => some .decrypt
  | .hmacSign | .rsaPkcsSign | .rsaPssSign | .rsaX509Sign | .ecdsaSign => some .sign
  | .hmacVerify | .rsaPkcsVerify | .rsaPssVerify | .rsaX509Verify | .ecdsaVerify => some .verify
  | .torn i => i.kind

theorem OpInit.tear_kind (i : OpInit) : i.tear.kind = i.kind := by cases i <;> rfl

theorem OpSt.mark_kind (s : OpSt) : s.mark.mech = s.mech ∧ s.mark.init.kind = s.init.kind := ⟨rfl, s.init.tear_kind⟩

theorem OpSt.pssOver_kind (s : OpSt) (h m : Option HashAlg) (n : Int) :
    (s.pssOver h m n).mech = s.mech ∧ (s.pssOver h m n).init.kind = s.init.kind := by
  unfold OpSt.pssOver
  repeat' split
  all_goals first | exact ⟨rfl, rfl⟩ | exact s.mark_kind

theorem OpSt.oaepOver_kind (s : OpSt) (h : Option HashAlg) :
    (s.oaepOver h).mech = s.mech ∧ (s.oaepOver h).init.kind = s.init.kind := by
  unfold OpSt.oaepOver
  split <;> first | exact ⟨rfl, rfl⟩ | exact s.mark_kind

theorem OpSt.tear_kind (s : OpSt) (b : Bool) :
    (s.tear b).mech = s.mech ∧ (s.tear b).init.kind = s.init.kind := by
  unfold OpSt.tear
  repeat' split
  all_goals first | exact ⟨rfl, rfl⟩ | exact s.mark_kind

theorem needInit_ne {s : OpSt} {i : OpInit} {k : OpSt × Out} (h : s.init ≠ i) (ht : s.init ≠ .torn i) :
    needInit s i k = (s, { rv := .operationNotInitialized }) := by
  simp [needInit, h, ht]

theorem withArgs_refused {s : OpSt} {curr : Option Obj} {d : Option Bytes} {ob : OutBuf}
    {f : Obj → Bytes → OpSt × Out} (h : ∀ o d, curr = some o → Refused s (f o d)) :
    Refused s (withArgs s curr d ob f) := by
  unfold withArgs
  split
  · simp [Refused]
  · split
    · simp [Refused]
    · split
      · simp [Refused]
      · exact h _ _ rfl

theorem refused_needInit {s : OpSt} {i : OpInit} {k : OpSt × Out} (h : s.init.kind ≠ i.kind) :
    Refused s (needInit s i k) := by
  rw [needInit_ne (by intro e; rw [e] at h; exact h rfl) (by intro e; rw [e] at h; exact h rfl)]; simp [Refused]

theorem refused_mech (s : OpSt) : Refused s (s, { rv := .mechanismInvalid }) := by simp [Refused]

/-- A call of another kind than the operation is refused. -/
theorem run_refused (x : Crypto) (s : OpSt) (curr : Option Obj) (c : DataCall)
    (h : s.init.kind ≠ some c.kind) : Refused s (c.run x s curr) := by
  cases c <;> simp only [DataCall.run, DataCall.kind, encrypt, encryptUpdate, encryptFinal, decrypt, decryptUpdate,
    decryptFinal, sign, signUpdate, macUpdate, signFinal, verify, verifyUpdate, verifyFinal] at h ⊢
  case verify d sg =>
    split
    · simp [Refused]
    · apply withArgs_refused
      intro o d _
      split <;> first | exact refused_mech s | exact refused_needInit h
  all_goals
    apply withArgs_refused
    intro o d _
    split <;> first | exact refused_mech s | exact refused_needInit h

theorem run_noKey (x : Crypto) (s : OpSt) (c : DataCall) : Refused s (c.run x s none) := by
  cases c <;> simp only [DataCall.run, encrypt, encryptUpdate, encryptFinal, decrypt, decryptUpdate,
    decryptFinal, sign, signUpdate, macUpdate, signFinal, verify, verifyUpdate, verifyFinal]
  case verify d sg =>
    split
    · simp [Refused]
    · apply withArgs_refused; intro o d h; simp at h
  all_goals
    apply withArgs_refused; intro o d h; simp at h

/-- A data call never changes the mechanism and leaves `init` or clears it. -/
def Keeps (s : OpSt) (r : OpSt × Out) : Prop := r.1.mech = s.mech ∧ (r.1.init = s.init ∨ r.1.init = .none)

theorem keeps_refl (s : OpSt) (o : Out) : Keeps s (s, o) := ⟨rfl, .inl rfl⟩

theorem keeps_withArgs {s : OpSt} {curr : Option Obj} {d : Option Bytes} {ob : OutBuf}
    {f : Obj → Bytes → OpSt × Out} (h : ∀ o d, Keeps s (f o d)) : Keeps s (withArgs s curr d ob f) := by
  unfold withArgs
  repeat' split
  all_goals first | exact keeps_refl _ _ | exact h _ _

theorem keeps_needInit {s : OpSt} {i : OpInit} {k : OpSt × Out} (h : Keeps s k) : Keeps s (needInit s i k) := by
  unfold needInit; split
  · exact h
  · split <;> exact keeps_refl _ _

theorem keeps_sized {s : OpSt} {ob : OutBuf} {n : Nat} {k : OpSt × Out} (h : Keeps s k) :
    Keeps s (sized s ob n k) := by
  unfold sized; repeat' split
  all_goals first | exact keeps_refl _ _ | exact h

theorem keeps_finish {s s' : OpSt} {r : Option Bytes} (h1 : s'.mech = s.mech)
    (h2 : s'.init = s.init ∨ s'.init = .none) : Keeps s (finish s' r) := by
  unfold finish; split <;> exact ⟨h1, h2⟩

theorem keeps_finishSig {s s' : OpSt} {n : Nat} {r : Option Bytes} (h1 : s'.mech = s.mech)
    (h2 : s'.init = s.init ∨ s'.init = .none) : Keeps s (finishSig s' n r) := by
  unfold finishSig; split <;> exact ⟨h1, h2⟩

theorem keeps_finishVerify {s s' : OpSt} {r : Option Bool} (h1 : s'.mech = s.mech)
    (h2 : s'.init = s.init ∨ s'.init = .none) : Keeps s (finishVerify s' r) := by
  unfold finishVerify; split <;> exact ⟨h1, h2⟩

theorem keeps_gcmDecrypt {x : Crypto} {s : OpSt} {o : Obj} {d : Bytes} : Keeps s (gcmDecrypt x s o d) := by
  unfold gcmDecrypt; split
  · exact keeps_refl _ _
  · exact keeps_finish rfl (.inl rfl)

theorem run_keeps (x : Crypto) (s : OpSt) (curr : Option Obj) (c : DataCall) : Keeps s (c.run x s curr) := by
  cases c <;> simp only [DataCall.run, encrypt, encryptUpdate, encryptFinal, decrypt, decryptUpdate,
    decryptFinal, sign, signUpdate, macUpdate, signFinal, verify, verifyUpdate, verifyFinal]
  case verify d sg =>
    split
    · exact keeps_refl _ _
    · apply keeps_withArgs
      intro o d
      split <;> first
        | exact keeps_refl _ _
        | (apply keeps_needInit; repeat' split
           all_goals first | exact keeps_refl _ _ | exact keeps_finishVerify rfl (.inl rfl) | exact keeps_finishVerify rfl (.inr rfl))
  case encrypt =>
    apply keeps_withArgs; intro o d
    split <;> first
      | exact keeps_refl _ _
      | (apply keeps_needInit; apply keeps_sized
         first
          | exact keeps_finish rfl (.inl rfl) | exact keeps_finish rfl (.inr rfl) | exact ⟨rfl, .inl rfl⟩ | exact ⟨rfl, .inr rfl⟩
          | (unfold oaepDone; split <;> exact keeps_finish rfl (.inl rfl)))
  case decrypt =>
    apply keeps_withArgs; intro o d
    split <;> first
      | exact keeps_refl _ _
      | (apply keeps_needInit; apply keeps_sized
         first
          | exact keeps_finish rfl (.inl rfl) | exact keeps_finish rfl (.inr rfl) | exact keeps_gcmDecrypt
          | (split <;> exact ⟨rfl, .inr rfl⟩)
          | (unfold oaepDone; split <;> exact keeps_finish rfl (.inl rfl)))
      | (apply keeps_needInit; split
         · refine keeps_finish rfl ?_; simp only; split <;> first | exact .inr rfl | exact .inl rfl
         · exact keeps_refl _ _)
  case decryptFinal =>
    apply keeps_withArgs; intro o d
    split
    · apply keeps_needInit; unfold cbcFinal; repeat' split
      all_goals first | exact ⟨rfl, .inr rfl⟩ | exact keeps_refl _ _
    · apply keeps_needInit; repeat' split
      all_goals first | exact ⟨rfl, .inr rfl⟩ | exact keeps_refl _ _
    · apply keeps_needInit; apply keeps_sized
      split
      · exact keeps_refl _ _
      · exact keeps_finish rfl (.inl rfl)
    · exact keeps_refl _ _
  case encryptFinal =>
    apply keeps_withArgs; intro o d
    split
    · apply keeps_needInit; unfold cbcFinal; repeat' split
      all_goals first | exact ⟨rfl, .inr rfl⟩ | exact keeps_refl _ _
    · apply keeps_needInit; apply keeps_sized; exact ⟨rfl, .inr rfl⟩
    · apply keeps_needInit; apply keeps_sized; exact keeps_finish rfl (.inl rfl)
    · exact keeps_refl _ _
  case sign =>
    apply keeps_withArgs; intro o d
    split <;> first
      | exact keeps_refl _ _
      | (apply keeps_needInit; apply keeps_sized
         first | exact keeps_finishSig rfl (.inl rfl) | exact keeps_finishSig rfl (.inr rfl))
      | (apply keeps_needInit; split
         · exact keeps_refl _ _
         · apply keeps_sized; split <;> first | exact keeps_refl _ _ | exact keeps_finishSig rfl (.inl rfl))
  all_goals
    apply keeps_withArgs; intro o d
    split <;> first
      | exact keeps_refl _ _
      | (apply keeps_needInit; first | exact ⟨rfl, .inl rfl⟩ | exact keeps_finishVerify rfl (.inr rfl))
      | (apply keeps_needInit; apply keeps_sized
         first
          | exact keeps_finish rfl (.inl rfl) | exact keeps_finishSig rfl (.inr rfl)
          | (split <;> first | exact keeps_refl _ _ | exact keeps_finish rfl (.inl rfl)))
      | (apply keeps_needInit; split <;> exact ⟨rfl, .inl rfl⟩)

/-- A successful Init sets the mechanism and a code of its kind. -/
theorem initCall_ok {x : Crypto} {k : Kind} {s s' : OpSt} {o : Obj} {m : Mech} {p : MechParam}
    (h : initCall x k s o m p = (s', .ok)) : s'.mech = m ∧ s'.init.kind = some k := by
  cases k <;> cases m <;>
    simp only [initCall, encryptInit, decryptInit, signInit, verifyInit, plainInit, oaepInit, cbcInit, gcmInit,
      pssInit, hmacInit, OpSt.started, Prod.mk.injEq, reduceCtorEq, and_false] at h <;>
    (repeat' split at h) <;> simp_all [OpInit.kind] <;> (try obtain ⟨rfl, _⟩ := h) <;> (try subst h) <;>
    simp_all [OpInit.kind]

/-- A failed Init leaves mechanism and kind. -/
theorem initCall_fail {x : Crypto} {k : Kind} {s : OpSt} {o : Obj} {m : Mech} {p : MechParam}
    (h : (initCall x k s o m p).2 ≠ .ok) :
    (initCall x k s o m p).1.mech = s.mech ∧ (initCall x k s o m p).1.init.kind = s.init.kind := by
  cases k <;> cases m <;>
    simp only [initCall, encryptInit, decryptInit, signInit, verifyInit, plainInit, oaepInit, cbcInit, gcmInit,
      pssInit, hmacInit, OpSt.started] at h ⊢ <;>
    (repeat' split at h) <;> simp_all [setOaep, setPss, HmacSt.start] <;> (repeat' split) <;>
    first
    | exact OpSt.pssOver_kind _ _ _ _
    | exact OpSt.oaepOver_kind _ _
    | exact OpSt.tear_kind _ _
    | simp_all

/-- What C68 says of one call, given as a function of its output buffer. -/
def BufOk (s : OpSt) (n : Nat) (f : OutBuf → OpSt × Out) (ob : OutBuf) : Prop :=
  (ob = .query n → (f ob).2.rv = .ok →
      (f ob).1 = s ∧ (f ob).2.wr = [] ∧
      ∃ len, (f ob).2.len = some len ∧ ∀ k, len ≤ k → (f (.buf k)).2.rv ≠ .bufferTooSmall) ∧
    ((f ob).2.rv = .bufferTooSmall →
      (f ob).1 = s ∧ (f ob).2.wr = [] ∧ (f ob).2.len = none ∧
      ∃ m k, ob = .buf m ∧ m < k ∧ f (.query 0) = (s, { rv := .ok, len := some k }))


theorem finish_notSmall (s : OpSt) (r : Option Bytes) : (finish s r).2.rv ≠ .bufferTooSmall := by
  cases r <;> simp [finish]

theorem finishSig_notSmall (s : OpSt) (n : Nat) (r : Option Bytes) : (finishSig s n r).2.rv ≠ .bufferTooSmall := by
  cases r <;> simp [finishSig]

theorem finishVerify_notSmall (s : OpSt) (r : Option Bool) : (finishVerify s r).2.rv ≠ .bufferTooSmall := by
  cases r with
  | none => simp [finishVerify]
  | some b => cases b <;> simp [finishVerify]

theorem gcmDecrypt_notSmall (x : Crypto) (s : OpSt) (o : Obj) (d : Bytes) :
    (gcmDecrypt x s o d).2.rv ≠ .bufferTooSmall := by
  unfold gcmDecrypt; split
  · simp
  · exact finish_notSmall _ _

theorem bufOk_sized (s : OpSt) (n : Nat) (ob : OutBuf) (need : Nat) (k : OpSt × Out)
    (hk : k.2.rv ≠ .bufferTooSmall) : BufOk s n (fun ob => sized s ob need k) ob := by
  refine ⟨?_, ?_⟩
  · rintro rfl _
    refine ⟨rfl, rfl, need, rfl, fun j hj => ?_⟩
    have : ¬ need > j := by omega
    simpa [sized, this] using hk
  · intro h
    cases ob with
    | noLen => simp [sized] at h
    | query m => simp [sized] at h
    | buf m =>
      by_cases hm : need > m
      · exact ⟨by simp [sized, hm], by simp [sized, hm], by simp [sized, hm], m, need, rfl, hm, by simp [sized]⟩
      · simp [sized, hm] at h; exact absurd h hk

theorem bufOk_rv (s : OpSt) (n : Nat) (ob : OutBuf) (r : RV) (h1 : r ≠ .ok) (h2 : r ≠ .bufferTooSmall) :
    BufOk s n (fun _ => (s, { rv := r })) ob :=
  ⟨fun _ h => absurd h h1, fun h => absurd h h2⟩

theorem bufOk_needInit (s : OpSt) (n : Nat) (ob : OutBuf) (i : OpInit) (f : OutBuf → OpSt × Out)
    (h : BufOk s n f ob) : BufOk s n (fun ob => needInit s i (f ob)) ob := by
  by_cases hi : s.init = i
  · simpa [needInit, hi] using h
  · by_cases ht : s.init = .torn i
    · have : (fun ob => needInit s i (f ob)) = fun _ => (s, { rv := .ub }) := by
        funext b; unfold needInit; rw [if_neg hi, if_pos ht]
      rw [this]; exact bufOk_rv s n ob .ub (by simp) (by simp)
    · simpa [needInit, hi, ht] using bufOk_rv s n ob .operationNotInitialized (by simp) (by simp)

theorem bufOk_withArgs (s : OpSt) (n : Nat) (ob : OutBuf) (curr : Option Obj) (d : Option Bytes)
    (f : Obj → Bytes → OutBuf → OpSt × Out) (h : ∀ o d, BufOk s n (f o d) ob) :
    BufOk s n (fun ob => withArgs s curr d ob fun o d => f o d ob) ob := by
  cases d with
  | none => exact bufOk_rv s n ob .argumentsBad (by simp) (by simp)
  | some d =>
    cases curr with
    | none =>
      refine ⟨?_, ?_⟩
      · rintro rfl h; simp [withArgs] at h
      · intro h; simp only [withArgs] at h; split at h <;> simp at h
    | some o =>
      cases ob with
      | noLen => exact ⟨by simp, by intro h; simp [withArgs] at h⟩
      | query m => simpa [BufOk, withArgs] using h o d
      | buf m => simpa [BufOk, withArgs] using h o d

/-- A call whose result never is "too small" and which answers a query without change. -/
theorem bufOk_plain (s : OpSt) (n : Nat) (ob : OutBuf) (f : OutBuf → OpSt × Out)
    (h1 : ∀ ob, (f ob).2.rv ≠ .bufferTooSmall)
    (h2 : (f (.query n)).2.rv = .ok →
      (f (.query n)).1 = s ∧ (f (.query n)).2.wr = [] ∧ ∃ l, (f (.query n)).2.len = some l) :
    BufOk s n f ob := by
  refine ⟨?_, fun h => absurd h (h1 ob)⟩
  rintro rfl h
  obtain ⟨a, b, l, c⟩ := h2 h
  exact ⟨a, b, l, c, fun _ _ => h1 _⟩

theorem bufOk_cbcFinal (s : OpSt) (n : Nat) (ob : OutBuf) : BufOk s n (fun ob => cbcFinal s ob) ob := by
  apply bufOk_plain
  · intro ob; unfold cbcFinal; split
    · simp
    · cases ob <;> simp
  · unfold cbcFinal; split <;> simp

theorem bufOk_noBuf (s : OpSt) (n : Nat) (f : OutBuf → OpSt × Out)
    (h : (f .noLen).2.rv ≠ .bufferTooSmall) : BufOk s n f .noLen :=
  ⟨by simp, fun h' => absurd h' h⟩

theorem bufOk_run (x : Crypto) (s : OpSt) (curr : Option Obj) (n : Nat) (c : DataCall) :
    BufOk s n (fun ob => (c.withBuf ob).run x s curr) c.buf := by
  have mi := fun ob => bufOk_rv s n ob .mechanismInvalid (by simp) (by simp)
  have ubk := fun ob => bufOk_rv s n ob .ub (by simp) (by simp)
  cases c with
  | encrypt d ob r =>
    simp only [DataCall.run, DataCall.withBuf, DataCall.buf, Verif.encrypt]
    refine bufOk_withArgs s n ob curr d _ fun o d => ?_
    cases s.mech
    all_goals first
      | exact mi _
      | exact bufOk_needInit _ _ _ _ _ (bufOk_sized _ _ _ _ _ (finish_notSmall _ _))
      | exact bufOk_needInit _ _ _ _ _ (bufOk_sized _ _ _ _ _ (by simp))
  | encryptUpdate d ob =>
    simp only [DataCall.run, DataCall.withBuf, DataCall.buf, Verif.encryptUpdate]
    refine bufOk_withArgs s n ob curr d _ fun o d => ?_
    cases s.mech
    all_goals first
      | exact mi _
      | exact bufOk_needInit _ _ _ _ _ (bufOk_sized _ _ _ _ _ (finish_notSmall _ _))
  | encryptFinal ob =>
    simp only [DataCall.run, DataCall.withBuf, DataCall.buf, Verif.encryptFinal]
    refine bufOk_withArgs s n ob curr (some []) _ fun o d => ?_
    cases s.mech
    all_goals first
      | exact mi _
      | exact bufOk_needInit _ _ _ _ _ (bufOk_cbcFinal _ _ _)
      | exact bufOk_needInit _ _ _ _ _ (bufOk_sized _ _ _ _ _ (finish_notSmall _ _))
      | exact bufOk_needInit _ _ _ _ _ (bufOk_sized _ _ _ _ _ (by simp))
  | decrypt d ob r =>
    simp only [DataCall.run, DataCall.withBuf, DataCall.buf, Verif.decrypt]
    refine bufOk_withArgs s n ob curr d _ fun o d => ?_
    cases s.mech
    all_goals first
      | exact mi _
      | exact bufOk_needInit _ _ _ _ _ (bufOk_sized _ _ _ _ _ (finish_notSmall _ _))
      | exact bufOk_needInit _ _ _ _ _ (bufOk_sized _ _ _ _ _ (gcmDecrypt_notSmall _ _ _ _))
      | exact bufOk_needInit _ _ _ _ _ (bufOk_sized _ _ _ _ _ (by split <;> simp))
      | skip
    refine bufOk_needInit _ _ _ _ _ (bufOk_plain _ _ _ _ ?_ (by simp))
    intro ob; cases ob <;> simp [finish_notSmall]
  | decryptUpdate d ob =>
    simp only [DataCall.run, DataCall.withBuf, DataCall.buf, Verif.decryptUpdate]
    refine bufOk_withArgs s n ob curr d _ fun o d => ?_
    cases s.mech
    all_goals first
      | exact mi _
      | exact bufOk_needInit _ _ _ _ _ (bufOk_sized _ _ _ _ _ (by split <;> simp [finish]))
      | skip
    refine bufOk_needInit _ _ _ _ _ (bufOk_plain _ _ _ _ ?_ (by simp))
    intro ob; cases ob <;> simp
  | decryptFinal ob =>
    simp only [DataCall.run, DataCall.withBuf, DataCall.buf, Verif.decryptFinal]
    refine bufOk_withArgs s n ob curr (some []) _ fun o d => ?_
    cases s.mech
    all_goals first
      | exact mi _
      | exact bufOk_needInit _ _ _ _ _ (bufOk_cbcFinal _ _ _)
      | exact bufOk_needInit _ _ _ _ _ (bufOk_sized _ _ _ _ _ (by split <;> simp [finish_notSmall]))
      | skip
    refine bufOk_needInit _ _ _ _ _ (bufOk_plain _ _ _ _ ?_ ?_)
    · intro ob; split
      · simp
      · cases ob <;> simp
        split <;> simp
    · split <;> simp
  | sign d ob r =>
    simp only [DataCall.run, DataCall.withBuf, DataCall.buf, Verif.sign]
    refine bufOk_withArgs s n ob curr d _ fun o d => ?_
    cases s.mech
    all_goals first
      | exact mi _
      | exact bufOk_needInit _ _ _ _ _ (bufOk_sized _ _ _ _ _ (finishSig_notSmall _ _ _))
      | skip
    refine bufOk_needInit _ _ _ _ _ ?_
    cases o.ec.dp with
    | none => exact ubk _
    | some c => 
      refine bufOk_sized _ _ _ _ _ ?_
      split
      · simp
      · exact finishSig_notSmall _ _ _
      · exact finishSig_notSmall _ _ _
  | signFinal ob =>
    simp only [DataCall.run, DataCall.withBuf, DataCall.buf, Verif.signFinal]
    refine bufOk_withArgs s n ob curr (some []) _ fun o d => ?_
    cases s.mech
    all_goals first
      | exact mi _
      | exact bufOk_needInit _ _ _ _ _ (bufOk_sized _ _ _ _ _ (finishSig_notSmall _ _ _))
  | signUpdate d =>
    refine bufOk_noBuf _ _ _ ?_
    simp only [DataCall.run, DataCall.withBuf, signUpdate, macUpdate, withArgs, needInit]
    (repeat' split) <;> simp
  | verifyUpdate d =>
    refine bufOk_noBuf _ _ _ ?_
    simp only [DataCall.run, DataCall.withBuf, verifyUpdate, macUpdate, withArgs, needInit]
    (repeat' split) <;> simp
  | verify d sg =>
    refine bufOk_noBuf _ _ _ ?_
    simp only [DataCall.run, DataCall.withBuf, verify, withArgs, needInit]
    (repeat' split) <;> simp [finishVerify_notSmall]
  | verifyFinal sg =>
    refine bufOk_noBuf _ _ _ ?_
    simp only [DataCall.run, DataCall.withBuf, verifyFinal, withArgs, needInit]
    (repeat' split) <;> simp [finishVerify_notSmall]

end Verif
