import Verif.Spec.Stream
import Verif.Proofs.Stream
import Verif.Proofs.Demo

/-!
# C49: HMAC

The MAC of the message is `x.mac.mac`, wolfCrypt's HMAC as a function of the whole
message.
-/

namespace Verif

/-- `C_SignUpdate`/`C_VerifyUpdate` over a list of parts. -/
def macParts (f : OpSt → Option Obj → Option Bytes → OpSt × Out) (o : Obj) (s : OpSt) (ds : List Bytes) : OpSt :=
  ds.foldl (fun s d => (f s (some o) (some d)).1) s

/-- What a successful HMAC Init leaves. -/
theorem hmacInit_ok {x : Crypto} {s s1 : OpSt} {o : Obj} {a : HmacAlg} {p : MechParam} {i : OpInit}
    (h : hmacInit x s o a p i = (s1, .ok)) :
    s1.mech = .hmac a ∧ s1.init = i ∧ s1.hmac = { alg := a, key := o.symm, msg := [], size := x.mac.size a } := by
  unfold hmacInit at h
  split at h
  · simp at h
  · split at h
    · simp at h
    · by_cases hk : x.mac.keyOk a o.symm = true
      · simp [HmacSt.start, hk, OpSt.started] at h
        subst h; exact ⟨rfl, rfl, rfl⟩
      · simp [HmacSt.start, hk] at h

theorem macParts_spec (i : OpInit) (o : Obj) (a : HmacAlg) (ds : List Bytes) :
    ∀ s : OpSt, s.mech = .hmac a → s.init = i →
      macParts (fun s => macUpdate s i) o s ds = { s with hmac := { s.hmac with msg := s.hmac.msg ++ ds.flatten } } ∧
      ∀ d ds1 ds2, ds = ds1 ++ d :: ds2 →
        (macUpdate (macParts (fun s => macUpdate s i) o s ds1) i (some o) (some d)).2.rv = .ok := by
  have step : ∀ s : OpSt, s.mech = .hmac a → s.init = i → ∀ d,
      macUpdate s i (some o) (some d) = ({ s with hmac := s.hmac.update d }, { rv := .ok }) := by
    intro s h1 h2 d
    simp [macUpdate, withArgs, needInit, h1, h2]
  have all : ∀ (ds : List Bytes) (s : OpSt), s.mech = .hmac a → s.init = i →
      macParts (fun s => macUpdate s i) o s ds = { s with hmac := { s.hmac with msg := s.hmac.msg ++ ds.flatten } } := by
    intro ds
    induction ds with
    | nil => intro s _ _; simp [macParts]
    | cons d ds ih =>
      intro s h1 h2
      have := ih { s with hmac := s.hmac.update d } h1 h2
      simp only [macParts, List.foldl_cons, step s h1 h2] at this ⊢
      rw [this]
      simp [HmacSt.update, List.append_assoc]
  intro s h1 h2
  refine ⟨all ds s h1 h2, ?_⟩
  intro d ds1 ds2 _
  rw [step (macParts (fun s => macUpdate s i) o s ds1) (by rw [all ds1 s h1 h2]; exact h1)
    (by rw [all ds1 s h1 h2]; exact h2) d]

/-- C49, signing: whatever the split, `C_SignFinal` writes the MAC of the whole message,
which is what `C_Sign` writes in one call. -/
theorem c49_sign_split (x : Crypto) (hx : x.mac.Lawful) (s s1 : OpSt) (o : Obj) (a : HmacAlg) (p : MechParam)
    (ds : List Bytes) (n rnd : Nat) (hinit : signInit x s o (.hmac a) p = (s1, .ok)) :
    (signFinal x (macParts signUpdate o s1 ds) (some o) (.buf n)).2 =
      (if x.mac.size a ≤ n then
        { rv := .ok, wr := x.mac.mac a o.symm ds.flatten, len := some (x.mac.size a) }
       else { rv := .bufferTooSmall }) ∧
    (sign x s1 (some o) (some ds.flatten) (.buf n) rnd).2 =
      (signFinal x (macParts signUpdate o s1 ds) (some o) (.buf n)).2 := by
  obtain ⟨h1, h2, h3⟩ := hmacInit_ok hinit
  have e := (macParts_spec .hmacSign o a ds s1 h1 h2).1
  have e' : macParts signUpdate o s1 ds = macParts (fun s => macUpdate s .hmacSign) o s1 ds := rfl
  rw [e', e]
  have hl := (hx a o.symm ds.flatten).1
  constructor
  · simp only [signFinal, withArgs, needInit, sized, h1, h2, h3]
    by_cases hn : x.mac.size a ≤ n
    · have hn' : ¬ x.mac.size a > n := by omega
      simp [hn, hn', HmacSt.signFinal, finishSig, hl]
    · have hn' : x.mac.size a > n := by omega
      simp [hn, hn']
  · simp [sign, signFinal, withArgs, needInit, sized, h1, h2, h3, HmacSt.sign, HmacSt.update]
    split <;> rfl

/-- C49, verification: whatever the split, `C_VerifyFinal` accepts exactly the MAC of
the whole message, and so does `C_Verify`. Every other candidate gets
`CKR_SIGNATURE_INVALID`. -/
theorem c49_verify_exact (x : Crypto) (hx : x.mac.Lawful) (s s1 : OpSt) (o : Obj) (a : HmacAlg) (p : MechParam)
    (ds : List Bytes) (sig : Bytes) (hinit : verifyInit x s o (.hmac a) p = (s1, .ok)) :
    (verifyFinal x (macParts verifyUpdate o s1 ds) (some o) (some sig)).2.rv =
      (if sig = x.mac.mac a o.symm ds.flatten then .ok else .signatureInvalid) ∧
    (verify x s1 (some o) (some ds.flatten) (some sig)).2.rv =
      (if sig = x.mac.mac a o.symm ds.flatten then .ok else .signatureInvalid) := by
  obtain ⟨h1, h2, h3⟩ := hmacInit_ok hinit
  have e := (macParts_spec .hmacVerify o a ds s1 h1 h2).1
  have e' : macParts verifyUpdate o s1 ds = macParts (fun s => macUpdate s .hmacVerify) o s1 ds := rfl
  rw [e', e]
  have hl := (hx a o.symm ds.flatten).1
  have hv : HmacSt.verifyFinal x.mac { alg := a, key := o.symm, msg := ds.flatten, size := x.mac.size a } sig =
      decide (sig = x.mac.mac a o.symm ds.flatten) := by
    simp only [HmacSt.verifyFinal, HmacSt.signFinal]
    by_cases hs : sig = x.mac.mac a o.symm ds.flatten
    · subst hs
      simp [hl, List.take_of_length_le]
    · by_cases hz : x.mac.size a = sig.length
      · have ht : (x.mac.mac a o.symm ds.flatten).take sig.length = x.mac.mac a o.symm ds.flatten :=
          List.take_of_length_le (by omega)
        simp [hz, hs, ht, Ne.symm hs]
      · simp [hz, hs]
  constructor
  · simp only [verifyFinal, withArgs, needInit, h1, h2, h3, List.nil_append]
    simp only [hv, finishVerify]
    by_cases hs : sig = x.mac.mac a o.symm ds.flatten <;> simp [hs]
  · simp only [verify, withArgs, needInit, h1, h2, h3, HmacSt.verify, HmacSt.update, List.nil_append]
    simp only [hv, finishVerify]
    by_cases hs : sig = x.mac.mac a o.symm ds.flatten <;> simp [hs]

/-- Non-vacuity of C49. -/
example : (signInit Demo.x {} Demo.secret (.hmac .sha256) (.null 0)).2 = .ok ∧
    (verifyInit Demo.x {} Demo.secret (.hmac .sha256) (.null 0)).2 = .ok ∧ Demo.x.mac.Lawful ∧
    (signFinal Demo.x (macParts signUpdate Demo.secret (signInit Demo.x {} Demo.secret (.hmac .sha256) (.null 0)).1
      [[1], [], [2, 3]]) (some Demo.secret) (.buf 32)).2.wr.length = 32 :=
  ⟨by decide, by decide, Demo.mac_lawful, by decide⟩

end Verif
