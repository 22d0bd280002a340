import Verif.Model.Op
import Verif.Proofs.Demo

/-!
# C50, C51, C67: RSA signature verification
-/

namespace Verif

/-- C50: `C_Verify` with `CKM_RSA_PKCS` returns `CKR_OK` exactly when the data recovered
from the signature is the data given. -/
theorem c50_pkcs_verify_exact (x : Crypto) (s : OpSt) (o : Obj) (d sig : Bytes)
    (h1 : s.mech = .rsaPkcs) (h2 : s.init = .rsaPkcsVerify) :
    ((verify x s (some o) (some d) (some sig)).2.rv = .ok ↔ x.rsa.verifyPkcs o.rsa sig = some d) ∧
    ((verify x s (some o) (some d) (some sig)).2.rv = .signatureInvalid ↔
      ∃ d', x.rsa.verifyPkcs o.rsa sig = some d' ∧ d' ≠ d) := by
  simp only [verify, withArgs, needInit, h1, h2, if_true, reduceCtorEq, if_false, rsaPkcsVerify]
  cases hv : x.rsa.verifyPkcs o.rsa sig with
  | none => simp [finishVerify]
  | some d' =>
    by_cases he : d' = d
    · subst he; simp [finishVerify]
    · have : (decide (d.length = d'.length) && decide (d.take d'.length = d')) = false := by
        by_cases hl : d.length = d'.length
        · have ht : d.take d'.length = d := List.take_of_length_le (by omega)
          simp [hl, ht, Ne.symm he]
        · simp [hl]
      simp [finishVerify, this, he]

theorem rsaVerifyPad_zero (n k : Nat) : rsaVerifyPad n k 0 = 0 ↔ k = 0 ∨ n % 256 = 0 := by
  induction k with
  | zero => simp [rsaVerifyPad]
  | succ k ih =>
    simp only [rsaVerifyPad, if_true]
    by_cases h : n % 256 = 0
    · have : (0 : UInt8) ||| UInt8.ofNat n = 0 := by
        apply UInt8.toNat_inj.mp; simp [h]
      rw [this, ih]; simp [h]
    · have : ¬ ((0 : UInt8) ||| UInt8.ofNat n) = 0 := by
        intro h0; have := congrArg UInt8.toNat h0; simp at this; omega
      constructor
      · intro hk
        cases k with
        | zero => simp only [rsaVerifyPad] at hk; exact absurd hk this
        | succ k => simp only [rsaVerifyPad, this, if_false] at hk
      · simp [h]

theorem rsaVerifyCmp_ne (dec inp : Bytes) (fuel i j : Nat) (b : UInt8) (hb : b ≠ 0) :
    rsaVerifyCmp dec inp fuel i j b = b := by
  cases fuel <;> simp [rsaVerifyCmp, hb]

theorem rsaVerifyCmp_zero (dec inp : Bytes) (fuel : Nat) : ∀ i j,
    rsaVerifyCmp dec inp fuel i j 0 = 0 ↔ ∀ k < fuel, inp.getD (j + k) 0 = dec.getD (i + k) 0 := by
  induction fuel with
  | zero => intro i j; simp [rsaVerifyCmp]
  | succ n ih =>
    intro i j
    simp only [rsaVerifyCmp, if_true, UInt8.zero_or]
    by_cases h : inp.getD j 0 = dec.getD i 0
    · have hz : inp.getD j 0 ^^^ dec.getD i 0 = 0 := by rw [h]; simp
      rw [hz, ih]
      constructor
      · intro hh k hk
        cases k with
        | zero => exact h
        | succ k => have := hh k (by omega); rwa [Nat.add_right_comm, Nat.add_right_comm i] at this
      · intro hh k hk
        have := hh (k + 1) (by omega)
        rwa [← Nat.add_assoc, ← Nat.add_assoc, Nat.add_right_comm, Nat.add_right_comm i] at this
    · have hz : inp.getD j 0 ^^^ dec.getD i 0 ≠ 0 := by
        intro h0; exact h (UInt8.xor_eq_zero_iff.mp h0)
      rw [rsaVerifyCmp_ne _ _ _ _ _ _ hz]
      constructor
      · intro h0; exact absurd h0 hz
      · intro hh; exact absurd (hh 0 (by omega)) h

theorem eq_of_getD {a b : Bytes} (hl : a.length = b.length) (h : ∀ k < a.length, a.getD k 0 = b.getD k 0) : a = b := by
  apply List.ext_getElem? ; intro k
  by_cases hk : k < a.length
  · have := h k hk
    simp only [List.getD] at this
    rw [List.getElem?_eq_getElem hk, List.getElem?_eq_getElem (by omega)] at this ⊢
    simpa using this
  · rw [List.getElem?_eq_none (by omega), List.getElem?_eq_none (by omega)]

/-- Exactly which data the comparison of raw RSA verification accepts for a recovered
block `dec`. -/
theorem rsaVerifyCheck_iff (dec inp : Bytes) (h1 : dec.length < 2 ^ 31) (h2 : inp.length < 2 ^ 31) :
    rsaVerifyCheck dec inp = true ↔
      dec = inp ∨
      (inp.length < dec.length ∧ dec.length % 256 = 0 ∧ ∃ front, dec = front ++ inp) ∨
      dec.length < inp.length := by
  unfold rsaVerifyCheck
  simp only [decide_eq_true_eq]
  by_cases hlt : inp.length < dec.length
  · have hs : w32sub dec.length inp.length = dec.length - inp.length := by unfold w32sub; omega
    have hf : dec.length - (dec.length - inp.length) = inp.length := by omega
    simp only [hlt, if_true, hs, hf]
    have hne : ¬ dec = inp := by intro h; rw [h] at hlt; omega
    by_cases hz : dec.length % 256 = 0
    · have : rsaVerifyPad dec.length (dec.length - inp.length) 0 = 0 := by
        rw [rsaVerifyPad_zero]; exact Or.inr hz
      rw [this, rsaVerifyCmp_zero]
      have : ¬ dec.length < inp.length := by omega
      simp only [hne, hz, this, false_or, or_false, true_and]
      constructor
      · intro h
        refine ⟨dec.take (dec.length - inp.length), ?_⟩
        have : dec.drop (dec.length - inp.length) = inp := by
          apply eq_of_getD (by simp; omega)
          intro k hk
          simp at hk
          have := h k (by omega)
          simp only [Nat.zero_add] at this
          rw [this]; simp [List.getD]
        conv => lhs; rw [← List.take_append_drop (dec.length - inp.length) dec, this]
      · rintro ⟨f, rfl⟩ k hk
        have hfl : (f ++ inp).length - inp.length = f.length := by simp
        rw [hfl, Nat.zero_add]; simp only [List.getD]
        rw [List.getElem?_append_right (by omega)]; simp
    · have hp : rsaVerifyPad dec.length (dec.length - inp.length) 0 ≠ 0 := by
        rw [Ne, rsaVerifyPad_zero]; omega
      rw [rsaVerifyCmp_ne _ _ _ _ _ _ hp]
      have : ¬ dec.length < inp.length := by omega
      simp [hne, hz, this, hp]
  · simp only [hlt, if_false, false_and, false_or]
    by_cases he : inp.length = dec.length
    · have hs : w32sub dec.length inp.length = 0 := by unfold w32sub; omega
      rw [hs, rsaVerifyCmp_zero]
      have : ¬ dec.length < inp.length := by omega
      simp only [this, or_false]
      constructor
      · intro h
        apply eq_of_getD he.symm
        intro k hk
        have := h k (by omega)
        simpa using this.symm
      · rintro rfl k _; rfl
    · have hs : dec.length - w32sub dec.length inp.length = 0 := by unfold w32sub; omega
      rw [hs]
      have : dec.length < inp.length := by omega
      simp [rsaVerifyCmp, this]

theorem finishVerify_ok (s : OpSt) (r : Option Bool) : (finishVerify s r).2.rv = .ok ↔ r = some true := by
  cases r with
  | none => simp [finishVerify]
  | some b => cases b <;> simp [finishVerify]

theorem finishVerify_invalid (s : OpSt) (r : Option Bool) :
    (finishVerify s r).2.rv = .signatureInvalid ↔ r = some false := by
  cases r with
  | none => simp [finishVerify]
  | some b => cases b <;> simp [finishVerify]

theorem verify_x509 (x : Crypto) (s : OpSt) (o : Obj) (d sig : Bytes)
    (h1 : s.mech = .rsaX509) (h2 : s.init = .rsaX509Verify) :
    (verify x s (some o) (some d) (some sig)).2 = (finishVerify s (rsaVerify x.rsa o.rsa sig d)).2 := by
  simp [verify, withArgs, needInit, h1, h2]

/-- C51 for data as long as the key: `C_Verify` with `CKM_RSA_X_509` returns `CKR_OK`
exactly when the recovered block is the data. Missing: shorter and longer data, where
the code is wrong (`c51_violated_*`). -/
theorem c51_x509_verify_partial (x : Crypto) (hx : x.rsa.Lawful) (s : OpSt) (o : Obj) (d sig : Bytes)
    (h1 : s.mech = .rsaX509) (h2 : s.init = .rsaX509Verify) (hd : d.length = o.rsa.keyLen)
    (hk : o.rsa.keyLen < 2 ^ 31) :
    (verify x s (some o) (some d) (some sig)).2.rv = .ok ↔
      x.rsa.raw .publicDecrypt o.rsa sig 0 = some d := by
  rw [verify_x509 x s o d sig h1 h2, finishVerify_ok, rsaVerify]
  cases hv : x.rsa.raw .publicDecrypt o.rsa sig 0 with
  | none => simp
  | some dec =>
    have hl := hx.raw_len _ _ _ _ _ hv
    have hc := rsaVerifyCheck_iff dec d (hl ▸ hk) (hd ▸ hk)
    simp only [Option.map_some, Option.some.injEq]
    rw [hc]
    constructor
    · rintro (h | ⟨h, _⟩ | h)
      · exact h
      · rw [hl, hd] at h; exact absurd h (Nat.lt_irrefl _)
      · rw [hl, hd] at h; exact absurd h (Nat.lt_irrefl _)
    · exact Or.inl

/-- C51 fails for long data: data longer than the key is accepted with every signature
for which the RSA operation succeeds, whatever block it recovers. -/
theorem c51_violated_long (x : Crypto) (hx : x.rsa.Lawful) (s : OpSt) (o : Obj) (d sig dec : Bytes)
    (h1 : s.mech = .rsaX509) (h2 : s.init = .rsaX509Verify)
    (hd : o.rsa.keyLen < d.length) (hd' : d.length < 2 ^ 31)
    (hv : x.rsa.raw .publicDecrypt o.rsa sig 0 = some dec) :
    (verify x s (some o) (some d) (some sig)).2.rv = .ok := by
  have hl := hx.raw_len _ _ _ _ _ hv
  have hc : rsaVerifyCheck dec d = true :=
    (rsaVerifyCheck_iff dec d (by omega) (by omega)).mpr (.inr (.inr (by omega)))
  rw [verify_x509 x s o d sig h1 h2, finishVerify_ok, rsaVerify, hv, Option.map_some, hc]

/-- C51 fails for short data and 2048-bit keys (any key of a multiple of 256 bytes): the
bytes in front of the data are not looked at; the empty data is accepted with every
signature. -/
theorem c51_violated_short (x : Crypto) (hx : x.rsa.Lawful) (s : OpSt) (o : Obj) (front d sig : Bytes)
    (h1 : s.mech = .rsaX509) (h2 : s.init = .rsaX509Verify)
    (hk : o.rsa.keyLen % 256 = 0) (hk' : o.rsa.keyLen < 2 ^ 31) (hf : front ≠ [])
    (hv : x.rsa.raw .publicDecrypt o.rsa sig 0 = some (front ++ d)) :
    (verify x s (some o) (some d) (some sig)).2.rv = .ok := by
  have hl := hx.raw_len _ _ _ _ _ hv
  have hp := List.length_pos_iff.mpr hf
  rw [List.length_append] at hl
  have hc : rsaVerifyCheck (front ++ d) d = true :=
    (rsaVerifyCheck_iff (front ++ d) d (by simp; omega) (by omega)).mpr
      (.inr (.inl ⟨by simp; omega, by simp; omega, front, rfl⟩))
  rw [verify_x509 x s o d sig h1 h2, finishVerify_ok, rsaVerify, hv, Option.map_some, hc]

/-- C51 fails for short data and all other key sizes: a correct signature of short data
(the recovered block is the data with zeros in front, as `C_Sign` makes it) is refused. -/
theorem c51_violated_refused (x : Crypto) (hx : x.rsa.Lawful) (s : OpSt) (o : Obj) (k : Nat) (d sig : Bytes)
    (h1 : s.mech = .rsaX509) (h2 : s.init = .rsaX509Verify)
    (hk : o.rsa.keyLen % 256 ≠ 0) (hk' : o.rsa.keyLen < 2 ^ 31) (hz : 0 < k)
    (hv : x.rsa.raw .publicDecrypt o.rsa sig 0 = some (List.replicate k 0 ++ d)) :
    (verify x s (some o) (some d) (some sig)).2.rv = .signatureInvalid := by
  have hl := hx.raw_len _ _ _ _ _ hv
  simp only [List.length_append, List.length_replicate] at hl
  have hc : rsaVerifyCheck (List.replicate k 0 ++ d) d = false := by
    cases hb : rsaVerifyCheck (List.replicate k 0 ++ d) d with
    | false => rfl
    | true =>
      rcases (rsaVerifyCheck_iff _ d (by simp; omega) (by omega)).mp hb with h | h | h
      · have := congrArg List.length h; simp at this; omega
      · have := h.2.1; simp at this; omega
      · simp at h; omega
  rw [verify_x509 x s o d sig h1 h2, finishVerify_invalid, rsaVerify, hv, Option.map_some, hc]

/-- C67: `C_Verify` with `CKM_RSA_PKCS_PSS` returns `CKR_OK` exactly when the signature
opens to an encoded message and that message passes the PSS check for the digest given,
with the hash, mask generation function and salt length of the Init call. -/
theorem c67_pss_verify_exact (x : Crypto) (s₀ s : OpSt) (o : Obj) (d sig : Bytes) (h m : HashAlg) (n : Nat)
    (hi : verifyInit x s₀ o .rsaPss (.pss (some h) (some m) n) = (s, .ok)) :
    (verify x s (some o) (some d) (some sig)).2.rv = .ok ↔
      ∃ em r, x.rsa.verifyPss o.rsa h m (toInt32 n) sig = .msg em ∧ x.rsa.checkPss h (toInt32 n) d (some em) = .msg r := by
  have hs : s.mech = .rsaPss ∧ s.init = .rsaPssVerify ∧ s.pss = ⟨h, m, false, toInt32 n⟩ := by
    simp only [verifyInit, pssInit, setPss, OpSt.started] at hi
    (repeat' split at hi) <;> simp_all
    subst hi
    exact ⟨rfl, rfl, rfl⟩
  obtain ⟨h1, h2, h3⟩ := hs
  simp only [verify, withArgs, needInit, h1, h2, h3, if_true, reduceCtorEq, if_false, pssVerify, rsaPssVerify, Bool.false_eq_true]
  cases hv : x.rsa.verifyPss o.rsa h m (toInt32 n) sig with
  | msg em =>
    cases hc : x.rsa.checkPss h (toInt32 n) d (some em) <;> simp [finishVerify, hc]
  | badPadding =>
    cases hc : x.rsa.checkPss h (toInt32 n) d none <;> simp [finishVerify]
  | error => simp [finishVerify]

/-- Non-vacuity: a key of 2 bytes and the toy RSA (the identity on blocks). -/
def demoRsa : Obj := { typ := CKK_RSA, cls := CKO_PUBLIC_KEY, data := .rsa { n := 2 ^ 15 } }

example : demoRsa.rsa.keyLen = 2 := by decide

/-- Keys of every size exist, in particular of 256 bytes (`e = 2047`). -/
example (e : Nat) : ({ n := 2 ^ e } : RsaKey).keyLen = (e + 8) / 8 := by
  have h : 2 * 2 ^ e = 2 ^ (e + 1) := by rw [Nat.pow_succ, Nat.mul_comm]
  simp only [RsaKey.keyLen, mpSize, h, Nat.log2_two_pow]

example : let s1 := (verifyInit Demo.x {} demoRsa .rsaX509 (.null 0)).1
    (verifyInit Demo.x {} demoRsa .rsaX509 (.null 0)).2 = .ok ∧ s1.mech = .rsaX509 ∧ s1.init = .rsaX509Verify ∧
    Demo.x.rsa.Lawful :=
  ⟨by decide, by decide, by decide, Demo.rsa_lawful⟩

example : (verify Demo.x { mech := .rsaPkcs, init := .rsaPkcsVerify } (some demoRsa) (some [1, 2]) (some [1, 2])).2.rv = .ok ∧
    (verify Demo.x { mech := .rsaPkcs, init := .rsaPkcsVerify } (some demoRsa) (some [1, 2]) (some [1, 2, 3])).2.rv
      = .signatureInvalid := by decide

example : let i := verifyInit Demo.x {} demoRsa .rsaPss (.pss (some .sha256) (some .sha1) 20)
    i.2 = .ok ∧ (verify Demo.x i.1 (some demoRsa) (some [1, 2]) (some [1, 2])).2.rv = .ok ∧
    (verify Demo.x i.1 (some demoRsa) (some [1]) (some [1, 2, 3])).2.rv = .signatureInvalid := by decide

end Verif
