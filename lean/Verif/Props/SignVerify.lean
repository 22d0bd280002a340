import Verif.Spec.SignVerify
import Verif.Props.Rsa
import Verif.Props.EcSig
import Verif.Props.Hmac

/-!
# Signing against verifying, RSA encryption against decryption

C77: what `C_Sign` makes, `C_Verify` accepts.  C78: what `C_Encrypt` makes with RSA,
`C_Decrypt` undoes.
-/

namespace Verif

open Spec

theorem plainInit_ok {s s1 : OpSt} {o : Obj} {t : Nat} {m : Mech} {p : MechParam} {i : OpInit}
    (h : plainInit s o t m p i = (s1, .ok)) : s1.mech = m ∧ s1.init = i := by
  unfold plainInit at h
  split at h
  · cases h
  split at h
  · cases h
  cases h; exact ⟨rfl, rfl⟩

theorem pssInit_ok {s s1 : OpSt} {o : Obj} {p : MechParam} {i : OpInit} (h : pssInit s o p i = (s1, .ok)) :
    s1.mech = .rsaPss ∧ s1.init = i ∧ ∃ a b n, p = .pss (some a) (some b) n ∧ s1.pss = ⟨a, b, false, toInt32 n⟩ := by
  unfold pssInit at h
  split at h
  · cases h
  split at h
  · rename_i hh mm n
    unfold setPss at h
    split at h
    · split at h
      · cases h
      · cases h; exact ⟨rfl, rfl, _, _, _, rfl, rfl⟩
    · cases h
  · cases h

theorem oaepInit_ok {s s1 : OpSt} {o : Obj} {p : MechParam} {i : OpInit} (h : oaepInit s o p i = (s1, .ok)) :
    s1.mech = .rsaOaep ∧ s1.init = i ∧
      ∃ a b lab, p = .oaep (some a) (some b) true lab ∧ s1.oaep = ⟨a, b, false, lab, (lab.getD []).length⟩ := by
  unfold oaepInit at h
  split at h
  · cases h
  split at h
  · split at h
    · cases h
    rename_i hs
    unfold setOaep at h
    split at h
    · cases h; exact ⟨rfl, rfl, _, _, _, by simp at hs; rw [hs], rfl⟩
    · cases h
  · cases h

theorem sized_ok {s s' : OpSt} {n need : Nat} {k : OpSt × Out} {out : Out} (h : sized s (.buf n) need k = (s', out))
    (ho : out.rv = .ok) : k = (s', out) := by
  unfold sized at h
  dsimp only at h
  split at h
  · cases h; cases ho
  · exact h

theorem finishSig_ok {s : OpSt} {n : Nat} {r : Option Bytes} (h : (finishSig s n r).2.rv = .ok) :
    r = some (finishSig s n r).2.wr := by
  cases r with
  | none => cases h
  | some w => rfl

theorem finish_ok {s : OpSt} {r : Option Bytes} (h : (finish s r).2.rv = .ok) : r = some (finish s r).2.wr := by
  cases r with
  | none => cases h
  | some w => rfl

theorem toBE_inj' {sz r s : Nat} (hr : r < 256 ^ sz) (hs : s < 256 ^ sz) :
    fromBE ((toBE sz r ++ toBE sz s).take sz) = r ∧ fromBE ((toBE sz r ++ toBE sz s).drop sz) = s := by
  rw [List.take_left' (toBE_length _ _), List.drop_left' (toBE_length _ _)]
  exact ⟨fromBE_toBE _ _ hr, fromBE_toBE _ _ hs⟩

/-- **C77**: `C_Sign` in a session whose `C_SignInit` succeeded, then `C_Verify` of the
same data and of the bytes `C_Sign` wrote, in any session whose `C_VerifyInit` with the
same mechanism and parameter and the other half of the key pair succeeded: `CKR_OK`.
For `CKM_RSA_X_509` the data must be as long as the key (`c51_violated_refused` says what
happens otherwise). -/
theorem c77_partial (x : Crypto) (hx : x.rsa.Lawful) (s t s1 t1 : OpSt) (priv pub : Obj) (m : Mech) (p : MechParam)
    (d : Bytes) (n rnd : Nat) (hk : KeyPair x m priv pub)
    (hlen : m = .rsaX509 → d.length = priv.rsa.keyLen ∧ d.length < 2 ^ 31)
    (h1 : signInit x s priv m p = (s1, .ok)) (h2 : verifyInit x t pub m p = (t1, .ok))
    (hs : (sign x s1 (some priv) (some d) (.buf n) rnd).2.rv = .ok) :
    (verify x t1 (some pub) (some d) (some (sign x s1 (some priv) (some d) (.buf n) rnd).2.wr)).2.rv = .ok := by
  cases m <;> try (cases h1; done)
  case rsaX509 =>
    obtain ⟨a1, a2⟩ := plainInit_ok h1
    obtain ⟨b1, b2⟩ := plainInit_ok h2
    obtain ⟨hl, hl'⟩ := hlen rfl
    have hk : RsaPair x.rsa priv.rsa pub.rsa := hk
    rw [c51_x509_verify_partial x hx t1 pub d _ b1 b2 (by rw [hl, hk.size]) (by rw [hk.size, ← hl]; exact hl')]
    simp only [sign, withArgs, a1, a2, needInit, if_true, reduceCtorEq, if_false, sized] at hs ⊢
    split at hs
    · cases hs
    · rename_i hn
      rw [if_neg hn]
      have hw := finishSig_ok hs
      refine hk.rawSign _ rnd _ hl (Eq.trans ?_ hw)
      unfold rsaSign
      rw [if_neg (by omega)]
  case rsaPkcs =>
    obtain ⟨a1, a2⟩ := plainInit_ok h1
    obtain ⟨b1, b2⟩ := plainInit_ok h2
    have hk : RsaPair x.rsa priv.rsa pub.rsa := hk
    rw [(c50_pkcs_verify_exact x t1 pub d _ b1 b2).1]
    simp only [sign, withArgs, a1, a2, needInit, if_true, reduceCtorEq, if_false, sized] at hs ⊢
    split at hs
    · cases hs
    · rename_i hn
      rw [if_neg hn]
      exact hk.pkcsSign _ _ _ (finishSig_ok hs)
  case rsaPss =>
    obtain ⟨a1, a2, ha, hb, hn, hp, a3⟩ := pssInit_ok h1
    obtain ⟨b1, b2, ha', hb', hn', he, b3⟩ := pssInit_ok h2
    subst hp
    cases he
    have hk : RsaPair x.rsa priv.rsa pub.rsa := hk
    rw [c67_pss_verify_exact x _ t1 pub d _ _ _ _ h2]
    simp only [sign, withArgs, a1, a2, a3, pssSign, Bool.false_eq_true, needInit, if_true, reduceCtorEq, if_false, sized] at hs ⊢
    split at hs
    · cases hs
    · rename_i hn
      rw [if_neg hn]
      exact hk.pss _ _ _ _ _ _ (finishSig_ok hs)
  case ecdsa =>
    obtain ⟨a1, a2⟩ := plainInit_ok h1
    obtain ⟨b1, b2⟩ := plainInit_ok h2
    obtain ⟨c, hk⟩ := hk
    cases hd : x.ecdsa.sign priv.ec d rnd with
    | none =>
      simp only [sign, withArgs, a1, a2, needInit, if_true, reduceCtorEq, if_false, sized, hk.priv_curve, ecSign, hd,
        finishSig] at hs
      split at hs <;> cases hs
    | some der =>
      obtain ⟨r, q, hder, hr, hq, hv⟩ := hk.sign d rnd der hd
      have e := c52_sign x s1 priv c d der n rnd r q a1 a2 hk.priv_curve hd hder hr hq
      rw [e] at hs ⊢
      split at hs
      · rename_i hn
        rw [if_pos hn]
        dsimp only
        obtain ⟨der', hd', hok, _⟩ := (c52_verify x t1 pub c d (toBE c.size r ++ toBE c.size q) b1 b2 hk.pub_curve hk.size).2
          (by simp [toBE_length]; omega)
        rw [hok]
        obtain ⟨f1, f2⟩ := toBE_inj' hr hq
        rw [f1, f2] at hd'
        exact hv der' hd'
      · cases hs
  case hmac a =>
    obtain ⟨hk, hm⟩ := hk
    have e1 := (c49_sign_split x hm s s1 priv a p [d] n rnd h1)
    have e2 := (c49_verify_exact x hm t t1 pub a p [d] (sign x s1 (some priv) (some d) (.buf n) rnd).2.wr h2).2
    simp only [List.flatten_cons, List.flatten_nil, List.append_nil] at e1 e2
    rw [e2, if_pos]
    rw [e1.1] at e1
    rw [e1.2] at hs ⊢
    split at hs
    · rename_i hn; rw [if_pos hn, hk]
    · cases hs

/-- What `C_Sign` with `CKM_RSA_X_509` signs: the data with zero bytes in front, up to
the length of the key; its signature opens to just that. -/
theorem c77_x509_block (x : Crypto) (s : OpSt) (priv pub : Obj) (d : Bytes) (n rnd : Nat)
    (hk : RsaPair x.rsa priv.rsa pub.rsa) (hd : d.length ≤ priv.rsa.keyLen)
    (h1 : s.mech = .rsaX509) (h2 : s.init = .rsaX509Sign)
    (hs : (sign x s (some priv) (some d) (.buf n) rnd).2.rv = .ok) :
    ∃ zeros, (∀ b ∈ zeros, b = 0) ∧ zeros.length + d.length = priv.rsa.keyLen ∧
      x.rsa.raw .publicDecrypt pub.rsa (sign x s (some priv) (some d) (.buf n) rnd).2.wr 0 = some (zeros ++ d) := by
  simp only [sign, withArgs, h1, h2, needInit, if_true, reduceCtorEq, if_false, sized] at hs ⊢
  split at hs
  · cases hs
  · rename_i hn
    rw [if_neg hn]
    have hw := finishSig_ok hs
    refine ⟨List.replicate (priv.rsa.keyLen - d.length) 0, fun b hb => (List.mem_replicate.mp hb).2,
      by simp; omega, hk.rawSign _ rnd _ (by simp; omega) (Eq.trans ?_ hw)⟩
    unfold rsaSign
    dsimp only
    split
    · rfl
    · rw [show priv.rsa.keyLen - d.length = 0 by omega]; rfl

/-- **C78**: `C_Encrypt` in a session whose `C_EncryptInit` with an RSA mechanism
succeeded, then `C_Decrypt` of what it wrote in any session whose `C_DecryptInit` with
the same mechanism and parameter and the private key succeeded, and a buffer as long as
the key: the data comes back.  For `CKM_RSA_X_509` wolfCrypt accepts only data as long
as the key. -/
theorem c78_rsa_round_trip (x : Crypto) (s t s1 t1 : OpSt) (priv pub : Obj) (m : Mech) (p : MechParam)
    (d : Bytes) (n n' rnd rnd' : Nat) (hk : RsaPair x.rsa priv.rsa pub.rsa)
    (hm : m = .rsaX509 ∧ d.length = priv.rsa.keyLen ∨ m = .rsaPkcs ∨ m = .rsaOaep)
    (h1 : encryptInit s pub m p = (s1, .ok)) (h2 : decryptInit t priv m p = (t1, .ok))
    (hs : (encrypt x s1 (some pub) (some d) (.buf n) rnd).2.rv = .ok) (hn' : priv.rsa.keyLen ≤ n') :
    (decrypt x t1 (some priv) (some (encrypt x s1 (some pub) (some d) (.buf n) rnd).2.wr) (.buf n') rnd').2 =
      { rv := .ok, wr := d, len := some d.length } := by
  rcases hm with ⟨rfl, hl⟩ | rfl | rfl
  · obtain ⟨a1, a2⟩ := plainInit_ok h1
    obtain ⟨b1, b2⟩ := plainInit_ok h2
    simp only [encrypt, decrypt, withArgs, a1, a2, b1, b2, needInit, if_true, reduceCtorEq, if_false, sized] at hs ⊢
    split at hs
    · cases hs
    · rename_i hn
      rw [if_neg hn, if_neg (by omega), hk.rawEnc _ _ _ _ hl (finish_ok hs)]
      rfl
  · obtain ⟨a1, a2⟩ := plainInit_ok h1
    obtain ⟨b1, b2⟩ := plainInit_ok h2
    simp only [encrypt, decrypt, withArgs, a1, a2, b1, b2, needInit, if_true, reduceCtorEq, if_false, sized] at hs ⊢
    split at hs
    · cases hs
    · rename_i hn
      rw [if_neg hn, if_neg (by omega), hk.pkcsEnc _ _ _ (finish_ok hs)]
      rfl
  · obtain ⟨a1, a2, ha, hb, hn, hp, a3⟩ := oaepInit_ok h1
    obtain ⟨b1, b2, ha', hb', hn', he, b3⟩ := oaepInit_ok h2
    subst hp
    cases he
    simp only [encrypt, decrypt, withArgs, a1, a2, a3, b1, b2, b3, oaepEnc, oaepDec, Bool.false_eq_true, needInit, if_true, reduceCtorEq, if_false, sized] at hs ⊢
    split at hs
    · cases hs
    · rename_i hn
      rw [if_neg hn, if_neg (by omega), hk.oaep _ _ _ _ _ _ _ (finish_ok hs)]
      rfl

namespace Demo

/-- Toy RSA of which both halves are inverse to each other: the identity on blocks of the
length of the key. -/
def blockRsa : Rsa where
  raw _ k d _ := if d.length = k.keyLen then some d else none
  encPkcs k d _ := if d.length = k.keyLen then some d else none
  decPkcs k d := if d.length ≤ k.keyLen then some d else none
  encOaep k _ _ _ _ d _ := if d.length = k.keyLen then some d else none
  decOaep k _ _ _ _ d := if d.length ≤ k.keyLen then some d else none
  signPkcs k d _ := if d.length = k.keyLen then some d else none
  verifyPkcs _ s := some s
  signPss k _ _ _ d _ := if d.length = k.keyLen then some d else none
  verifyPss _ _ _ _ s := .msg s
  checkPss _ _ h m := if some h = m then .msg h else .badPadding

theorem blockRsa_pair' (k k' : RsaKey) (h : k'.n = k.n) : RsaPair blockRsa k k' := by
  have h : k'.keyLen = k.keyLen := by unfold RsaKey.keyLen; rw [h]
  constructor <;> (try simp only [blockRsa]) <;> intros <;> simp_all <;> (rename_i a; rw [← a.2]; omega)

theorem blockRsa_lawful : blockRsa.Lawful := by
  constructor <;> (try simp only [blockRsa]) <;> intros <;> simp_all <;> (rename_i a; rw [← a.2]; omega)

theorem blockRsa_pair (k : RsaKey) : RsaPair blockRsa k k := blockRsa_pair' k k rfl

/-- The toy ECDSA has one signature for everything, r = s = 1. -/
theorem ecdsa_pair' (k k' : EcKey) (c : Curve) (h : k.dp = some c) (h' : k'.dp = some c)
    (hs : 0 < c.size ∧ c.size ≤ 124) : EcPair ecdsa k k' c := by
  refine ⟨h, h', hs, ?_⟩
  intro d rnd der hd
  have hd : der = [0x30, 6, 2, 1, 1, 2, 1, 1] := by simpa [ecdsa, eq_comm] using hd
  have hone : IsDerInt 1 [1] := ⟨rfl, by simp, by decide, by simp⟩
  have huniq : ∀ c, IsDerInt 1 c → c = [1] := by
    intro c hc
    match c, hc with
    | [], hc => exact absurd rfl hc.nonempty
    | [a], hc =>
      have := hc.value
      simp only [fromBE, List.foldl_cons, List.foldl_nil, Nat.zero_mul, Nat.zero_add] at this
      rw [show a = 1 from UInt8.toNat_inj.mp this]
    | a :: b :: l, hc =>
      exfalso
      have hv := hc.value
      have hm := hc.minimal (by simp)
      have hge : ∀ (l : List UInt8) (n : Nat), n ≤ l.foldl (fun a x => a * 256 + x.toNat) n := by
        intro l
        induction l with
        | nil => intro n; exact Nat.le_refl _
        | cons q l ih => intro n; exact Nat.le_trans (show n ≤ n * 256 + q.toNat by omega) (ih _)
      simp only [fromBE, List.foldl_cons, Nat.zero_mul, Nat.zero_add] at hv
      have := hge l (a.toNat * 256 + b.toNat)
      have ha : a.toNat = 0 := by omega
      have := hm (UInt8.toNat_inj.mp (by simpa using ha))
      simp at this
      omega
  have hp : 1 < 256 ^ c.size := Nat.one_lt_pow (by omega) (by omega)
  refine ⟨1, 1, ⟨[1], [1], hone, hone, by decide, by decide, by decide, by rw [hd]; decide⟩, hp, hp, ?_⟩
  rintro der' ⟨cr, cs, h1, h2, _, _, _, rfl⟩
  rw [huniq cr h1, huniq cs h2]
  rfl

/-- Non-vacuity of `c77_partial`: every kind of mechanism has key pairs, successful Inits
and signatures. -/
example : let x : Crypto := { Demo.x with rsa := blockRsa }
    KeyPair x .rsaX509 demoRsa demoRsa ∧ KeyPair x .rsaPkcs demoRsa demoRsa ∧ KeyPair x .rsaPss demoRsa demoRsa ∧
    (signInit x {} demoRsa .rsaX509 (.null 0)).2 = .ok ∧ (verifyInit x {} demoRsa .rsaX509 (.null 0)).2 = .ok ∧
    (sign x (signInit x {} demoRsa .rsaX509 (.null 0)).1 (some demoRsa) (some [1, 2]) (.buf 2) 0).2.rv = .ok ∧
    (sign x (signInit x {} demoRsa .rsaX509 (.null 0)).1 (some demoRsa) (some [2]) (.buf 2) 0).2.wr = [0, 2] :=
  ⟨blockRsa_pair _, blockRsa_pair _, blockRsa_pair _, by decide, by decide, by decide, by decide⟩

example : let o : Obj := { typ := CKK_EC, cls := CKO_PRIVATE_KEY, data := .ec { dp := some ⟨7, 32, [6]⟩ } }
    KeyPair x .ecdsa o o ∧ (signInit x {} o .ecdsa (.null 0)).2 = .ok ∧ (verifyInit x {} o .ecdsa (.null 0)).2 = .ok ∧
    (sign x (signInit x {} o .ecdsa (.null 0)).1 (some o) (some [1, 2]) (.buf 64) 0).2.rv = .ok :=
  ⟨⟨_, ecdsa_pair' _ _ ⟨7, 32, [6]⟩ rfl rfl (by decide)⟩, by decide, by decide, by decide⟩

example : KeyPair x (.hmac .sha256) secret secret ∧ (signInit x {} secret (.hmac .sha256) (.null 0)).2 = .ok :=
  ⟨⟨rfl, mac_lawful⟩, by decide⟩

/-- Non-vacuity of `c78_rsa_round_trip`. -/
example : let x : Crypto := { Demo.x with rsa := blockRsa }
    let s1 := (encryptInit {} demoRsa .rsaOaep (.oaep (some .sha1) (some .sha1) true none)).1
    (encryptInit {} demoRsa .rsaOaep (.oaep (some .sha1) (some .sha1) true none)).2 = .ok ∧
    (encrypt x s1 (some demoRsa) (some [1, 2]) (.buf 2) 0).2.rv = .ok := by decide

end Demo
end Verif
