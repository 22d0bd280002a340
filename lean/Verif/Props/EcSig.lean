import Verif.Proofs.EcSig
import Verif.Proofs.Demo

/-!
# C52: ECDSA signatures
-/

set_option linter.unusedSimpArgs false

namespace Verif

open Spec

/-- C52, C_Verify direction: for every fixed-length signature of a curve of ordinate
size `sz`, the bytes given to wolfCrypt are the DER encoding of the same two numbers. -/
theorem c52_encode (sz : Nat) (hsz : 0 < sz ∧ sz ≤ 124) (rb sb : Bytes) (hr : rb.length = sz)
    (hs : sb.length = sz) : IsDerSig (fromBE rb) (fromBE sb) (sigEncode (rb ++ sb)) := by
  have e1 : (rb ++ sb).length / 2 = sz := by simp [hr, hs]; omega
  have e2 : (rb ++ sb).take sz = rb := List.take_left' hr
  have e3 : ((rb ++ sb).drop sz).take sz = sb := by
    rw [List.drop_left' hr]; exact List.take_of_length_le (by omega)
  obtain ⟨h1, h2⟩ := intContent_spec rb (by intro h; simp [h] at hr; omega)
  obtain ⟨h3, h4⟩ := intContent_spec sb (by intro h; simp [h] at hs; omega)
  have b1 : (intContent rb).length < 128 := by omega
  have b2 : (intContent sb).length < 128 := by omega
  refine ⟨intContent rb, intContent sb, h1, h3, b1, b2, ?_⟩
  simp only [derLen, b1, b2, if_true, sigEncode, e1, e2, e3, derIntBytes_eq]
  refine ⟨by simp; omega, ?_⟩
  split
  · rw [if_neg (by simp at *; omega)]; simp
  · rw [if_pos (by simp at *; omega)]; simp

/-- C52, C_Sign direction: the DER encoding of any two numbers that fit the ordinate
size is converted to the fixed-length form of the same numbers. -/
theorem c52_decode (sz r s : Nat) (hr : r < 256 ^ sz) (hs : s < 256 ^ sz) (der : Bytes)
    (h : IsDerSig r s der) : sigDecode der sz = .ok (toBE sz r ++ toBE sz s) := by
  obtain ⟨cr, cs, h1, h2, l1, l2, hb, rfl⟩ := h
  simp only [derLen, l1, l2, if_true, List.singleton_append] at hb ⊢
  have p1 : 0 < cr.length := List.length_pos_iff.mpr h1.nonempty
  have p2 : 0 < cs.length := List.length_pos_iff.mpr h2.nonempty
  generalize hbody : (0x02 :: UInt8.ofNat cr.length :: cr ++ 0x02 :: UInt8.ofNat cs.length :: cs : Bytes) = body at hb ⊢
  have hbl : body.length = 4 + cr.length + cs.length := by rw [← hbody]; simp; omega
  -- the two forms of the length
  have main : ∀ (pre : Bytes) (inp : Bytes), inp = pre ++ body → pre.length ≤ 3 → 2 ≤ pre.length →
      decodeInt inp pre.length sz = .ok (toBE sz r, pre.length + 2 + cr.length) ∧
      ¬ pre.length + 2 + cr.length + 2 > inp.length ∧
      decodeInt inp (pre.length + 2 + cr.length) sz = .ok (toBE sz s, pre.length + 2 + cr.length + 2 + cs.length) := by
    intro pre inp hin _ _
    have d1 : inp.drop pre.length = body := by rw [hin]; exact List.drop_left
    have d2 : inp.drop (pre.length + 2 + cr.length) = 0x02 :: UInt8.ofNat cs.length :: (cs ++ []) := by
      rw [Nat.add_assoc, ← List.drop_drop, d1, ← hbody, Nat.add_comm, ← List.drop_drop]
      simp
    refine ⟨decodeInt_spec (rest := 0x02 :: UInt8.ofNat cs.length :: cs) h1 hr (by omega) (by rw [d1, ← hbody]; simp), ?_,
      decodeInt_spec h2 hs (by omega) d2⟩
    rw [hin, List.length_append, hbl]; omega
  by_cases hlt : body.length < 128
  · simp only [hlt, if_true]
    obtain ⟨m1, m2, m3⟩ := main [0x30, UInt8.ofNat body.length] (0x30 :: ([UInt8.ofNat body.length] ++ body)) rfl
      (by simp) (by simp)
    simp only [List.length_cons, List.length_nil, Nat.zero_add, Nat.reduceAdd] at m1 m2 m3
    have hb1 : (UInt8.ofNat body.length).toNat = body.length := by rw [UInt8.toNat_ofNat']; omega
    have hb2 : ¬ UInt8.ofNat body.length ≥ 0x80 := by
      intro h
      have := UInt8.le_iff_toNat_le.mp h
      rw [hb1] at this
      simp at this; omega
    unfold sigDecode
    simp only [List.length_cons, List.length_append, List.length_nil, List.getD_cons_zero, List.getD_cons_succ,
      List.singleton_append, List.cons_append, List.nil_append]
    simp only [hb2, if_false, false_and, List.getD_cons_succ, List.getD_cons_zero, Nat.reduceSub, hb1]
    simp only [List.singleton_append, List.cons_append, List.nil_append, List.length_cons, List.length_append, List.length_nil] at m1 m2 m3
    rw [if_neg (by omega), if_neg (by simp), if_neg (by omega), m1]
    simp only
    rw [if_neg m2, m3]
  · simp only [hlt, if_false]
    obtain ⟨m1, m2, m3⟩ := main [0x30, 0x81, UInt8.ofNat body.length] (0x30 :: ([0x81, UInt8.ofNat body.length] ++ body)) rfl
      (by simp) (by simp)
    simp only [List.length_cons, List.length_nil, Nat.zero_add, Nat.reduceAdd] at m1 m2 m3
    have hb1 : (UInt8.ofNat body.length).toNat = body.length := by rw [UInt8.toNat_ofNat']; omega
    have hb2 : (0x81 : UInt8) ≥ 0x80 := by decide
    unfold sigDecode
    simp only [List.length_cons, List.length_append, List.length_nil, List.getD_cons_zero, List.getD_cons_succ,
      List.singleton_append, List.cons_append, List.nil_append]
    simp only [hb2, if_true, true_and, List.getD_cons_succ, List.getD_cons_zero, Nat.reduceSub, hb1]
    simp only [List.cons_append, List.nil_append, List.length_cons, List.length_append, List.length_nil] at m1 m2 m3
    rw [if_neg (by omega), if_neg (by simp), if_neg (by simp), if_neg (by omega), m1]
    simp only
    rw [if_neg m2, m3]

/-- C52: the two conversions are inverse to each other. -/
theorem c52_round_trip (sz : Nat) (hsz : 0 < sz ∧ sz ≤ 124) (sig : Bytes) (h : sig.length = 2 * sz) :
    sigDecode (sigEncode sig) sz = .ok sig := by
  have h1 : (sig.take sz).length = sz := by simp; omega
  have h2 : (sig.drop sz).length = sz := by simp; omega
  have he := c52_encode sz hsz (sig.take sz) (sig.drop sz) h1 h2
  rw [List.take_append_drop] at he
  have b1 := fromBE_lt (sig.take sz)
  have b2 := fromBE_lt (sig.drop sz)
  have t1 := toBE_fromBE (sig.take sz)
  have t2 := toBE_fromBE (sig.drop sz)
  rw [h1] at b1 t1
  rw [h2] at b2 t2
  rw [c52_decode sz _ _ b1 b2 _ he, t1, t2, List.take_append_drop]

/-- C52: what `C_Sign` returns, given that wolfCrypt returns the DER encoding of two
numbers below 256^size: exactly twice the ordinate size many bytes, the two numbers in
fixed length. -/
theorem c52_sign (x : Crypto) (s : OpSt) (o : Obj) (c : Curve) (d der : Bytes) (n rnd r t : Nat)
    (h1 : s.mech = .ecdsa) (h2 : s.init = .ecdsaSign) (hc : o.ec.dp = some c)
    (hw : x.ecdsa.sign o.ec d rnd = some der) (hder : IsDerSig r t der)
    (hr : r < 256 ^ c.size) (ht : t < 256 ^ c.size) :
    (sign x s (some o) (some d) (.buf n) rnd).2 =
      if 2 * c.size ≤ n then
        { rv := .ok, wr := toBE c.size r ++ toBE c.size t, len := some (2 * c.size) }
      else { rv := .bufferTooSmall } := by
  have hd := c52_decode c.size r t hr ht der hder
  by_cases hn : 2 * c.size ≤ n
  · have hn' : ¬ 2 * c.size > n := by omega
    simp [sign, withArgs, needInit, sized, h1, h2, hc, ecSign, hw, hd, finishSig, hn, hn', toBE_length]
    omega
  · have hn' : 2 * c.size > n := by omega
    simp [sign, withArgs, needInit, sized, h1, h2, hc, hn, hn']

/-- C52: `C_Verify` refuses every signature of another length without asking wolfCrypt,
and otherwise answers what wolfCrypt says of the DER encoding of the two numbers. -/
theorem c52_verify (x : Crypto) (s : OpSt) (o : Obj) (c : Curve) (d sig : Bytes)
    (h1 : s.mech = .ecdsa) (h2 : s.init = .ecdsaVerify) (hc : o.ec.dp = some c)
    (hsz : 0 < c.size ∧ c.size ≤ 124) :
    (sig.length ≠ 2 * c.size → (verify x s (some o) (some d) (some sig)).2.rv = .functionFailed) ∧
    (sig.length = 2 * c.size → ∃ der,
      IsDerSig (fromBE (sig.take c.size)) (fromBE (sig.drop c.size)) der ∧
      ((verify x s (some o) (some d) (some sig)).2.rv = .ok ↔ x.ecdsa.verify o.ec der d = some true) ∧
      ((verify x s (some o) (some d) (some sig)).2.rv = .signatureInvalid ↔
        x.ecdsa.verify o.ec der d = some false)) := by
  constructor
  · intro hl
    simp [verify, withArgs, needInit, h1, h2, hc, ecVerify, hl, finishVerify]
  · intro hl
    refine ⟨sigEncode sig, ?_, ?_⟩
    · have := c52_encode c.size hsz (sig.take c.size) (sig.drop c.size) (by simp; omega) (by simp; omega)
      rwa [List.take_append_drop] at this
    · simp only [verify, withArgs, needInit, h1, h2, hc, ecVerify, hl, ne_eq, not_true_eq_false, if_false, if_true]
      cases hv : x.ecdsa.verify o.ec (sigEncode sig) d with
      | none => simp [finishVerify]
      | some b => cases b <;> simp [finishVerify]

/-- Non-vacuity: 32-byte ordinates, r with the top bit set and s = 0. -/
example : sigEncode (List.replicate 32 0xff ++ List.replicate 32 0) =
    [0x30, 38, 2, 33, 0] ++ List.replicate 32 0xff ++ [2, 1, 0] := by decide

example : sigDecode (sigEncode (List.replicate 66 0xff ++ List.replicate 66 1)) 66 =
    .ok (List.replicate 66 0xff ++ List.replicate 66 1) := c52_round_trip 66 (by omega) _ (by simp)

end Verif
