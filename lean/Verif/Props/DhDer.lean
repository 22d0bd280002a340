import Verif.Model.DhDer
import Verif.Proofs.Der
import Verif.Proofs.Codec

/-!
# C57: the DER encodings used in storage
-/

namespace Verif

open Spec

theorem beBytes_eq (k n : Nat) : beBytes k n = toBE k n := by
  induction k generalizing n with
  | zero => rfl
  | succ k ih =>
    simp only [beBytes, toBE, ih]
    congr 2
    apply UInt8.toNat_inj.mp
    simp

theorem toBE_cons (k n : Nat) : toBE (k + 1) n = UInt8.ofNat (n / 256 ^ k) :: toBE k n := by
  induction k generalizing n with
  | zero => simp [toBE]
  | succ k ih =>
    rw [toBE, ih, toBE]
    simp [Nat.div_div_eq_div_mul, Nat.pow_succ, Nat.mul_comm]

theorem top_byte (k n : Nat) (h1 : 256 ^ k ≤ n) (h2 : n < 256 ^ (k + 1)) :
    (UInt8.ofNat (n / 256 ^ k)).toNat = n / 256 ^ k ∧ 1 ≤ n / 256 ^ k := by
  have hp : 0 < 256 ^ k := Nat.pow_pos (by omega)
  have h3 : n / 256 ^ k < 256 := by
    rw [Nat.div_lt_iff_lt_mul hp, Nat.mul_comm, ← Nat.pow_succ]; exact h2
  refine ⟨?_, (Nat.le_div_iff_mul_le hp).mpr (by omega)⟩
  rw [UInt8.toNat_ofNat']; exact Nat.mod_eq_of_lt h3

theorem lengthBytes_eq (v j : Nat) : lengthBytes v j = toBE j v := by
  induction j with
  | zero => rfl
  | succ j ih => rw [lengthBytes, toBE_cons, ih]

theorem bytePrecision_spec (v : Nat) (h : v < 2 ^ 32) (h0 : v ≠ 0) :
    1 ≤ bytePrecision v ∧ bytePrecision v ≤ 4 ∧ v < 256 ^ bytePrecision v ∧ 256 ^ (bytePrecision v - 1) ≤ v := by
  unfold bytePrecision
  split
  · refine ⟨by omega, by omega, by omega, by omega⟩
  · split
    · refine ⟨by omega, by omega, by omega, by omega⟩
    · split
      · refine ⟨by omega, by omega, by omega, by omega⟩
      · refine ⟨by simp [h0], by simp [h0], by simp [h0]; omega, by simp [h0]; omega⟩

theorem setLengthSize_eq (v : Nat) : setLengthSize v = (setLength v).length := by
  unfold setLengthSize setLength
  split
  · rfl
  · simp [lengthBytes_eq, toBE_length]; omega

/-- C57 for lengths: for every length a `word32` can hold, the octets written are the DER
length octets and the size computed beforehand is their number. -/
theorem c57_length (v : Nat) (h : v < 2 ^ 32) :
    IsDerLen v (setLength v) ∧ setLengthSize v = (setLength v).length := by
  refine ⟨?_, setLengthSize_eq v⟩
  unfold setLength
  split
  · left; exact ⟨by omega, rfl⟩
  · right
    rename_i h80
    obtain ⟨b1, b2, b3, b4⟩ := bytePrecision_spec v h (by omega)
    refine ⟨by omega, ?_⟩
    obtain ⟨k, hk⟩ : ∃ k, bytePrecision v = k + 1 := ⟨bytePrecision v - 1, by omega⟩
    refine ⟨UInt8.ofNat (v / 256 ^ k), toBE k v, ?_, ?_, ?_, ?_⟩
    · rw [lengthBytes_eq, hk, toBE_cons]
      congr 1
      simp only [List.length_cons, toBE_length]
      have : ∀ j, j < 4 → UInt8.ofNat (j + 1 ||| 0x80) = UInt8.ofNat (128 + (j + 1)) := by decide
      exact this k (by omega)
    · simp [toBE_length]; omega
    · intro hz
      rw [hk] at b3 b4
      obtain ⟨t1, t2⟩ := top_byte k v b4 b3
      rw [hz] at t1
      have : (0 : UInt8).toNat = 0 := rfl
      omega
    · rw [← toBE_cons, fromBE_toBE]
      rw [← hk]; exact b3

theorem mpSize_pos (n : Nat) (h : n ≠ 0) :
    mpSize n = Nat.log2 n / 8 + 1 ∧ 256 ^ (Nat.log2 n / 8) ≤ n ∧ n < 256 ^ (Nat.log2 n / 8 + 1) := by
  have h1 := Nat.log2_self_le h
  have h2 := Nat.lt_log2_self (n := n)
  have e : Nat.log2 (2 * n) = Nat.log2 n + 1 := Nat.log2_two_mul h
  have p8 : ∀ k, 256 ^ k = 2 ^ (8 * k) := fun k => by rw [Nat.pow_mul]
  refine ⟨by unfold mpSize; omega, ?_, ?_⟩
  · rw [p8]
    exact Nat.le_trans (Nat.pow_le_pow_right (by omega) (by omega)) h1
  · rw [p8]
    exact Nat.lt_of_lt_of_le h2 (Nat.pow_le_pow_right (by omega) (by omega))

theorem mpBytes_spec (n : Nat) (h : n ≠ 0) :
    ∃ d ds, mpBytes n = d :: ds ∧ d ≠ 0 ∧ fromBE (mpBytes n) = n ∧ (mpBytes n).length = mpSize n ∧
      (mpLeadingBit n = true ↔ 128 ≤ d.toNat) := by
  obtain ⟨e, h1, h2⟩ := mpSize_pos n h
  obtain ⟨t1, t2⟩ := top_byte _ n h1 h2
  refine ⟨UInt8.ofNat (n / 256 ^ (Nat.log2 n / 8)), toBE (Nat.log2 n / 8) n, ?_, ?_, ?_, ?_, ?_⟩
  · rw [mpBytes, e, beBytes_eq, toBE_cons]
  · intro hz; rw [hz] at t1; have : (0 : UInt8).toNat = 0 := rfl; omega
  · rw [mpBytes, e, beBytes_eq, fromBE_toBE _ _ h2]
  · rw [mpBytes, length_beBytes]
  · rw [t1]
    have g1 := Nat.log2_self_le h
    have g2 := Nat.lt_log2_self (n := n)
    have p8 : 256 ^ (Nat.log2 n / 8) = 2 ^ (8 * (Nat.log2 n / 8)) := by rw [Nat.pow_mul]
    have hp : 0 < 256 ^ (Nat.log2 n / 8) := Nat.pow_pos (by omega)
    rw [Nat.le_div_iff_mul_le hp, p8]
    have : 128 * 2 ^ (8 * (Nat.log2 n / 8)) = 2 ^ (8 * (Nat.log2 n / 8) + 7) := by
      rw [Nat.pow_add]; omega
    rw [this]
    simp only [mpLeadingBit, bne_iff_ne, ne_eq, Bool.and_eq_true, beq_iff_eq, h, not_false_eq_true, true_and]
    constructor
    · intro hb
      exact Nat.le_trans (Nat.pow_le_pow_right (by omega) (by omega)) g1
    · intro hb
      have : 2 ^ (8 * (Nat.log2 n / 8) + 7) < 2 ^ (Nat.log2 n + 1) := Nat.lt_of_le_of_lt hb g2
      have := (Nat.pow_lt_pow_iff_right (by omega)).mp this
      omega

/-- Contents octets as the code writes them. -/
def derContents (n : Nat) : Bytes := (if mpLeadingBit n then [0] else []) ++ mpBytes n

theorem derContents_spec (n : Nat) (h : n ≠ 0) :
    IsDerInt n (derContents n) ∧ (derContents n).length = mpSize n + (if mpLeadingBit n then 1 else 0) := by
  obtain ⟨d, ds, e, hd, hv, hl, hb⟩ := mpBytes_spec n h
  unfold derContents
  by_cases hm : mpLeadingBit n = true
  · simp only [hm, if_true]
    refine ⟨⟨?_, by simp, by simp, ?_⟩, by simp [hl, Nat.add_comm]⟩
    · rw [List.singleton_append, fromBE_cons, hv]; simp
    · intro _ _
      rw [e]
      simpa using hb.mp hm
  · simp only [hm, if_false, Bool.false_eq_true]
    refine ⟨⟨hv, by simp [e], ?_, ?_⟩, by simp [hl]⟩
    · rw [List.nil_append, e]
      have := mt hb.mpr hm
      simp only [List.getD_cons_zero]; omega
    · rw [List.nil_append, e]
      intro _ h0
      exact absurd h0 hd

theorem setLength_le (v : Nat) : 1 ≤ (setLength v).length ∧ (setLength v).length ≤ 5 := by
  rw [← setLengthSize_eq]
  unfold setLengthSize bytePrecision
  (repeat' split) <;> omega

theorem setLength_le4 (v : Nat) (h : v < 2 ^ 24) : (setLength v).length ≤ 4 := by
  rw [← setLengthSize_eq]
  unfold setLengthSize bytePrecision
  have : v / 2 ^ 24 = 0 := by omega
  simp only [this, ne_eq, not_true_eq_false, if_false]
  (repeat' split) <;> omega

/-- One INTEGER as written. -/
def derIntTlv (n : Nat) : Bytes := 0x02 :: (setLength (derContents n).length ++ derContents n)

theorem putInt_eq (cap n : Nat) (h : n ≠ 0) (acc : Bytes)
    (hc : 1 + (setLength (derContents n).length).length + (derContents n).length + acc.length ≤ cap) :
    putInt cap n acc = some (derIntTlv n ++ acc) := by
  obtain ⟨_, hl⟩ := derContents_spec n h
  obtain ⟨d, ds, e, hd, hv, hml, hb⟩ := mpBytes_spec n h
  have hs := setLength_le (derContents n).length
  unfold putInt derIntTlv
  simp only [← hl, setLengthSize_eq]
  have s1 : putFront cap (mpSize n) (mpBytes n) acc = some (mpBytes n ++ acc) := by
    unfold putFront; rw [if_pos ⟨hml.symm, by omega⟩]
  have s2 : (if mpLeadingBit n = true then putFront cap 1 [0] (mpBytes n ++ acc) else some (mpBytes n ++ acc)) =
      some (derContents n ++ acc) := by
    by_cases hm : mpLeadingBit n = true
    · have hk : (derContents n).length = 1 + (mpBytes n).length := by simp [derContents, hm]; omega
      rw [if_pos hm, putFront, if_pos ⟨rfl, by simp; omega⟩]
      simp [derContents, hm]
    · simp [derContents, hm]
  rw [s1]
  simp only [Option.bind_some, s2]
  rw [putFront, if_pos ⟨rfl, by simp; omega⟩]
  simp only [Option.bind_some]
  rw [putFront, if_pos ⟨rfl, by simp; omega⟩]
  simp

/-- C57 for the Diffie-Hellman parameters: for all positive p and g (of up to 16 MB
in total; the integers of wolfCrypt are much smaller) the encoder fills its buffer without leaving it, and the result is the DER
encoding of SEQUENCE { INTEGER p, INTEGER g }. -/
theorem c57_dh_params (p g : Nat) (hp : p ≠ 0) (hg : g ≠ 0) (hs : dhDerBound p g < 2 ^ 24) :
    ∃ w, dhParamsToDer p g = some w ∧ w.length ≤ dhDerBound p g ∧ IsDerSeq2 p g w := by
  obtain ⟨ip, lp⟩ := derContents_spec p hp
  obtain ⟨ig, lg⟩ := derContents_spec g hg
  have bound : dhDerBound p g = 15 + (derContents p).length + (derContents g).length := by
    rw [lp, lg]; unfold dhDerBound; omega
  have sp := setLength_le4 (derContents p).length (by omega)
  have sg := setLength_le4 (derContents g).length (by omega)
  have tp : (derIntTlv p).length = 1 + ((setLength (derContents p).length).length + (derContents p).length) := by
    simp [derIntTlv]; omega
  have tg : (derIntTlv g).length = 1 + ((setLength (derContents g).length).length + (derContents g).length) := by
    simp [derIntTlv]; omega
  have e1 := putInt_eq (dhDerBound p g) g hg [] (by rw [bound]; simp; omega)
  have e2 := putInt_eq (dhDerBound p g) p hp (derIntTlv g) (by rw [bound, tg]; omega)
  rw [List.append_nil] at e1
  have hbody : (derIntTlv p ++ derIntTlv g).length ≤ 10 + (derContents p).length + (derContents g).length := by
    rw [List.length_append, tp, tg]; omega
  have hseq := setLength_le4 (derIntTlv p ++ derIntTlv g).length (by omega)
  have hw : dhParamsToDer p g =
      some (0x30 :: (setLength (derIntTlv p ++ derIntTlv g).length ++ (derIntTlv p ++ derIntTlv g))) := by
    unfold dhParamsToDer
    simp only [e1, Option.bind_some, e2, setLengthSize_eq]
    rw [putFront, if_pos ⟨rfl, by omega⟩]
    simp only [Option.bind_some]
    rw [putFront, if_pos ⟨rfl, by rw [List.length_append]; omega⟩]
    rfl
  refine ⟨_, hw, ?_, derContents p, derContents g, derIntTlv p, derIntTlv g, ip, ig,
    ⟨_, (c57_length _ (by omega)).1, rfl⟩, ⟨_, (c57_length _ (by omega)).1, rfl⟩,
    ⟨_, (c57_length _ (by omega)).1, rfl⟩⟩
  rw [List.length_cons, List.length_append]; omega

theorem derInt_unique {n n' : Nat} {c : Bytes} (h : IsDerInt n c) (h' : IsDerInt n' c) : n = n' :=
  h.value.symm.trans h'.value

theorem tlv_prefix {t t' : UInt8} {c c' w w' r r' : Bytes} (h : IsTlv t c w) (h' : IsTlv t' c' w')
    (e : w ++ r = w' ++ r') : c = c' ∧ w = w' ∧ r = r' := by
  obtain ⟨l, hl, rfl⟩ := h
  obtain ⟨l', hl', rfl⟩ := h'
  simp only [List.cons_append, List.append_assoc, List.cons.injEq] at e
  obtain ⟨rfl, e⟩ := e
  suffices hh : l.length = l'.length by
    obtain ⟨el, e'⟩ := List.append_inj e hh
    subst el
    have hc : c.length = c'.length := by
      rcases hl with ⟨h1, h2⟩ | ⟨h1, d, ds, h2, h3, h4, h5⟩ <;>
        rcases hl' with ⟨g1, g2⟩ | ⟨g1, d', ds', g2, g3, g4, g5⟩
      · rw [h2] at g2
        have := congrArg UInt8.toNat (List.cons.inj g2).1
        rw [UInt8.toNat_ofNat', UInt8.toNat_ofNat'] at this
        omega
      · rw [h2] at g2; simp at g2
      · rw [h2] at g2; simp at g2
      · rw [h2] at g2
        rw [← h5, ← g5, (List.cons.inj g2).2]
    obtain ⟨rfl, rfl⟩ := List.append_inj e' hc
    exact ⟨rfl, rfl, rfl⟩
  rcases hl with ⟨h1, h2⟩ | ⟨h1, d, ds, h2, h3, h4, h5⟩ <;>
    rcases hl' with ⟨g1, g2⟩ | ⟨g1, d', ds', g2, g3, g4, g5⟩
  · simp [h2, g2]
  · exfalso
    rw [h2, g2] at e
    have e := congrArg UInt8.toNat (List.cons.inj e).1
    simp only [List.length_cons] at e g3
    rw [UInt8.toNat_ofNat', UInt8.toNat_ofNat'] at e
    omega
  · exfalso
    rw [h2, g2] at e
    have e := congrArg UInt8.toNat (List.cons.inj e).1
    simp only [List.length_cons] at e h3
    rw [UInt8.toNat_ofNat', UInt8.toNat_ofNat'] at e
    omega
  · rw [h2, g2] at e ⊢
    have e := congrArg UInt8.toNat (List.cons.inj e).1
    simp only [List.length_cons] at e h3 g3 ⊢
    rw [UInt8.toNat_ofNat', UInt8.toNat_ofNat'] at e
    omega

/-- C57: an encoding stands for one pair of numbers only, so what is stored decodes to
the parameters it was made from. -/
theorem c57_unique (p g p' g' : Nat) (w : Bytes) (h : IsDerSeq2 p g w) (h' : IsDerSeq2 p' g' w) :
    p = p' ∧ g = g' := by
  obtain ⟨cp, cg, wp, wg, ip, ig, tp, tg, ts⟩ := h
  obtain ⟨cp', cg', wp', wg', ip', ig', tp', tg', ts'⟩ := h'
  obtain ⟨e, _, _⟩ := tlv_prefix ts ts' (r := []) (r' := []) rfl
  obtain ⟨ecp, _, e2⟩ := tlv_prefix tp tp' e
  subst e2
  obtain ⟨ecg, _, _⟩ := tlv_prefix tg tg' (r := []) (r' := []) rfl
  subst ecp ecg
  exact ⟨derInt_unique ip ip', derInt_unique ig ig'⟩

/-- C57 has the condition that p and g are not zero for a reason: the number 0 is written
without contents octets, which is not DER.  A Diffie-Hellman object created without
parameters is stored that way. -/
theorem c57_violated_zero : ∃ w, dhParamsToDer 0 0 = some w ∧ ∀ p g, ¬ IsDerSeq2 p g w := by
  refine ⟨[0x30, 0x04, 0x02, 0x00, 0x02, 0x00], by decide, ?_⟩
  rintro p g ⟨cp, cg, wp, wg, ip, ig, tp, tg, ts⟩
  have hs : IsTlv 0x30 [0x02, 0x00, 0x02, 0x00] ([0x30, 0x04, 0x02, 0x00, 0x02, 0x00] : Bytes) :=
    ⟨[4], Or.inl ⟨by decide, rfl⟩, rfl⟩
  obtain ⟨e, _, _⟩ := tlv_prefix ts hs (r := []) (r' := []) rfl
  have hi : IsTlv 0x02 [] ([0x02, 0x00] : Bytes) := ⟨[0], Or.inl ⟨by decide, rfl⟩, rfl⟩
  obtain ⟨e2, _, _⟩ := tlv_prefix tp hi (r' := [0x02, 0x00]) e
  exact ip.nonempty e2

/-- Non-vacuity: p with the leading bit set and a long form length. -/
example : dhDerBound (2 ^ 63 + 29) 2 < 2 ^ 24 ∧ (2 ^ 63 + 29 : Nat) ≠ 0 := by decide

example : dhParamsToDer 200 3 = some [0x30, 0x07, 0x02, 0x02, 0x00, 200, 0x02, 0x01, 3] := by decide

end Verif
