import Verif.Proofs.Der

namespace Verif

open Spec

theorem stripZeros_spec (v : Bytes) (h : v ≠ []) :
    fromBE (stripZeros v) = fromBE v ∧ stripZeros v ≠ [] ∧ (stripZeros v).length ≤ v.length ∧
    (1 < (stripZeros v).length → (stripZeros v).getD 0 0 ≠ 0) := by
  induction v with
  | nil => exact absurd rfl h
  | cons b v ih =>
    cases v with
    | nil => simp [stripZeros]
    | cons c v =>
      simp only [stripZeros]
      by_cases hb : b = 0
      · subst hb
        simp only [if_true]
        obtain ⟨h1, h2, h3, h4⟩ := ih (by simp)
        refine ⟨?_, h2, by simp at h3 ⊢; omega, h4⟩
        rw [h1, fromBE_cons 0 (c :: v)]; simp
      · simp only [hb, if_false]
        exact ⟨trivial, by simp, by simp, by simp [hb]⟩

/-- The contents written for a value. -/
def intContent (v : Bytes) : Bytes :=
  (if (stripZeros v).headD 0 ≥ 0x80 then [0] else []) ++ stripZeros v

theorem intContent_spec (v : Bytes) (h : v ≠ []) :
    IsDerInt (fromBE v) (intContent v) ∧ (intContent v).length ≤ v.length + 1 := by
  obtain ⟨h1, h2, h3, h4⟩ := stripZeros_spec v h
  unfold intContent
  cases hs : stripZeros v with
  | nil => exact absurd hs h2
  | cons b r =>
    rw [hs] at h1 h3 h4
    simp only [List.headD_cons]
    by_cases hb : b ≥ 0x80
    · simp only [hb, if_true]
      have hb' : 128 ≤ b.toNat := by simpa [UInt8.le_iff_toNat_le] using hb
      refine ⟨⟨?_, by simp, by simp, by simp [hb']⟩, by simp at h3 ⊢; omega⟩
      rw [← h1]; simp [fromBE_cons]
    · simp only [hb, if_false, List.nil_append]
      have hb' : b.toNat < 128 := by
        have := mt UInt8.le_iff_toNat_le.mpr hb
        simpa using this
      refine ⟨⟨h1, by simp, by simpa using hb', ?_⟩, by omega⟩
      intro hl h0
      exact absurd h0 (h4 hl)

theorem derIntBytes_eq (v : Bytes) :
    derIntBytes v = 0x02 :: UInt8.ofNat (intContent v).length :: intContent v := by
  simp [derIntBytes, intContent]

/-- Reading one INTEGER. -/
theorem decodeInt_spec {inp c rest : Bytes} {i sz n : Nat} (hc : IsDerInt n c) (hn : n < 256 ^ sz)
    (hl : c.length < 256)
    (h : inp.drop i = 0x02 :: UInt8.ofNat c.length :: (c ++ rest)) :
    decodeInt inp i sz = .ok (toBE sz n, i + 2 + c.length) := by
  have get : ∀ k, inp[i + k]? = (0x02 :: UInt8.ofNat c.length :: (c ++ rest))[k]? := by
    intro k; rw [← h, List.getElem?_drop]
  have g0 := get 0
  have g1 := get 1
  have g2 := get 2
  obtain ⟨z, c', rfl⟩ : ∃ z c', c = z :: c' := by
    cases c with
    | nil => exact absurd rfl hc.nonempty
    | cons z c' => exact ⟨z, c', rfl⟩
  simp only [Nat.add_zero, List.getElem?_cons_zero, List.getElem?_cons_succ, List.cons_append] at g0 g1 g2
  have hlen : (UInt8.ofNat (z :: c').length).toNat = (z :: c').length := by
    rw [UInt8.toNat_ofNat']; omega
  have hdl : inp.length = i + 2 + ((z :: c').length + rest.length) := by
    have := congrArg List.length h
    simp at this
    simp; omega
  have hv := hc.value
  have hc1 : (z :: c').length ≤ sz + 1 := by
    -- a longer minimal encoding would have a larger value
    apply Decidable.byContradiction; intro hgt
    rw [fromBE_cons] at hv
    by_cases hz : z = 0
    · have hm := hc.minimal (by simp at hgt ⊢; omega) (by simpa using hz)
      cases c' with
      | nil => simp at hgt
      | cons y c'' =>
        simp at hm
        rw [fromBE_cons] at hv
        have : 1 * 256 ^ sz ≤ y.toNat * 256 ^ c''.length :=
          Nat.mul_le_mul (by omega) (Nat.pow_le_pow_right (by omega) (by simp at hgt; omega))
        omega
    · have hz' : 0 < z.toNat := by
        apply Nat.pos_of_ne_zero; intro h0; exact hz (UInt8.toNat_inj.mp h0)
      have : 1 * 256 ^ sz ≤ z.toNat * 256 ^ c'.length :=
        Nat.mul_le_mul (by omega) (Nat.pow_le_pow_right (by omega) (by simp at hgt; omega))
      omega
  unfold decodeInt
  rw [g0, g1]
  simp only [hlen]
  rw [g2]
  have e1 : ¬ (z :: c').length > sz + 1 := by omega
  have e2 : ¬ i + 2 + (z :: c').length > inp.length := by omega
  simp only [e1, e2, if_false, ne_eq, not_true_eq_false]
  have e3 : ¬ (z = 0 ∧ (z :: c').length = 0) := by simp
  simp only [e3, if_false]
  have d2 : inp.drop (i + 2) = z :: c' ++ rest := by
    rw [← List.drop_drop, h]; rfl
  have d3 : inp.drop (i + 3) = c' ++ rest := by
    rw [show i + 3 = i + (2 + 1) from rfl, ← List.drop_drop, h]; rfl
  by_cases hz : z = 0
  · have e4 : ¬ (z :: c').length - 1 > sz := by omega
    simp only [hz, if_true] at e4 ⊢
    rw [if_neg e4, d3]
    have e5 : (0 :: c').length - 1 = c'.length := by simp
    rw [e5, List.take_left' rfl]
    have : List.replicate (sz - c'.length) 0 ++ c' = toBE sz n := by
      apply fromBE_inj
      · simp [toBE_length]; simp at hc1; omega
      · rw [fromBE_append, fromBE_replicate, fromBE_toBE _ _ hn, ← hv, fromBE_cons, hz]; simp
    rw [this]
    simp; omega
  · have hle : (z :: c').length ≤ sz := by
      apply Decidable.byContradiction; intro hgt
      rw [fromBE_cons] at hv
      have hz' : 0 < z.toNat := by
        apply Nat.pos_of_ne_zero; intro h0; exact hz (UInt8.toNat_inj.mp h0)
      have : 1 * 256 ^ sz ≤ z.toNat * 256 ^ c'.length :=
        Nat.mul_le_mul (by omega) (Nat.pow_le_pow_right (by omega) (by simp at hgt; omega))
      omega
    have e4 : ¬ (z :: c').length > sz := by omega
    simp only [hz, if_false]
    rw [if_neg e4, d2, List.take_left' rfl]
    have : List.replicate (sz - (z :: c').length) 0 ++ z :: c' = toBE sz n := by
      apply fromBE_inj
      · simp [toBE_length]; simp at hle; omega
      · rw [fromBE_append, fromBE_replicate, fromBE_toBE _ _ hn, ← hv]; simp
    rw [this]

end Verif
