import Verif.Proofs.Der

/-!
# A number has one DER encoding
-/

namespace Verif.Spec

theorem IsDerInt.low {n : Nat} {c : List UInt8} (h : IsDerInt n c) (hl : 2 ≤ c.length) : 128 * 256 ^ (c.length - 2) ≤ n := by
  obtain ⟨hv, _, _, hm⟩ := h
  match c, hl with
  | a :: b :: t, _ =>
    rw [← hv, fromBE_cons, fromBE_cons]
    show 128 * 256 ^ t.length ≤ a.toNat * 256 ^ (t.length + 1) + (b.toNat * 256 ^ t.length + fromBE t)
    have hp : 0 < 256 ^ t.length := Nat.pow_pos (by decide)
    by_cases ha : a = 0
    · have hb : 128 ≤ b.toNat := hm (by simp) (by simpa using ha)
      have := Nat.mul_le_mul_right (256 ^ t.length) hb
      omega
    · have ha' : 1 ≤ a.toNat := by
        rcases Nat.eq_zero_or_pos a.toNat with h0 | h0
        · exact absurd (UInt8.toNat_inj.mp h0) ha
        · exact h0
      have h1 := Nat.mul_le_mul_right (256 ^ (t.length + 1)) ha'
      have h2 : 256 ^ (t.length + 1) = 256 * 256 ^ t.length := by rw [Nat.pow_succ, Nat.mul_comm]
      omega

theorem IsDerInt.high {n : Nat} {c : List UInt8} (h : IsDerInt n c) : n < 128 * 256 ^ (c.length - 1) := by
  obtain ⟨hv, hn, hs, _⟩ := h
  match c, hn with
  | a :: t, _ =>
    rw [← hv, fromBE_cons]
    simp only [List.length_cons, Nat.add_sub_cancel]
    have h1 := fromBE_lt t
    have hs : a.toNat + 1 ≤ 128 := hs
    have := Nat.mul_le_mul_right (256 ^ t.length) hs
    rw [Nat.add_mul] at this
    omega

theorem IsDerInt.len_le {n : Nat} {c c' : List UInt8} (h : IsDerInt n c) (h' : IsDerInt n c') : c.length ≤ c'.length := by
  apply Nat.le_of_not_lt
  intro hlt
  have hp := List.length_pos_iff.mpr h'.nonempty
  have h1 := h.low (by omega)
  have h2 := h'.high
  have h3 : 256 ^ (c'.length - 1) ≤ 256 ^ (c.length - 2) := Nat.pow_le_pow_right (by decide) (by omega)
  have := Nat.mul_le_mul_left 128 h3
  omega

/-- A number has one DER encoding. -/
theorem IsDerInt.unique {n : Nat} {c c' : List UInt8} (h : IsDerInt n c) (h' : IsDerInt n c') : c = c' :=
  fromBE_inj (Nat.le_antisymm (h.len_le h') (h'.len_le h)) (h.value.trans h'.value.symm)

/-- A pair of numbers has one DER encoding. -/
theorem IsDerSig.unique {r s : Nat} {d d' : List UInt8} (h : IsDerSig r s d) (h' : IsDerSig r s d') : d = d' := by
  obtain ⟨cr, cs, h1, h2, _, _, _, rfl⟩ := h
  obtain ⟨cr', cs', h1', h2', _, _, _, rfl⟩ := h'
  rw [h1.unique h1', h2.unique h2']

end Verif.Spec
