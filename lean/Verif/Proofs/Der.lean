import Verif.Spec.Der
import Verif.Model.EcSig

namespace Verif

open Spec

theorem fromBE_foldl (b : List UInt8) (a : Nat) :
    b.foldl (fun a x => a * 256 + x.toNat) a = a * 256 ^ b.length + fromBE b := by
  induction b generalizing a with
  | nil => simp [fromBE]
  | cons x b ih =>
    simp only [List.foldl_cons, fromBE, List.length_cons]
    rw [ih, ih (0 * 256 + x.toNat), Nat.pow_succ, Nat.add_mul]
    simp [Nat.mul_assoc, Nat.add_assoc, Nat.mul_comm]

theorem fromBE_append (a b : List UInt8) : fromBE (a ++ b) = fromBE a * 256 ^ b.length + fromBE b := by
  rw [fromBE, List.foldl_append, fromBE_foldl]; rfl

theorem fromBE_cons (x : UInt8) (b : List UInt8) : fromBE (x :: b) = x.toNat * 256 ^ b.length + fromBE b := by
  have := fromBE_append [x] b
  simpa [fromBE] using this

theorem fromBE_lt (b : List UInt8) : fromBE b < 256 ^ b.length := by
  induction b with
  | nil => simp [fromBE]
  | cons x b ih =>
    rw [fromBE_cons, List.length_cons, Nat.pow_succ]
    have := x.toNat_lt
    have h2 : x.toNat * 256 ^ b.length ≤ 255 * 256 ^ b.length := Nat.mul_le_mul_right _ (by omega)
    omega

theorem fromBE_replicate (k : Nat) : fromBE (List.replicate k 0) = 0 := by
  induction k with
  | zero => rfl
  | succ k ih => rw [List.replicate_succ, fromBE_cons, ih]; simp

theorem toBE_length (w n : Nat) : (toBE w n).length = w := by
  induction w generalizing n with
  | zero => rfl
  | succ w ih => simp [toBE, ih]

theorem toBE_fromBE (b : List UInt8) : toBE b.length (fromBE b) = b := by
  generalize h : b.length = k
  induction k generalizing b with
  | zero => rw [List.eq_nil_of_length_eq_zero h]; rfl
  | succ k ih =>
    obtain ⟨b', x, rfl⟩ : ∃ b' x, b = b' ++ [x] := by
      cases hb : b.reverse with
      | nil => simp at hb; subst hb; simp at h
      | cons x r => exact ⟨r.reverse, x, by rw [← List.reverse_reverse b, hb]; simp⟩
    have hl : b'.length = k := by simpa using h
    have hx := x.toNat_lt
    have hv : fromBE (b' ++ [x]) = fromBE b' * 256 + x.toNat := by
      rw [fromBE_append]; simp [fromBE]
    rw [hv, toBE]
    have h1 : (fromBE b' * 256 + x.toNat) / 256 = fromBE b' := by omega
    rw [h1, ih b' hl]
    congr 2
    apply UInt8.toNat_inj.mp
    simp

theorem fromBE_toBE (w n : Nat) (h : n < 256 ^ w) : fromBE (toBE w n) = n := by
  induction w generalizing n with
  | zero => simp at h; subst h; rfl
  | succ w ih =>
    rw [toBE, fromBE_append, ih _ (by rw [Nat.pow_succ] at h; omega)]
    simp [fromBE]; omega

theorem fromBE_inj {a b : List UInt8} (hl : a.length = b.length) (hv : fromBE a = fromBE b) : a = b := by
  rw [← toBE_fromBE a, ← toBE_fromBE b, hl, hv]

end Verif
