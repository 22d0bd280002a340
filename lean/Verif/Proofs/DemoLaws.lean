import Verif.Proofs.DemoEnv
import Verif.Spec.Restart

/-!
# The toy environment meets the laws of storage
-/

namespace Verif.Demo

open Spec

theorem unTlv_spec {t : UInt8} {c w : Bytes} (h : IsTlv t c w) (r : Bytes) : unTlv t (w ++ r) = some (c, r) := by
  obtain ⟨l, hl, rfl⟩ := h
  rcases hl with ⟨hn, rfl⟩ | ⟨hn, d, ds, rfl, hk, hd, hv⟩
  · have h1 : (UInt8.ofNat c.length).toNat = c.length := by
      simp only [UInt8.toNat_ofNat']; omega
    simp only [List.cons_append, List.nil_append, unTlv, ne_eq, not_true_eq_false, if_false, h1, if_pos hn]
    rw [List.take_left' rfl, List.drop_left' rfl]
  · have h1 : (UInt8.ofNat (128 + (d :: ds).length)).toNat = 128 + (d :: ds).length := by
      simp only [UInt8.toNat_ofNat']; omega
    have h2 : ¬ 128 + (d :: ds).length < 128 := by omega
    simp only [List.cons_append, unTlv, ne_eq, not_true_eq_false, if_false, h1, if_neg h2]
    have h3 : 128 + (d :: ds).length - 128 = (d :: ds).length := by omega
    have h4 : d :: (ds ++ c ++ r) = (d :: ds) ++ (c ++ r) := by simp
    rw [h3, h4, List.take_left' rfl, List.drop_left' rfl, hv, List.take_left' rfl, List.drop_left' rfl]

theorem store_laws : StoreLaws store where
  cipher key iv pt := by
    have h : ((key ++ List.replicate 16 0).take 16).length = 16 := by simp
    simp only [store, List.length_append, h, Nat.add_sub_cancel]
    rw [List.drop_left' rfl, if_pos rfl, List.take_left' rfl]
  tag key iv pt := by simp [store]
  rsa k d h := by cases h
  rsaPub k d h := by cases h
  ec k d h := by cases h
  ecPub k d h := by cases h
  dh p g d h := by
    obtain ⟨cp, cg, wp, wg, hp, hg, tp, tg, ts⟩ := h
    have h1 := unTlv_spec ts []
    rw [List.append_nil] at h1
    have h2 := unTlv_spec tp wg
    have h3 := unTlv_spec tg []
    rw [List.append_nil] at h3
    show derSeq2 d = _
    simp only [derSeq2, h1, h2, h3, Option.bind_some, Option.map_some, hp.value, hg.value]

end Verif.Demo
