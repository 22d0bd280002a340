import Verif.Spec.Starve
import Verif.Proofs.Lock

/-! # Every wait of a reader ends: lemmas on fair executions (C122) -/

namespace Verif.Lock

variable {n : Nat}

theorem Exec.reachable (x : Exec n) : ∀ i, Reachable (x.st i)
  | 0 => by rw [x.start]; exact .init
  | i + 1 => by
    cases h : x.who i with
    | none => rw [x.pause i h]; exact x.reachable i
    | some t => exact .step (x.reachable i) (x.next i t h)

theorem Exec.inv (x : Exec n) (i : Nat) : Inv (x.st i) := inv_reachable (x.reachable i)

/-- A step moves the thread. -/
theorem Step.moved {s s' : State n} {t : Fin n} (h : Step s t s') : s'.pc t ≠ s.pc t := by
  cases h <;> simp_all [State.goto]

/-- A step leaves the other threads where they are. -/
theorem Step.others {s s' : State n} {t u : Fin n} (h : Step s t s') (hu : u ≠ t) :
    s'.pc u = s.pc u := by
  cases h <;> simp [State.goto, hu]

/-- A thread changes its place only by its own step. -/
theorem Exec.by_own (x : Exec n) {t : Fin n} {i : Nat} (h : (x.st (i + 1)).pc t ≠ (x.st i).pc t) :
    x.who i = some t := by
  cases hw : x.who i with
  | none => rw [x.pause i hw] at h; exact absurd rfl h
  | some u =>
    by_cases hu : t = u
    · rw [hu]
    · exact absurd ((x.next i u hw).others hu) h

/-- A thread at a place where it is able to go on again and again leaves it. -/
theorem Exec.leave (x : Exec n) (hf : x.Fair) {t : Fin n} {p : PC} {i : Nat}
    (hp : (x.st i).pc t = p)
    (hb : ∀ s : State n, s.pc t = p → Pending s t ∨ Writing s t)
    (ha : (∀ j, i ≤ j → (x.st j).pc t = p) → ∀ k, i ≤ k → ∃ j, k ≤ j ∧ Able (x.st j) t) :
    ∃ j, i ≤ j ∧ (x.st j).pc t = p ∧ Step (x.st j) t (x.st (j + 1)) := by
  by_cases hs : ∀ j, i ≤ j → (x.st j).pc t = p
  · have hw := hf t (fun k => by
      obtain ⟨j, hj, hab⟩ := ha hs (max i k) (by omega)
      exact ⟨j, by omega, hb _ (hs j (by omega)), hab⟩)
    obtain ⟨j, hj, hw⟩ := hw i
    exact ⟨j, hj, hs j hj, x.next j t hw⟩
  · have : ∃ m, (x.st (i + m)).pc t ≠ p := by
      by_contra hc
      refine hs fun j hj => ?_
      have := not_exists.1 hc (j - i)
      rw [Nat.add_sub_cancel' hj] at this
      exact not_not.1 this
    classical
    have hm := Nat.find_spec this
    have hlt := fun m => @Nat.find_min _ _ this m
    generalize hmm : Nat.find this = m at hm hlt
    cases m with
    | zero => exact absurd hp hm
    | succ m =>
      have hpm : (x.st (i + m)).pc t = p := not_not.1 (hlt m (by omega))
      refine ⟨i + m, by omega, hpm, x.next _ t (x.by_own ?_)⟩
      rw [hpm]; exact hm

/-- A thread that can always go on from its place leaves it. -/
theorem Exec.leave_free (x : Exec n) (hf : x.Fair) {t : Fin n} {p : PC} {i : Nat}
    (hp : (x.st i).pc t = p)
    (hb : ∀ s : State n, s.pc t = p → Pending s t ∨ Writing s t)
    (ha : ∀ s : State n, s.pc t = p → Able s t) :
    ∃ j, i ≤ j ∧ (x.st j).pc t = p ∧ Step (x.st j) t (x.st (j + 1)) :=
  x.leave hf hp hb fun hs k hk => ⟨k, Nat.le_refl _, ha _ (hs k hk)⟩

/-- A writer gives the lock back. -/
theorem Exec.writer_leaves (x : Exec n) (hf : x.Fair) {t : Fin n} {i : Nat}
    (hp : Writing (x.st i) t) : ∃ j, i ≤ j ∧ (x.st j).writeHeld = false := by
  obtain ⟨j, hj, hpj, hs⟩ := x.leave_free hf hp (fun s h => .inr h)
    (fun s h => ⟨_, Step.unlockW s t h⟩)
  refine ⟨j + 1, by omega, ?_⟩
  generalize x.st (j + 1) = s' at hs
  cases hs <;> simp_all [State.goto]

/-- While a first reader waits for the write mutex, that mutex is free again and
again. -/
theorem Exec.write_freed (x : Exec n) (hf : x.Fair) {k : Nat}
    (h : (x.st k).writeHeld = true → ∃ w, isCritW ((x.st k).pc w) = true) :
    ∃ j, k ≤ j ∧ (x.st j).writeHeld = false := by
  cases hw : (x.st k).writeHeld with
  | false => exact ⟨k, Nat.le_refl _, hw⟩
  | true =>
    obtain ⟨w, hc⟩ := h hw
    exact x.writer_leaves hf (t := w) (by
      unfold Writing; revert hc; cases (x.st k).pc w <;> simp [isCritW])

theorem pend {s : State n} {t : Fin n} (h : s.pc t ≠ .rest 0 ∧ s.pc t ≠ .critW ∧
    ∀ d, s.pc t ≠ .rest (d + 1)) : Pending s t ∨ Writing s t := .inl h

/-- From the last step of `WP11_Lock_LockRO` on. -/
theorem Exec.from_r3 (x : Exec n) (hf : x.Fair) {t : Fin n} {d i : Nat}
    (hp : (x.st i).pc t = .r3 d) :
    ∃ j, i ≤ j ∧ (x.st j).pc t = .rest (d + 1) ∧ (x.st j).readOwner = none := by
  obtain ⟨j, hj, hpj, hs⟩ := x.leave_free hf hp (fun s h => pend (by simp [h]))
    (fun s h => ⟨_, Step.unlockRead s t d h⟩)
  refine ⟨j + 1, by omega, ?_⟩
  generalize x.st (j + 1) = s' at hs
  cases hs <;> simp_all [State.goto]

theorem Exec.from_r2 (x : Exec n) (hf : x.Fair) {t : Fin n} {d i : Nat}
    (hp : (x.st i).pc t = .r2 d) :
    ∃ j, i ≤ j ∧ (x.st j).pc t = .rest (d + 1) ∧ (x.st j).readOwner = none := by
  obtain ⟨j, hj, hpj, hs⟩ := x.leave hf hp (fun s h => pend (by simp [h]))
    (fun hst k hk => by
      obtain ⟨j, hj, hw⟩ := x.write_freed hf (k := k) (fun hw => by
        rcases (x.inv k).held.1 hw with h | ⟨_, h⟩
        · exact h
        · have := h t; rw [hst k hk] at this; simp [isR2] at this)
      exact ⟨j, hj, _, Step.firstLocksWrite _ t d (hst j (by omega)) hw⟩)
  have : (x.st (j + 1)).pc t = .r3 d := by
    generalize x.st (j + 1) = s' at hs
    cases hs <;> simp_all [State.goto]
  obtain ⟨k, hk, h⟩ := x.from_r3 hf this
  exact ⟨k, by omega, h⟩

theorem Exec.from_r1 (x : Exec n) (hf : x.Fair) {t : Fin n} {d i : Nat}
    (hp : (x.st i).pc t = .r1 d) :
    ∃ j, i ≤ j ∧ (x.st j).pc t = .rest (d + 1) ∧ (x.st j).readOwner = none := by
  obtain ⟨j, hj, hpj, hs⟩ := x.leave_free hf hp (fun s h => pend (by simp [h]))
    (fun s h => by
      by_cases hc : s.cnt + 1 = 1
      · exact ⟨_, Step.incFirst s t d h hc⟩
      · exact ⟨_, Step.incMore s t d h hc⟩)
  have : (x.st (j + 1)).pc t = .r2 d ∨ (x.st (j + 1)).pc t = .r3 d := by
    generalize x.st (j + 1) = s' at hs
    cases hs <;> simp_all [State.goto]
  rcases this with h | h
  · obtain ⟨k, hk, h⟩ := x.from_r2 hf h
    exact ⟨k, by omega, h⟩
  · obtain ⟨k, hk, h⟩ := x.from_r3 hf h
    exact ⟨k, by omega, h⟩

theorem Exec.from_u2 (x : Exec n) (hf : x.Fair) {t : Fin n} {d i : Nat}
    (hp : (x.st i).pc t = .u2 d) :
    ∃ j, i ≤ j ∧ (x.st j).pc t = .rest d ∧ (x.st j).readOwner = none := by
  obtain ⟨j, hj, hpj, hs⟩ := x.leave_free hf hp (fun s h => pend (by simp [h]))
    (fun s h => ⟨_, Step.uUnlockRead s t d h⟩)
  refine ⟨j + 1, by omega, ?_⟩
  generalize x.st (j + 1) = s' at hs
  cases hs <;> simp_all [State.goto]

theorem Exec.from_u1 (x : Exec n) (hf : x.Fair) {t : Fin n} {d i : Nat}
    (hp : (x.st i).pc t = .u1 d) :
    ∃ j, i ≤ j ∧ (x.st j).pc t = .rest d ∧ (x.st j).readOwner = none := by
  obtain ⟨j, hj, hpj, hs⟩ := x.leave_free hf hp (fun s h => pend (by simp [h]))
    (fun s h => by
      by_cases hc : s.cnt - 1 = 0
      · exact ⟨_, Step.decLast s t d h hc⟩
      · exact ⟨_, Step.decMore s t d h hc⟩)
  have : (x.st (j + 1)).pc t = .u2 d := by
    generalize x.st (j + 1) = s' at hs
    cases hs <;> simp_all [State.goto]
  obtain ⟨k, hk, h⟩ := x.from_u2 hf this
  exact ⟨k, by omega, h⟩

/-- The internal mutex is free again and again. -/
theorem Exec.read_freed (x : Exec n) (hf : x.Fair) (k : Nat) :
    ∃ j, k ≤ j ∧ (x.st j).readOwner = none := by
  cases ho : (x.st k).readOwner with
  | none => exact ⟨k, Nat.le_refl _, ho⟩
  | some o =>
    have hin := ((x.inv k).own o).1 ho
    cases hpc : (x.st k).pc o with
    | r1 d => obtain ⟨j, hj, _, h⟩ := x.from_r1 hf hpc; exact ⟨j, hj, h⟩
    | r2 d => obtain ⟨j, hj, _, h⟩ := x.from_r2 hf hpc; exact ⟨j, hj, h⟩
    | r3 d => obtain ⟨j, hj, _, h⟩ := x.from_r3 hf hpc; exact ⟨j, hj, h⟩
    | u1 d => obtain ⟨j, hj, _, h⟩ := x.from_u1 hf hpc; exact ⟨j, hj, h⟩
    | u2 d => obtain ⟨j, hj, _, h⟩ := x.from_u2 hf hpc; exact ⟨j, hj, h⟩
    | _ => rw [hpc] at hin; simp [inRead] at hin

theorem quiet_cnt {s : State n} (hi : Inv s) (hq : Quiet s) : s.cnt = 0 := by
  rw [hi.cntEq]
  unfold total
  apply Finset.sum_eq_zero
  intro t _
  rcases hq t with h | h | h | h
  · unfold Outside at h; rw [h]; rfl
  · unfold Writing at h; rw [h]; rfl
  · rw [h]; rfl
  · rw [h]; rfl

end Verif.Lock
