import Verif.Proofs.Lock

/-! # C41, C42: the read/write lock

For any number `n` of threads and any interleaving (`Reachable`). -/

namespace Verif.Lock

variable {n : Nat}

/-- C41: a thread with write access is alone: no other thread writes and no
thread reads. -/
theorem c41_writer_excludes {s : State n} (h : Reachable s) {t : Fin n} (hw : Writing s t) :
    (∀ t', Writing s t' → t' = t) ∧ (∀ t', ¬ Reading s t') := by
  have hi := inv_reachable h
  have hc : isCritW (s.pc t) = true := by unfold Writing at hw; rw [hw]; rfl
  refine ⟨fun t' hw' => ?_, fun t' hr => ?_⟩
  · exact hi.uniq _ _ (by unfold Writing at hw'; rw [hw']; rfl) hc
  · obtain ⟨d, hd⟩ := hr
    have hu : 1 ≤ units (s.pc t') := by
      rcases hd with h | h | h | h | h | h | h | h <;> rw [h] <;> simp [units]
    have hle := units_le_total s.pc t'
    rcases hi.excl t hc with h0 | ⟨x, hx⟩
    · have := hi.cntEq; omega
    · have h1 := hi.r2one x hx
      have hcnt := hi.cntEq
      by_cases hxt : t' = x
      · subst hxt
        rcases hd with h | h | h | h | h | h | h | h <;> rw [h] at hx <;> simp [isR2] at hx
        rw [h] at hle; simp [units] at hle; omega
      · have h2 := units_add_le_total s.pc hxt
        have : 1 ≤ units (s.pc x) := by
          revert hx; cases s.pc x <;> simp [isR2, units]
        omega

/-- C41: sharing is real: for every pair of threads there is a reachable state in
which both read. -/
theorem c41_readers_share {a b : Fin n} (hab : a ≠ b) :
    ∃ s : State n, Reachable s ∧ Reading s a ∧ Reading s b := by
  let s0 := init n
  let s1 := s0.goto a (.wantR 0)
  let s2 := ({ s1 with readOwner := some a } : State n).goto a (.r1 0)
  let s3 := ({ s2 with cnt := s2.cnt + 1 } : State n).goto a (.r2 0)
  let s4 := ({ s3 with writeHeld := true } : State n).goto a (.r3 0)
  let s5 := ({ s4 with readOwner := none } : State n).goto a (.rest 1)
  let s6 := s5.goto b (.wantR 0)
  let s7 := ({ s6 with readOwner := some b } : State n).goto b (.r1 0)
  let s8 := ({ s7 with cnt := s7.cnt + 1 } : State n).goto b (.r3 0)
  let s9 := ({ s8 with readOwner := none } : State n).goto b (.rest 1)
  have h1 : Reachable s1 := .step .init (Step.callR s0 a 0 rfl)
  have h2 : Reachable s2 := .step h1 (Step.lockRead s1 a 0 (by simp [s1, State.goto]) rfl)
  have h3 : Reachable s3 := .step h2 (Step.incFirst s2 a 0 (by simp [s2, State.goto]) rfl)
  have h4 : Reachable s4 := .step h3 (Step.firstLocksWrite s3 a 0 (by simp [s3, State.goto]) rfl)
  have h5 : Reachable s5 := .step h4 (Step.unlockRead s4 a 0 (by simp [s4, State.goto]))
  have hb : s5.pc b = .rest 0 := by
    simp [s5, s4, s3, s2, s1, s0, State.goto, init, hab.symm]
  have h6 : Reachable s6 := .step h5 (Step.callR s5 b 0 hb)
  have h7 : Reachable s7 := .step h6 (Step.lockRead s6 b 0 (by simp [s6, State.goto]) rfl)
  have h8 : Reachable s8 := .step h7 (Step.incMore s7 b 0 (by simp [s7, State.goto])
    (by simp [s7, s6, s5, s4, s3, State.goto]))
  have h9 : Reachable s9 := .step h8 (Step.unlockRead s8 b 0 (by simp [s8, State.goto]))
  refine ⟨s9, h9, ⟨0, Or.inl ?_⟩, ⟨0, Or.inl ?_⟩⟩
  · simp [s9, s8, s7, s6, s5, State.goto, hab]
  · simp [s9, State.goto]

/-- C42: as long as some thread waits to get or give back access, and no thread
keeps the lock (is writing or sits in its read section), some waiting thread can
take a step: the lock cannot deadlock by itself. -/
theorem c42_no_deadlock {s : State n} (h : Reachable s) (hp : ∃ t, Pending s t)
    (hfree : ∀ t, ¬ Writing s t ∧ ∀ d, s.pc t ≠ .rest (d + 1)) : ∃ t s', Pending s t ∧ Step s t s' := by
  have hi := inv_reachable h
  have hnow : ∀ t, isCritW (s.pc t) = false := by
    intro t; have := (hfree t).1; unfold Writing at this
    revert this; cases s.pc t <;> simp [isCritW]
  cases hro : s.readOwner with
  | some t =>
    have hin := (hi.own t).1 hro
    have pend : Pending s t := by
      revert hin; unfold Pending Outside Writing
      cases s.pc t <;> simp [inRead]
    cases hpc : s.pc t with
    | r1 d =>
      by_cases hc : s.cnt + 1 = 1
      · exact ⟨t, _, pend, Step.incFirst s t d hpc hc⟩
      · exact ⟨t, _, pend, Step.incMore s t d hpc hc⟩
    | r2 d =>
      have hw : s.writeHeld = false := by
        cases hw : s.writeHeld with
        | false => rfl
        | true =>
          rcases hi.held.1 hw with ⟨x, hx⟩ | ⟨_, hx⟩
          · rw [hnow x] at hx; contradiction
          · have := hx t; rw [hpc] at this; simp [isR2] at this
      exact ⟨t, _, pend, Step.firstLocksWrite s t d hpc hw⟩
    | r3 d => exact ⟨t, _, pend, Step.unlockRead s t d hpc⟩
    | u1 d =>
      by_cases hc : s.cnt - 1 = 0
      · exact ⟨t, _, pend, Step.decLast s t d hpc hc⟩
      · exact ⟨t, _, pend, Step.decMore s t d hpc hc⟩
    | u2 d => exact ⟨t, _, pend, Step.uUnlockRead s t d hpc⟩
    | _ => rw [hpc] at hin; simp [inRead] at hin
  | none =>
    have hnotin : ∀ t, inRead (s.pc t) = false := by
      intro t
      cases hb : inRead (s.pc t) with
      | false => rfl
      | true => have := (hi.own t).2 hb; rw [hro] at this; contradiction
    obtain ⟨t, ht⟩ := hp
    have hnt := hnotin t
    cases hpc : s.pc t with
    | rest d =>
      cases d with
      | zero => exact absurd hpc ht.1
      | succ d => exact absurd hpc (ht.2.2 d)
    | critW => exact absurd hpc ht.2.1
    | wantR d => exact ⟨t, _, ht, Step.lockRead s t d hpc hro⟩
    | u0 d => exact ⟨t, _, ht, Step.uLockRead s t d hpc hro⟩
    | wantW =>
      by_cases hz : s.cnt = 0
      · have hw : s.writeHeld = false := by
          cases hw : s.writeHeld with
          | false => rfl
          | true =>
            rcases hi.held.1 hw with ⟨x, hx⟩ | ⟨h1, _⟩
            · rw [hnow x] at hx; contradiction
            · omega
        exact ⟨t, _, ht, Step.lockW s t hpc hw⟩
      · obtain ⟨x, hx⟩ := exists_units_pos s.pc (by have := hi.cntEq; omega)
        have hxin := hnotin x
        have hxf := hfree x
        cases hxpc : s.pc x with
        | rest d =>
          cases d with
          | zero => rw [hxpc] at hx; simp [units] at hx
          | succ d => exact absurd hxpc (hxf.2 d)
        | wantR d =>
          refine ⟨x, _, ?_, Step.lockRead s x d hxpc hro⟩
          simp [Pending, Outside, Writing, hxpc]
        | u0 d =>
          refine ⟨x, _, ?_, Step.uLockRead s x d hxpc hro⟩
          simp [Pending, Outside, Writing, hxpc]
        | _ => rw [hxpc] at hx hxin; simp [units, inRead] at hx hxin
    | _ => rw [hpc] at hnt; simp [inRead] at hnt

/-- C42: while some thread reads, whichever thread holds the internal mutex can
take its next step, whatever writers are waiting.  So a reader can always lock
again for reading or unlock: nested read locking cannot deadlock. -/
theorem c42_nested_read_not_blocked {s : State n} (h : Reachable s) {t : Fin n}
    (hr : ∃ d, s.pc t = .rest (d + 1) ∨ s.pc t = .wantR (d + 1) ∨ s.pc t = .u0 d) :
    (∀ o, s.readOwner = some o → ∃ s', Step s o s') ∧
    (s.readOwner = none → ∃ s', Step s t s') := by
  have hi := inv_reachable h
  have hu : 1 ≤ units (s.pc t) := by
    obtain ⟨d, hd⟩ := hr
    rcases hd with h | h | h <;> rw [h] <;> simp [units]
  have htr2 : isR2 (s.pc t) = false := by
    obtain ⟨d, hd⟩ := hr
    rcases hd with h | h | h <;> rw [h] <;> simp [isR2]
  refine ⟨fun o ho => ?_, fun hn => ?_⟩
  · have hin := (hi.own o).1 ho
    cases hpc : s.pc o with
    | r1 d =>
      by_cases hc : s.cnt + 1 = 1
      · exact ⟨_, Step.incFirst s o d hpc hc⟩
      · exact ⟨_, Step.incMore s o d hpc hc⟩
    | r2 d =>
      exfalso
      have h1 := hi.r2one o (by rw [hpc]; rfl)
      have hne : t ≠ o := by intro e; subst e; rw [hpc] at htr2; simp [isR2] at htr2
      have := units_add_le_total s.pc hne
      have := hi.cntEq
      rw [hpc] at *
      simp [units] at *
      omega
    | r3 d => exact ⟨_, Step.unlockRead s o d hpc⟩
    | u1 d =>
      by_cases hc : s.cnt - 1 = 0
      · exact ⟨_, Step.decLast s o d hpc hc⟩
      · exact ⟨_, Step.decMore s o d hpc hc⟩
    | u2 d => exact ⟨_, Step.uUnlockRead s o d hpc⟩
    | _ => rw [hpc] at hin; simp [inRead] at hin
  · obtain ⟨d, h | h | h⟩ := hr
    · exact ⟨_, Step.callU s t d h⟩
    · exact ⟨_, Step.lockRead s t (d + 1) h hn⟩
    · exact ⟨_, Step.uLockRead s t d h hn⟩

/-- Non-vacuity of C41/C42: a reachable state with a writer inside and another
thread waiting. -/
example : ∃ s : State 2, Reachable s ∧ Writing s 0 ∧ Pending s 1 := by
  let s1 := (init 2).goto 0 .wantW
  let s2 := ({ s1 with writeHeld := true } : State 2).goto 0 .critW
  let s3 := s2.goto 1 (.wantR 0)
  have h1 : Reachable s1 := .step .init (Step.callW _ 0 rfl)
  have h2 : Reachable s2 := .step h1 (Step.lockW s1 0 rfl rfl)
  have h3 : Reachable s3 := .step h2 (Step.callR s2 1 0 rfl)
  exact ⟨s3, h3, rfl, by simp [Pending, Outside, Writing, s3, State.goto]⟩

/-- Non-vacuity of C42: a reachable state with a waiting thread in which nobody
keeps the lock. -/
example : ∃ s : State 2, Reachable s ∧ (∃ t, Pending s t) ∧
    (∀ t, ¬ Writing s t ∧ ∀ d, s.pc t ≠ .rest (d + 1)) := by
  let s1 := (init 2).goto 0 .wantW
  have h1 : Reachable s1 := .step .init (Step.callW _ 0 rfl)
  refine ⟨s1, h1, ⟨0, by simp [Pending, Outside, Writing, s1, State.goto]⟩, ?_⟩
  intro t
  simp only [Writing, s1, State.goto, Function.update_apply]
  by_cases ht : t = 0 <;> simp [ht, init]

#print axioms c41_writer_excludes
#print axioms c41_readers_share
#print axioms c42_no_deadlock
#print axioms c42_nested_read_not_blocked

end Verif.Lock
