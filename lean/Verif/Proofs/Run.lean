import Verif.Proofs.Sess

/-!
# Steps and runs, for libraries that did not go wrong
-/

namespace Verif

theorem step_bad {e : Env} {l : Lib} (h : l.bad = true) (c : Call) : step e l c = (l, { rv := .ub }) := by
  simp [step, h]

/-- A call that leaves the library good. -/
theorem step_good {e : Env} {l : Lib} {c : Call} (h : (step e l c).1.bad = false) :
    l.bad = false ∧ (callBody e l c).2.rv ≠ .ub ∧ step e l c = callBody e l c := by
  unfold step at h ⊢
  by_cases hb : l.bad = true
  · simp [hb] at h
  · rw [if_neg hb] at h ⊢
    dsimp only at h ⊢
    by_cases hu : (callBody e l c).2.rv = .ub
    · simp [hu] at h
    · exact ⟨by simpa using hb, hu, by rw [if_neg hu]⟩

/-- The answer of a call on a good library. -/
theorem step_resp {e : Env} {l : Lib} (h : l.bad = false) (c : Call) :
    (step e l c).2 = (callBody e l c).2 := by
  unfold step
  simp only [h, Bool.false_eq_true, if_false]
  split <;> rfl

theorem step_eq {e : Env} {l : Lib} {c : Call} (h : l.bad = false) (hu : (callBody e l c).2.rv ≠ .ub) :
    step e l c = callBody e l c := by
  unfold step
  simp [h, hu]

theorem step_sessions {e : Env} {l : Lib} (h : l.bad = false) (c : Call) :
    (step e l c).1.sessions = (callBody e l c).1.sessions ∧
    (step e l c).1.count = (callBody e l c).1.count ∧
    (step e l c).1.token = (callBody e l c).1.token ∧
    (step e l c).1.disk = (callBody e l c).1.disk := by
  unfold step
  simp only [h, Bool.false_eq_true, if_false]
  split <;> exact ⟨rfl, rfl, rfl, rfl⟩

theorem run_bad {e : Env} {l : Lib} (h : l.bad = true) (cs : List Call) : run e l cs = l := by
  induction cs with
  | nil => rfl
  | cons c cs ih => simp only [run, step_bad h, ih]

theorem run_good {e : Env} {l : Lib} {cs : List Call} (h : (run e l cs).bad = false) : l.bad = false := by
  cases hb : l.bad with
  | false => rfl
  | true => rw [run_bad hb] at h; rw [hb] at h; cases h

theorem run_append (e : Env) (l : Lib) (cs ds : List Call) : run e l (cs ++ ds) = run e (run e l cs) ds := by
  induction cs generalizing l with
  | nil => rfl
  | cons c cs ih => exact ih _

/-- The answer of `C_GetSessionInfo`. -/
theorem sessionInfo_eq {e : Env} {l : Lib} (h : l.bad = false) (hc : 0 < l.count) (k : Nat) :
    sessionInfo e l k =
      match getSession l k with
      | none => { rv := .sessionHandleInvalid }
      | some s => { rv := .ok, state := some (sessState l s, s.use == .rw) } := by
  unfold sessionInfo answer
  rw [step_resp h]
  have hc' : ¬ l.count ≤ 0 := by omega
  simp only [callBody, hc', if_false]
  cases getSession l k with
  | none => rfl
  | some s => rfl

theorem isOpen_iff {e : Env} {l : Lib} (hi : SInv l) {k : Nat} :
    IsOpen e l k ↔ l.bad = false ∧ ∃ s, getSession l k = some s := by
  unfold IsOpen
  by_cases hb : l.bad = true
  · simp [sessionInfo, answer, step_bad hb, hb]
  have hb : l.bad = false := by simpa using hb
  rcases hi.shape with ⟨h1, h2⟩ | ⟨h1, _⟩
  · have hg : getSession l k = none := by unfold getSession; simp [h2]
    unfold sessionInfo answer
    rw [step_resp hb]
    simp [callBody, h1, hg]
  · rw [sessionInfo_eq hb h1]
    cases getSession l k <;> simp [hb]

theorem openAs_iff {e : Env} {l : Lib} (hi : SInv l) {k : Nat} {rw' : Bool} :
    OpenAs e l k rw' ↔ l.bad = false ∧ ∃ s, getSession l k = some s ∧ (s.use == .rw) = rw' := by
  constructor
  · rintro ⟨st, h⟩
    have ho : IsOpen e l k := by unfold IsOpen; rw [h]
    obtain ⟨hb, s, hs⟩ := (isOpen_iff hi).mp ho
    refine ⟨hb, s, hs, ?_⟩
    rcases hi.shape with ⟨h1, h2⟩ | ⟨h1, _⟩
    · rw [show getSession l k = none by unfold getSession; simp [h2]] at hs
      cases hs
    · rw [sessionInfo_eq hb h1, hs] at h
      simp only [Resp.mk.injEq, Option.some.injEq, Prod.mk.injEq] at h
      simp_all
  · rintro ⟨hb, s, hs, rfl⟩
    rcases hi.shape with ⟨h1, h2⟩ | ⟨h1, _⟩
    · rw [show getSession l k = none by unfold getSession; simp [h2]] at hs
      cases hs
    · exact ⟨_, by rw [sessionInfo_eq hb h1, hs]⟩

theorem count_pos_of_open {l : Lib} (hi : SInv l) {k : Nat} {s : Session} (h : getSession l k = some s) :
    0 < l.count := by
  rcases hi.shape with ⟨h1, h2⟩ | ⟨h1, _⟩
  · rw [show getSession l k = none by unfold getSession; simp [h2]] at h
    cases h
  · exact h1

end Verif
