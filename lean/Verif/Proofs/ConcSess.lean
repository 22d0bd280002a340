import Verif.Props.SessClose
import Verif.Spec.ConcSess

/-! # Lemmas: sessions opened and closed by several threads -/

namespace Verif

theorem SInv.closeOne {l : Lib} (hi : SInv l) (hc : 0 < l.count) (h : Nat) :
    SInv { l with sessions := closeOne l.sessions h } := by
  obtain ⟨n, hn2, h70, hh⟩ : ∃ n, 2 ≤ n ∧ n ≤ 70 ∧ handles l.sessions = down n := by
    rcases hi.shape with ⟨h1, _⟩ | ⟨_, h2⟩
    · omega
    · exact h2
  obtain ⟨c1, c2, c3, c4⟩ := closeOne_spec hn2 h70 hh h
  refine ⟨.inr ⟨hc, c1⟩, ?_, ?_⟩
  · intro t ht hu
    by_cases he : t.handle = h
    · obtain ⟨u, hum, rfl⟩ := c4 t ht he
      refine ⟨?_, rfl⟩
      simp only [sessFinal]
      split
      · rename_i hno; exact (hi.idle u hum hno).1
      · rfl
    · exact hi.idle t (c3 t ht he) hu
  · intro hl t ht
    by_cases he : t.handle = h
    · obtain ⟨u, hum, rfl⟩ := c4 t ht he
      simp [sessFinal_use]
    · exact hi.so hl t (c3 t ht he)

theorem SInv.logout {l : Lib} (hi : SInv l) (e : Env) : SInv (logout e l) := by
  refine ⟨hi.shape, hi.idle, ?_⟩
  intro hl
  rw [logout_login] at hl
  cases hl

/-- The part of `C_CloseSession` that closes the session: the others are as before. -/
theorem getSession_closeOne {l : Lib} (hi : SInv l) (hc : 0 < l.count) (h : Nat) :
    getSession { l with sessions := closeOne l.sessions h } h = none ∧
    ∀ k, k ≠ h → getSession { l with sessions := closeOne l.sessions h } k = getSession l k := by
  have hi' := hi.closeOne hc h
  obtain ⟨n, hn2, h70, hh⟩ : ∃ n, 2 ≤ n ∧ n ≤ 70 ∧ handles l.sessions = down n := by
    rcases hi.shape with ⟨h1, _⟩ | ⟨_, h2⟩
    · omega
    · exact h2
  obtain ⟨c1, c2, c3, c4⟩ := closeOne_spec hn2 h70 hh h
  constructor
  · cases hg : getSession { l with sessions := Verif.closeOne l.sessions h } h with
    | none => rfl
    | some t =>
      obtain ⟨hm, he, hu⟩ := (getSession_iff hi').mp hg
      obtain ⟨u, _, rfl⟩ := c4 t hm he
      exact absurd (sessFinal_use u) hu
  · intro k hk
    apply Option.ext
    intro t
    rw [getSession_iff hi', getSession_iff hi]
    constructor
    · rintro ⟨hm, he, hu⟩
      exact ⟨c3 t hm (by rw [he]; exact hk), he, hu⟩
    · rintro ⟨hm, he, hu⟩
      exact ⟨c2 t hm (by rw [he]; exact hk) hu, he, hu⟩

/-- What is true of the threads: whoever is at a session or past it has the library
initialised. -/
def Ssc.Held (s : Ssc) : Prop := ∀ t, s.sc t ≠ .idle → s.sc t ≠ .dangling → 0 < s.lib.count

theorem Ssc.held_put (s : Ssc) (l : Lib) : (s.put l).Held := by
  intro t h1 h2
  simp only [Ssc.put] at h1 h2 ⊢
  cases hp : s.sc t <;> rw [hp] at h1 h2 <;> simp only [Sc.after] at h1 h2
  · exact absurd rfl h1
  · split at h2
    · rename_i h; exact h.1
    · exact absurd rfl h2
  all_goals
    split at h2
    · assumption
    · exact absurd rfl h2

theorem Ssc.held_at {s : Ssc} (hs : s.Held) {t : Nat} {p : Sc} (hp : p ≠ .idle → p ≠ .dangling → 0 < s.lib.count) :
    (s.at t p).Held := by
  intro u h1 h2
  simp only [Ssc.at] at h1 h2 ⊢
  split at h1
  · rename_i h; rw [if_pos h] at h2; exact hp h1 h2
  · rename_i h; rw [if_neg h] at h2; exact hs u h1 h2

theorem beginClose_cases (l : Lib) (h : Nat) :
    ((beginClose l h).1 = .idle ∧ ∃ r, (beginClose l h).2 = some r ∧ r.rv ≠ .ub) ∨
    ((beginClose l h).1 = .found h ∧ (beginClose l h).2 = none ∧ 0 < l.count ∧ ∃ s, getSession l h = some s) := by
  unfold beginClose
  split
  · exact .inl ⟨rfl, _, rfl, RV.noConfusion⟩
  · split
    · exact .inl ⟨rfl, _, rfl, RV.noConfusion⟩
    · rename_i hc _ s hs
      exact .inr ⟨rfl, rfl, by omega, s, hs⟩

theorem Ssc.held_step {s : Ssc} (hs : s.Held) (e : Env) (v : SEv) : (s.step e v).1.Held := by
  cases v with
  | call c => exact s.held_put _
  | close t h =>
    simp only [Ssc.step]
    split
    · exact hs
    · split
      · rcases beginClose_cases s.lib h with ⟨h1, _⟩ | ⟨h1, _, h2, _⟩
        · exact Ssc.held_at hs fun hp => absurd h1 hp
        · exact Ssc.held_at hs fun _ _ => h2
      · exact hs
  | go t =>
    simp only [Ssc.step]
    split
    · exact hs
    · split
      · exact hs
      · rename_i h ht
        refine Ssc.held_at (s.held_put _) fun _ _ => ?_
        exact hs t (by rw [ht]; exact Sc.noConfusion) (by rw [ht]; exact Sc.noConfusion)
      · exact Ssc.held_at (s.held_put _) fun h => absurd rfl h
      · rename_i ht
        split
        · exact Ssc.held_at hs fun h => absurd rfl h
        · refine Ssc.held_at hs fun _ _ => ?_
          exact hs t (by rw [ht]; exact Sc.noConfusion) (by rw [ht]; exact Sc.noConfusion)
      · exact Ssc.held_at (s.held_put _) fun h => absurd rfl h

theorem Ssc.sinv_step {s : Ssc} (hi : SInv s.lib) (hs : s.Held) (e : Env) (v : SEv) :
    SInv (s.step e v).1.lib := by
  cases v with
  | call c => exact hi.step e c
  | close t h =>
    simp only [Ssc.step]
    repeat' split
    all_goals exact hi
  | go t =>
    simp only [Ssc.step]
    split
    · exact hi
    · split
      · exact hi
      · rename_i h ht
        refine hi.closeOne ?_ h
        exact hs t (by rw [ht]; exact Sc.noConfusion) (by rw [ht]; exact Sc.noConfusion)
      · exact hi.bad true
      · split <;> exact hi
      · exact hi.logout e

theorem Ssc.inv_run {s : Ssc} (hi : SInv s.lib) (hs : s.Held) (e : Env) (vs : List SEv) :
    SInv (s.run e vs).lib ∧ (s.run e vs).Held := by
  induction vs generalizing s with
  | nil => exact ⟨hi, hs⟩
  | cons v vs ih => exact ih (Ssc.sinv_step hi hs e v) (Ssc.held_step hs e v)

theorem Ssc.Quiet.held {s : Ssc} (h : s.Quiet) : s.Held := fun t ht => absurd (h t) ht

/-- What has gone bad stays bad. -/
theorem Ssc.step_good {s : Ssc} {e : Env} {v : SEv} (h : (s.step e v).1.lib.bad = false) : s.lib.bad = false := by
  cases hb : s.lib.bad with
  | false => rfl
  | true =>
    cases v with
    | call c =>
      simp only [Ssc.step, Ssc.put] at h
      rw [step_bad hb] at h
      exact hb.symm.trans h
    | close t k => simp only [Ssc.step, hb, if_true] at h; cases h
    | go t => simp only [Ssc.step, hb, if_true] at h; cases h

theorem Ssc.run_good {s : Ssc} {e : Env} {vs : List SEv} (h : (s.run e vs).lib.bad = false) : s.lib.bad = false := by
  induction vs generalizing s with
  | nil => exact h
  | cons v vs ih => exact Ssc.step_good (ih h)

theorem Ssc.run_append (e : Env) (s : Ssc) (vs ws : List SEv) : s.run e (vs ++ ws) = (s.run e vs).run e ws := by
  induction vs generalizing s with
  | nil => rfl
  | cons v vs ih => exact ih _

section go
variable {e : Env} {s : Ssc} {t : Nat} (hb : s.lib.bad = false)
include hb

theorem Ssc.go_idle (h : s.sc t = .idle) : s.step e (.go t) = (s, none) := by simp [Ssc.step, hb, h]

theorem Ssc.go_found {k : Nat} (h : s.sc t = .found k) :
    s.step e (.go t) = ((s.put { s.lib with sessions := closeOne s.lib.sessions k }).at t .finalized, none) := by
  simp [Ssc.step, hb, h]

theorem Ssc.go_dangling (h : s.sc t = .dangling) :
    s.step e (.go t) = ((s.put { s.lib with bad := true }).at t .idle, some { rv := .ub }) := by
  simp [Ssc.step, hb, h]

theorem Ssc.go_finalized (h : s.sc t = .finalized) : s.step e (.go t) =
    if anyInUse s.lib.sessions then (s.at t .idle, some { rv := .ok }) else (s.at t .leaving, none) := by
  simp [Ssc.step, hb, h]

theorem Ssc.go_leaving (h : s.sc t = .leaving) :
    s.step e (.go t) = ((s.put (Verif.logout e s.lib)).at t .idle, some { rv := .ok }) := by
  simp [Ssc.step, hb, h]

end go

/-- Logging out does not touch the sessions. -/
theorem getSession_logout (e : Env) (l : Lib) (k : Nat) : getSession (logout e l) k = getSession l k := rfl

/-! ## Checking schedules of finitely many threads -/

/-- The thread that acts is below `n`. -/
def SEv.below (n : Nat) : SEv → Bool
  | .call _ => true
  | .close t _ => decide (t < n)
  | .go t => decide (t < n)

theorem Ssc.idle_step {n : Nat} {s : Ssc} (hs : ∀ t, n ≤ t → s.sc t = .idle) (e : Env) {v : SEv} (hv : v.below n = true) :
    ∀ t, n ≤ t → (s.step e v).1.sc t = .idle := by
  have hput : ∀ l t, n ≤ t → (s.put l).sc t = .idle := by
    intro l t ht
    simp only [Ssc.put, hs t ht, Sc.after]
  have hat : ∀ {s : Ssc} (_ : ∀ t, n ≤ t → s.sc t = .idle) {u : Nat} (_ : u < n) (p : Sc) (t : Nat), n ≤ t →
      (s.at u p).sc t = .idle := by
    intro s hs u hu p t ht
    have : t ≠ u := by omega
    simp only [Ssc.at, if_neg this]
    exact hs t ht
  cases v with
  | call c => exact hput _
  | close u h =>
    have hu : u < n := by simpa [SEv.below] using hv
    simp only [Ssc.step]
    split
    · exact hs
    split
    · exact hat hs hu _
    · exact hs
  | go u =>
    have hu : u < n := by simpa [SEv.below] using hv
    simp only [Ssc.step]
    split
    · exact hs
    split
    · exact hs
    · exact hat (hput _) hu _
    · exact hat (hput _) hu _
    · split
      · exact hat hs hu _
      · exact hat hs hu _
    · exact hat (hput _) hu _

/-- `Closes`, as a check. -/
def SEv.closesB (h : Nat) : SEv → Bool
  | .call c =>
    match c with
    | .sess k .close => k == h
    | .slot 1 .closeAll => true
    | .cFinal => true
    | _ => false
  | .close _ k => k == h
  | .go _ => false

theorem SEv.closesB_of {h : Nat} {v : SEv} (hv : Closes h v) : v.closesB h = true := by
  cases v with
  | call c => rcases hv with rfl | rfl | rfl <;> simp [SEv.closesB, closeCall, closeAllCall]
  | close t k => cases hv; simp [SEv.closesB]
  | go t => cases hv

/-- `ApartAt`, as a check of the first `n` threads. -/
def Ssc.apartB (n : Nat) (s : Ssc) (v : SEv) : Bool :=
  (List.range n).all fun t =>
    match s.sc t with
    | .idle => true
    | .found h => !v.closesB h
    | _ => match v with | .call .cFinal => false | _ => true

theorem Ssc.apartAt_of {n : Nat} {s : Ssc} (hs : ∀ t, n ≤ t → s.sc t = .idle) {v : SEv} (h : s.apartB n v = true) :
    s.ApartAt v := by
  have h' : ∀ t, t < n → _ := fun t ht => List.all_eq_true.mp h t (List.mem_range.mpr ht)
  constructor
  · intro t k hk hc
    by_cases ht : t < n
    · have := h' t ht
      rw [hk] at this
      simp [SEv.closesB_of hc] at this
    · rw [hs t (by omega)] at hk; cases hk
  · rintro rfl t
    by_cases ht : t < n
    · have := h' t ht
      cases hp : s.sc t <;> rw [hp] at this
      all_goals simp [SEv.closesB] at this
    · exact hs t (by omega)

/-- `Apart`, as a check of the first `n` threads. -/
def Ssc.apartRun (n : Nat) (e : Env) : Ssc → List SEv → Bool
  | _, [] => true
  | s, v :: vs => v.below n && s.apartB n v && Ssc.apartRun n e (s.step e v).1 vs

theorem Ssc.apart_of {n : Nat} {s : Ssc} (hs : ∀ t, n ≤ t → s.sc t = .idle) {e : Env} {vs : List SEv}
    (h : s.apartRun n e vs = true) : s.Apart e vs ∧ ∀ t, n ≤ t → (s.run e vs).sc t = .idle := by
  induction vs generalizing s with
  | nil => exact ⟨trivial, hs⟩
  | cons v vs ih =>
    simp only [Ssc.apartRun, Bool.and_eq_true] at h
    obtain ⟨h1, h2⟩ := ih (Ssc.idle_step hs e h.1.1) h.2
    exact ⟨⟨Ssc.apartAt_of hs h.1.2, h1⟩, h2⟩

end Verif
