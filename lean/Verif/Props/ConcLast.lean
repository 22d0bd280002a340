import Verif.Spec.ConcLast
import Verif.Props.ConcReset
import Verif.Props.ConcSess

/-!
# C132: a login does not outlive the sessions, with any threads
-/

namespace Verif

variable {e : Env}

theorem isOpen_inUse {l : Lib} {h : Nat} (ho : IsOpen e l h) : anyInUse l.sessions = true := by
  cases hf : anyInUse l.sessions with
  | true => rfl
  | false =>
    exfalso
    have hg := getSession_free hf h
    unfold IsOpen sessionInfo answer at ho
    by_cases hb : l.bad = true
    · rw [step_bad hb] at ho; cases ho
    · have hb' : l.bad = false := by simpa using hb
      rw [step_resp hb'] at ho
      simp only [callBody, hg] at ho
      split at ho <;> cases ho

/-- Nobody is logged in unless a session is in use. -/
def LogTidy (l : Lib) : Prop := l.bad = true ∨ l.count ≤ 0 ∨ anyInUse l.sessions = true ∨ l.token.login = .pub

theorem logTidy_step {s : Conc} (hw : WInv s.lib) (h : LogTidy s.lib) (ho : s.Quiet ∨ ∃ h, IsOpen e s.lib h) {v : Ev}
    (hv : ∀ i, v ≠ .call (.slot i .closeAll)) : WInv (s.step e v).1.lib ∧ LogTidy (s.step e v).1.lib := by
  cases v with
  | call c =>
    refine ⟨hw.step e c, ?_⟩
    show LogTidy (Verif.step e s.lib c).1
    cases hb' : (Verif.step e s.lib c).1.bad with
    | true => exact .inl hb'
    | false =>
      obtain ⟨hb, _, he⟩ := Verif.step_good hb'
      rcases h with h | h
      · rw [hb] at h; cases h
      · have := tidy_call (e := e) (c := c) (fun i hc => hv i (by rw [hc])) h
        rw [← he] at this
        exact .inr this
  | login t k w pin now =>
    simp only [Conc.step]
    repeat' split
    all_goals exact ⟨hw, h⟩
  | go t =>
    simp only [Conc.step]
    split
    · exact ⟨hw, h⟩
    rename_i hb
    obtain ⟨h1, h2, h3⟩ := advance_frame e s.lib (s.pc t)
    refine ⟨hw.of h1 h2, ?_⟩
    show LogTidy (advance e s.lib (s.pc t)).1
    rcases h3 with h3 | ⟨w, hp, _⟩
    · rcases h with h | h | h | h
      · exact absurd h hb
      · exact .inr (.inl (by rw [h2]; exact h))
      · exact .inr (.inr (.inl (by rw [h1]; exact h)))
      · exact .inr (.inr (.inr (by rw [h3]; exact h)))
    · rcases ho with hq | ⟨k, hk⟩
      · rw [hq t] at hp; cases hp
      · exact .inr (.inr (.inl (by rw [h1]; exact isOpen_inUse hk)))

theorem logTidy_run {s : Conc} (hw : WInv s.lib) (h : LogTidy s.lib) {vs : List Ev} (ho : OpenMeanwhile e s vs) (hv : NeverCloseAll vs) :
    WInv (s.run e vs).lib ∧ LogTidy (s.run e vs).lib := by
  induction vs generalizing s with
  | nil => exact ⟨hw, h⟩
  | cons v vs ih =>
    obtain ⟨h1, h2⟩ := logTidy_step hw h ho.1 (v := v) fun i hc => hv i (by rw [hc]; exact List.mem_cons_self ..)
    exact ih h1 h2 ho.2 fun i hc => hv i (List.mem_cons_of_mem _ hc)

/-- **C132**, proved part: threads log in at the same time and other threads make any other calls but `C_CloseAllSessions`, where
at every moment at which a thread is inside `C_Login` a session is open.  When no session is open nobody is logged in: a session opened next is
public, whoever opens it.

What is missing: schedules that close the last session during a login; there it is false (`c132_violated`). -/
theorem c132_partial (e : Env) {l₀ : Lib} (h₀ : Start l₀) (vs : List Ev) (hv : NeverCloseAll vs)
    (ho : OpenMeanwhile e { lib := l₀ } vs) :
    let l := (Conc.run e { lib := l₀ } vs).lib
    Initialised e l → (∀ k, ¬ IsOpen e l k) → ∀ rw', ∃ k, answer e l (openCall rw') = { rv := .ok, handle := some k } ∧
      sessionInfo e (step e l (openCall rw')).1 k =
        { rv := .ok, state := some (if rw' then .rwPublic else .roPublic, rw') } := by
  intro l hin hno rw'
  obtain ⟨hw, ht⟩ := logTidy_run (e := e) (s := { lib := l₀ }) h₀.sinv.winv (.inr (.inl (by show l₀.count ≤ 0; rw [h₀.count]; omega))) ho hv
  change WInv l at hw
  change LogTidy l at ht
  have hb : l.bad = false := by
    cases hb : l.bad with
    | false => rfl
    | true =>
      unfold Initialised answer at hin
      rw [step_bad hb] at hin; cases hin
  have hc : 0 < l.count := (initialised_iff hb).mp hin
  have hp : l.token.login = .pub := by
    rcases ht with h | h | h | h
    · rw [hb] at h; cases h
    · omega
    · exfalso
      obtain ⟨x, hx, hu⟩ := anyInUse_iff.mp h
      -- the session in use is open
      have hg : getSession l x.handle = some x := by
        have := (getSession_iff (l := unlog l) hw (h := x.handle) (s := x)).mpr ⟨hx, rfl, hu⟩
        exact this
      refine hno x.handle ?_
      unfold IsOpen
      rw [sessionInfo_eq hb hc, hg]
    · exact h
  have hi : SInv l := hw.sinv hp
  have hunused : ∀ x ∈ l.sessions, x.use = .no := by
    intro x hx
    apply Decidable.byContradiction
    intro hu
    exact hno x.handle ((isOpen_iff hi).mpr ⟨hb, x, (getSession_iff hi).mpr ⟨hx, rfl, hu⟩⟩)
  obtain ⟨hb3, hsp⟩ := openSession_spec (e := e) hi hb hc rw'
  rcases hsp with ⟨_, hso, _⟩ | ⟨_, h70, hall, _⟩ | ⟨_, _, k, hr2, _, ⟨t, ht, hrw, _⟩, _, htok, hcnt2⟩
  · rw [hp] at hso; cases hso
  · exfalso
    cases hss : l.sessions with
    | nil => rw [hss] at h70; simp at h70
    | cons a as =>
      have ha : a ∈ l.sessions := by rw [hss]; simp
      exact hall a ha (hunused a ha)
  · refine ⟨k, hr2, ?_⟩
    rw [sessionInfo_eq hb3 (by rw [hcnt2]; exact hc), ht]
    simp only [sessState, htok, hrw, hp]
    cases rw'
    · have : ¬ t.use = .rw := by simpa using hrw
      simp [this]
    · have : t.use = .rw := by simpa using hrw
      simp [this]

namespace Demo

/-- Whole calls. -/
def wholes (cs : List Call) : List Ev := cs.map .call

/-- A token with both PINs and two sessions, the user logged out; thread 1 logs in while session 65537 is closed, thread 2 tries the same, and then the last session is closed. -/
def inTime : List Ev :=
  wholes (setup ++ [.sess 65538 .logout, openCall true]) ++
  [.login 1 65538 .user userPin 0, .go 1, .login 2 65537 .user userPin 0, .go 1, .call (closeCall 65537), .go 1, .go 1, .go 1, .go 1, .go 1, .go 2,
   .call (closeCall 65538)]

/-- The hypotheses of `c132_partial` are met: during the logins session 65538 is open, and after it was closed nobody has one. -/
example : NeverCloseAll inTime ∧ OpenMeanwhile env { lib := fresh } inTime ∧
    (Conc.returns env { lib := fresh } inTime).drop 9 = [.ok, .ok, .userAlreadyLoggedIn, .ok] := by
  refine ⟨fun i => by simp [inTime, wholes, setup, openCall, closeCall], ?_, by decide +kernel⟩
  refine ⟨.inl fun _ => rfl, .inl fun _ => rfl, .inl fun _ => rfl, .inl fun _ => rfl, .inl fun _ => rfl, .inl fun _ => rfl, .inl fun _ => rfl,
    .inl fun _ => rfl, .inl fun _ => rfl, .inl fun _ => rfl, ?_⟩
  refine ⟨.inr ⟨65538, by unfold IsOpen; decide +kernel⟩, .inr ⟨65538, by unfold IsOpen; decide +kernel⟩, .inr ⟨65538, by unfold IsOpen; decide +kernel⟩, .inr ⟨65538, by unfold IsOpen; decide +kernel⟩,
    .inr ⟨65538, by unfold IsOpen; decide +kernel⟩, .inr ⟨65538, by unfold IsOpen; decide +kernel⟩, .inr ⟨65538, by unfold IsOpen; decide +kernel⟩, .inr ⟨65538, by unfold IsOpen; decide +kernel⟩,
    .inr ⟨65538, by unfold IsOpen; decide +kernel⟩, .inr ⟨65538, by unfold IsOpen; decide +kernel⟩, .inr ⟨65538, by unfold IsOpen; decide +kernel⟩, trivial⟩

/-- After it the library is initialised and no session is open. -/
example : Initialised env (Conc.run env { lib := fresh } inTime).lib ∧ ∀ k, ¬ IsOpen env (Conc.run env { lib := fresh } inTime).lib k :=
  ⟨by show (answer env (Conc.run env { lib := fresh } inTime).lib _).rv = .ok; decide +kernel, fun _ hk => absurd (isOpen_inUse hk) (by decide +kernel)⟩

/-- The only session is closed while thread 1 is inside `C_Login`; then somebody else opens a session. -/
def tooLate : List Ev :=
  wholes (setup ++ [.sess 65538 .logout]) ++
  [.login 1 65538 .user userPin 0, .go 1, .go 1, .call (closeCall 65538), .go 1, .go 1, .go 1, .go 1, .go 1]

/-- **C132** does not hold when the last session is closed during a login: `C_CloseSession` and `C_Login` answer `CKR_OK`, no session is open, and
who opens one next, without any PIN, is logged in as the user. -/
theorem c132_violated :
    let l := (Conc.run env { lib := fresh } tooLate).lib
    (∀ rv ∈ Conc.returns env { lib := fresh } tooLate, rv = .ok) ∧ (∀ k, ¬ IsOpen env l k) ∧
    (answer env l (openCall true)).handle = some 65538 ∧
    sessionInfo env (step env l (openCall true)).1 65538 = { rv := .ok, state := some (.rwUser, true) } := by
  refine ⟨by decide +kernel, fun k hk => ?_, by decide +kernel, by decide +kernel⟩
  have := isOpen_inUse hk
  exact absurd this (by decide +kernel)

end Demo

end Verif
