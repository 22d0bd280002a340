import Verif.Props.Sess

/-!
# C05–C08, C13, C54: closing sessions, the shared login state, independence of sessions
-/

namespace Verif

theorem shape_of_open {l : Lib} (hi : SInv l) {k : Nat} {s : Session} (h : getSession l k = some s) :
    ∃ n, 2 ≤ n ∧ n ≤ 70 ∧ handles l.sessions = down n := by
  have := count_pos_of_open hi h
  rcases hi.shape with ⟨h1, _⟩ | ⟨_, h2⟩
  · omega
  · exact h2

theorem anyInUse_iff {ss : List Session} : anyInUse ss = true ↔ ∃ s ∈ ss, s.use ≠ .no := by
  simp [anyInUse]

/-! ## C05 -/

/-- The effect of `C_CloseSession` on an open session. -/
theorem close_spec {e : Env} {l : Lib} (hi : SInv l) {h : Nat} (ho : IsOpen e l h) :
    let r := step e l (closeCall h)
    r.1.bad = false ∧ r.2 = { rv := .ok } ∧ getSession r.1 h = none ∧
    (∀ k, k ≠ h → getSession r.1 k = getSession l k) ∧
    ((∃ k, k ≠ h ∧ IsOpen e l k) → r.1.token = l.token) ∧
    ((∀ k, k ≠ h → ¬ IsOpen e l k) → r.1.token.login = .pub) ∧
    r.1.count = l.count := by
  intro r
  obtain ⟨hb, s, hs⟩ := (isOpen_iff hi).mp ho
  obtain ⟨hsh, hsu, hsm⟩ := getSession_handle hs
  have hc := count_pos_of_open hi hs
  have hc' : ¬ l.count ≤ 0 := by omega
  have hbody : callBody e l (closeCall h) = closeSession e l h := by
    simp only [callBody, closeCall, hc', if_false, hs, sessCall, hsh]
  have hr : r = closeSession e l h := by
    show step e l (closeCall h) = _
    rw [step_eq hb, hbody]
    rw [hbody]; simp [closeSession]
  have hi' : SInv r.1 := hi.step e _
  obtain ⟨n, hn2, h70, hh⟩ := shape_of_open hi hs
  obtain ⟨_, c2, c3, c4⟩ := closeOne_spec hn2 h70 hh h
  have hss : r.1.sessions = closeOne l.sessions h := by rw [hr]; exact (closeSession_sessions e l h).1
  have hnone : getSession r.1 h = none := by
    cases hg : getSession r.1 h with
    | none => rfl
    | some t =>
      obtain ⟨hm, he, hu⟩ := (getSession_iff hi').mp hg
      rw [hss] at hm
      obtain ⟨u, _, rfl⟩ := c4 t hm he
      exact absurd (sessFinal_use u) hu
  have hother : ∀ k, k ≠ h → getSession r.1 k = getSession l k := by
    intro k hk
    apply Option.ext
    intro t
    rw [getSession_iff hi', getSession_iff hi, hss]
    constructor
    · rintro ⟨h1, h2, h3⟩; exact ⟨c3 t h1 (by rw [h2]; exact hk), h2, h3⟩
    · rintro ⟨h1, h2, h3⟩; exact ⟨c2 t h1 (by rw [h2]; exact hk) h3, h2, h3⟩
  have hbad : r.1.bad = false := by
    rw [hr]; unfold closeSession; dsimp only; split <;> exact hb
  refine ⟨hbad, by rw [hr]; rfl, hnone, hother, ?_, ?_, by rw [hr]; exact (closeSession_sessions e l h).2⟩
  · rintro ⟨k, hk, hok⟩
    obtain ⟨_, t, ht⟩ := (isOpen_iff hi).mp hok
    rw [← hother k hk] at ht
    obtain ⟨hm, _, hu⟩ := (getSession_iff hi').mp ht
    rw [hss] at hm
    rw [hr]
    unfold closeSession; dsimp only
    rw [if_pos (anyInUse_iff.mpr ⟨t, hm, hu⟩)]
  · intro hno
    rw [hr]
    unfold closeSession; dsimp only
    have : ¬ anyInUse (closeOne l.sessions h) = true := by
      rw [anyInUse_iff]
      rintro ⟨t, hm, hu⟩
      have ht : getSession r.1 t.handle = some t := (getSession_iff hi').mpr ⟨hss ▸ hm, rfl, hu⟩
      by_cases hk : t.handle = h
      · rw [hk, hnone] at ht; cases ht
      · rw [hother _ hk] at ht
        exact hno _ hk ((isOpen_iff hi).mpr ⟨hb, t, ht⟩)
    rw [if_neg this]
    rfl

/-- C05: `C_CloseSession` makes exactly that handle invalid.  Every other session is the
same as before in every respect (mode, session objects, search, operation in progress,
key in use), and while another session is open the token is not touched. -/
theorem c05_close_only_that (e : Env) {l₀ : Lib} (h₀ : Start l₀) (cs : List Call) (h : Nat) :
    let l := run e l₀ cs
    let l' := (step e l (closeCall h)).1
    IsOpen e l h →
    answer e l (closeCall h) = { rv := .ok } ∧ ¬ IsOpen e l' h ∧
    (∀ k, k ≠ h → getSession l' k = getSession l k) ∧
    (∀ k, k ≠ h → (IsOpen e l' k ↔ IsOpen e l k)) ∧
    (∀ k, k ≠ h → IsOpen e l k → sessionInfo e l' k = sessionInfo e l k) ∧
    ((∃ k, k ≠ h ∧ IsOpen e l k) → l'.token = l.token) := by
  intro l l' ho
  have hi : SInv l := h₀.sinv.run e cs
  have hi' : SInv l' := hi.step e _
  have hb := ((isOpen_iff hi).mp ho).1
  obtain ⟨hbad, hr, hnone, hother, htok, _, hcnt⟩ := close_spec hi ho
  refine ⟨hr, ?_, hother, ?_, ?_, htok⟩
  · rw [isOpen_iff hi']
    rintro ⟨_, s, hs⟩
    rw [show getSession l' h = none from hnone] at hs; cases hs
  · intro k hk
    rw [isOpen_iff hi', isOpen_iff hi, hother k hk]
    exact ⟨fun h => ⟨hb, h.2⟩, fun h => ⟨hbad, h.2⟩⟩
  · intro k hk hok
    obtain ⟨_, t, ht⟩ := (isOpen_iff hi).mp hok
    have hc := count_pos_of_open hi ht
    have hc2 : 0 < l'.count := by show 0 < (step e l (closeCall h)).1.count; rw [hcnt]; exact hc
    rw [sessionInfo_eq hbad hc2, sessionInfo_eq hb hc, hother k hk, ht]
    have : l'.token = l.token := htok ⟨k, hk, hok⟩
    simp only [sessState]
    rw [this]

example : IsOpen Demo.env (run Demo.env Demo.fresh [.cInit, openCall true, openCall false]) 65538 := by
  unfold IsOpen; decide

/-! ## C06 -/

/-- The effect of `C_CloseAllSessions`. -/
theorem closeAll_step {e : Env} {l : Lib} (hi : SInv l) (hb : l.bad = false) (hc : 0 < l.count) :
    step e l closeAllCall = ({ l with sessions := closeAll l.sessions }, { rv := .ok }) := by
  have hc' : ¬ l.count ≤ 0 := by omega
  rw [step_eq hb] <;> simp [callBody, closeAllCall, hc', slotCall]

/-- C06, the part that holds: after `C_CloseAllSessions` no session but the one with the
lowest handle is open.  That one stays as it was, and so does the login state. -/
theorem c06_partial (e : Env) {l₀ : Lib} (h₀ : Start l₀) (cs : List Call) :
    let l := run e l₀ cs
    let l' := (step e l closeAllCall).1
    Initialised e l →
    (∀ h, IsOpen e l' h → h = 65537) ∧ getSession l' 65537 = getSession l 65537 ∧
    l'.token = l.token := by
  intro l l' hin
  have hi : SInv l := h₀.sinv.run e cs
  have hi' : SInv l' := hi.step e _
  have hb : l.bad = false := by
    cases hb : l.bad with
    | false => rfl
    | true => unfold Initialised answer at hin; rw [step_bad hb] at hin; cases hin
  have hc := (initialised_iff hb).mp hin
  obtain ⟨n, h2, h70, hh⟩ : ∃ n, 2 ≤ n ∧ n ≤ 70 ∧ handles l.sessions = down n := by
    rcases hi.shape with ⟨h1, _⟩ | ⟨_, h2⟩
    · omega
    · exact h2
  obtain ⟨s2, s1, m2, m1, e2, e1, hcl⟩ := closeAll_spec h2 h70 hh
  have hs := closeAll_step (e := e) hi hb hc
  have hl' : l' = { l with sessions := closeAll l.sessions } := by
    show (step e l closeAllCall).1 = _; rw [hs]
  refine ⟨?_, ?_, by rw [hl']⟩
  · intro h ho
    obtain ⟨_, s, hg⟩ := (isOpen_iff hi').mp ho
    obtain ⟨hm, he, hu⟩ := (getSession_iff hi').mp hg
    rw [hl'] at hm
    dsimp only at hm
    rw [hcl] at hm
    simp only [List.mem_cons, List.not_mem_nil, or_false] at hm
    rcases hm with rfl | rfl
    · exact absurd (sessFinal_use s2) hu
    · rw [← he, e1]
  · apply Option.ext
    intro t
    rw [getSession_iff hi', getSession_iff hi, hl']
    dsimp only
    rw [hcl]
    constructor
    · rintro ⟨hm, he, hu⟩
      simp only [List.mem_cons, List.not_mem_nil, or_false] at hm
      rcases hm with rfl | rfl
      · exact absurd (sessFinal_use s2) hu
      · exact ⟨m1, he, hu⟩
    · rintro ⟨hm, he, hu⟩
      have : t = s1 := by
        have h1 := (find_iff hi.nodup).mpr ⟨hm, he⟩
        rw [(find_iff hi.nodup).mpr ⟨m1, e1⟩] at h1
        exact (Option.some.inj h1).symm
      exact ⟨by simp [this], he, hu⟩

/-- C06 fails: with two sessions open and the user logged in, after
`C_CloseAllSessions` the second session is still open and still logged in. -/
theorem c06_violated :
    ∃ cs, let l := run Demo.env Demo.fresh cs
      answer Demo.env l closeAllCall = { rv := .ok } ∧
      sessionInfo Demo.env (step Demo.env l closeAllCall).1 65537 =
        { rv := .ok, state := some (.rwUser, true) } :=
  ⟨Demo.setup ++ [openCall true], by decide⟩

/-! ## C07 -/

/-- C07: closing the last open session logs out: a session opened next is public. -/
theorem c07_last_close_logs_out (e : Env) {l₀ : Lib} (h₀ : Start l₀) (cs : List Call) (h : Nat) :
    let l := run e l₀ cs
    let l' := (step e l (closeCall h)).1
    IsOpen e l h → (∀ k, k ≠ h → ¬ IsOpen e l k) →
    ∀ rw', ∃ k, answer e l' (openCall rw') = { rv := .ok, handle := some k } ∧
      sessionInfo e (step e l' (openCall rw')).1 k =
        { rv := .ok, state := some (if rw' then .rwPublic else .roPublic, rw') } := by
  intro l l' ho hlast rw'
  have hi : SInv l := h₀.sinv.run e cs
  have hi' : SInv l' := hi.step e _
  obtain ⟨hbad, hr, hnone, hother, _, hpub, hcnt⟩ := close_spec hi ho
  have hp : l'.token.login = .pub := hpub hlast
  obtain ⟨hb, s, hs⟩ := (isOpen_iff hi).mp ho
  have hc := count_pos_of_open hi hs
  have hc2 : 0 < l'.count := by show 0 < (step e l (closeCall h)).1.count; rw [hcnt]; exact hc
  have hunused : ∀ s ∈ l'.sessions, s.use = .no := by
    intro t ht
    apply Decidable.byContradiction
    intro hu
    have hg : getSession l' t.handle = some t := (getSession_iff hi').mpr ⟨ht, rfl, hu⟩
    by_cases hk : t.handle = h
    · rw [hk, show getSession l' h = none from hnone] at hg; cases hg
    · rw [hother _ hk] at hg
      exact hlast _ hk ((isOpen_iff hi).mpr ⟨hb, t, hg⟩)
  obtain ⟨hb3, hsp⟩ := openSession_spec (e := e) hi' hbad hc2 rw'
  rcases hsp with ⟨_, hso, _⟩ | ⟨_, h70, hall, _⟩ | ⟨_, _, k, hr2, _, ⟨t, ht, hrw, _⟩, _, htok, hcnt2⟩
  · rw [hp] at hso; cases hso
  · exfalso
    cases hss : l'.sessions with
    | nil => rw [hss] at h70; simp at h70
    | cons a as => exact hall a (by rw [hss]; simp) (hunused a (by rw [hss]; simp))
  · refine ⟨k, hr2, ?_⟩
    rw [sessionInfo_eq hb3 (by rw [hcnt2]; exact hc2), ht]
    simp only [sessState, htok, hp, hrw]
    cases rw'
    · have : ¬ t.use = .rw := by simpa using hrw
      simp [this]
    · have : t.use = .rw := by simpa using hrw
      simp [this]

/-- Non-vacuity: one session open, the user logged in. -/
example : IsOpen Demo.env (run Demo.env Demo.fresh Demo.setup) 65538 ∧
    sessionInfo Demo.env (run Demo.env Demo.fresh Demo.setup) 65538 =
      { rv := .ok, state := some (.rwUser, true) } ∧
    ∀ k, k ≠ 65538 → ¬ IsOpen Demo.env (run Demo.env Demo.fresh Demo.setup) k := by
  refine ⟨by unfold IsOpen; decide, by decide, ?_⟩
  intro k hk ho
  have hi := Demo.fresh_start.sinv.run Demo.env Demo.setup
  obtain ⟨_, s, hs⟩ := (isOpen_iff hi).mp ho
  obtain ⟨hm, he, hu⟩ := (getSession_iff hi).mp hs
  have hl : (run Demo.env Demo.fresh Demo.setup).sessions.filter (fun s => s.use != .no) =
      [{ handle := 65538, use := .rw }] := by decide
  have : s ∈ (run Demo.env Demo.fresh Demo.setup).sessions.filter (fun s => s.use != .no) :=
    List.mem_filter.mpr ⟨hm, by simp [hu]⟩
  rw [hl] at this
  simp only [List.mem_singleton] at this
  rw [this] at he
  exact hk he.symm

/-! ## C08 -/

/-- The state a session is expected to report, by who is logged in and its mode. -/
def expectedState : Login → Bool → SState
  | .so, _ => .rwSo
  | .user, true => .rwUser
  | .user, false => .roUser
  | .pub, true => .rwPublic
  | .pub, false => .roPublic

/-- All open sessions report the same login `L`. -/
def LoggedIn (e : Env) (l : Lib) (L : Login) : Prop :=
  ∀ h rw', OpenAs e l h rw' → sessionInfo e l h = { rv := .ok, state := some (expectedState L rw', rw') }

theorem loggedIn_of {e : Env} {l : Lib} (hi : SInv l) : LoggedIn e l l.token.login := by
  intro h rw' ho
  obtain ⟨hb, s, hs, hrw⟩ := (openAs_iff hi).mp ho
  rw [sessionInfo_eq hb (count_pos_of_open hi hs), hs]
  simp only [sessState, hrw]
  cases l.token.login <;> cases rw' <;> simp_all [expectedState]

/-- C08: while a session is open read-only no session reports the security officer as
logged in. -/
theorem c08_exclusion (e : Env) {l₀ : Lib} (h₀ : Start l₀) (cs : List Call) (h : Nat) :
    let l := run e l₀ cs
    OpenAs e l h false → ∀ k rw', sessionInfo e l k ≠ { rv := .ok, state := some (.rwSo, rw') } := by
  intro l ho k rw' hk
  have hi : SInv l := h₀.sinv.run e cs
  obtain ⟨hb, s, hs, hrw⟩ := (openAs_iff hi).mp ho
  have hc := count_pos_of_open hi hs
  obtain ⟨hm, _, hu⟩ := (getSession_iff hi).mp hs
  have hro : s.use = .ro := by
    cases hsu : s.use with
    | no => exact absurd hsu hu
    | ro => rfl
    | rw => simp [hsu] at hrw
  rw [sessionInfo_eq hb hc] at hk
  cases hg : getSession l k with
  | none => rw [hg] at hk; cases hk
  | some t =>
    rw [hg] at hk
    simp only [Resp.mk.injEq, Option.some.injEq, Prod.mk.injEq, sessState] at hk
    have hlog : l.token.login = .so := by
      cases hl : l.token.login with
      | so => rfl
      | pub => simp only [hl] at hk; split at hk <;> simp at hk
      | user => simp only [hl] at hk; split at hk <;> simp at hk
    exact hi.so hlog s hm hro

/-- C08: opening a read-only session is refused while the security officer is logged
in. -/
theorem c08_open_refused (e : Env) {l₀ : Lib} (h₀ : Start l₀) (cs : List Call) (k : Nat) (rw' : Bool) :
    let l := run e l₀ cs
    sessionInfo e l k = { rv := .ok, state := some (.rwSo, rw') } →
    step e l (openCall false) = (l, { rv := .sessionReadWriteSoExists }) := by
  intro l hk
  have hi : SInv l := h₀.sinv.run e cs
  have ho : IsOpen e l k := by unfold IsOpen; rw [hk]
  obtain ⟨hb, s, hs⟩ := (isOpen_iff hi).mp ho
  have hc := count_pos_of_open hi hs
  rw [sessionInfo_eq hb hc, hs] at hk
  simp only [Resp.mk.injEq, Option.some.injEq, Prod.mk.injEq, sessState] at hk
  have hlog : l.token.login = .so := by
    cases hl : l.token.login with
    | so => rfl
    | pub => simp only [hl] at hk; split at hk <;> simp at hk
    | user => simp only [hl] at hk; split at hk <;> simp at hk
  obtain ⟨_, hsp⟩ := openSession_spec (e := e) hi hb hc false
  rcases hsp with ⟨_, _, hr⟩ | ⟨hn, _⟩ | ⟨hn, _⟩
  · exact hr
  · exact absurd ⟨rfl, hlog⟩ hn
  · exact absurd ⟨rfl, hlog⟩ hn

/-- C08: login as security officer is refused, whatever the PIN, while a read-only
session is open; it never succeeds. -/
theorem c08_login_refused (e : Env) {l₀ : Lib} (h₀ : Start l₀) (cs : List Call) (h k : Nat)
    (pin : Option Bytes) (now : Int) :
    let l := run e l₀ cs
    OpenAs e l h false → (answer e l (.sess k (.login .so pin now))).rv ≠ .ok := by
  intro l ho hok
  have hi : SInv l := h₀.sinv.run e cs
  obtain ⟨hb, s, hs, hrw⟩ := (openAs_iff hi).mp ho
  have hc := count_pos_of_open hi hs
  have hc' : ¬ l.count ≤ 0 := by omega
  obtain ⟨hm, _, hu⟩ := (getSession_iff hi).mp hs
  have hro : s.use = .ro := by
    cases hsu : s.use with
    | no => exact absurd hsu hu
    | ro => rfl
    | rw => simp [hsu] at hrw
  have hany : l.sessions.any (fun s => s.use == .ro) = true :=
    List.any_eq_true.mpr ⟨s, hm, by simp [hro]⟩
  rw [answer, step_resp hb] at hok
  simp only [callBody, hc', if_false] at hok
  cases hg : getSession l k with
  | none => rw [hg] at hok; cases hok
  | some t =>
    rw [hg] at hok
    simp only [sessCall, login] at hok
    split at hok
    · cases hok
    split at hok
    · cases hok
    simp only [soLogin] at hok
    split at hok
    · cases hok
    split at hok
    · cases hok
    · dsimp only at hok
      first | (cases hok; done) | (rw [if_pos hany] at hok; cases hok)

/-- C08: with a PIN of acceptable length, nobody logged in and the account not locked,
the status is `CKR_SESSION_READ_ONLY_EXISTS`. -/
theorem c08_login_status (e : Env) {l₀ : Lib} (h₀ : Start l₀) (cs : List Call) (h : Nat)
    (pin : Bytes) (now : Int) :
    let l := run e l₀ cs
    OpenAs e l h false → LoggedIn e l .pub → 4 ≤ pin.length → pin.length ≤ 32 →
    l.token.so.fails ≠ 3 →
    (answer e l (.sess h (.login .so (some pin) now))).rv = .sessionReadOnlyExists := by
  intro l ho hpub h4 h32 hf
  have hi : SInv l := h₀.sinv.run e cs
  obtain ⟨hb, s, hs, hrw⟩ := (openAs_iff hi).mp ho
  have hc := count_pos_of_open hi hs
  have hc' : ¬ l.count ≤ 0 := by omega
  obtain ⟨hm, _, hu⟩ := (getSession_iff hi).mp hs
  have hro : s.use = .ro := by
    cases hsu : s.use with
    | no => exact absurd hsu hu
    | ro => rfl
    | rw => simp [hsu] at hrw
  have hany : l.sessions.any (fun s => s.use == .ro) = true :=
    List.any_eq_true.mpr ⟨s, hm, by simp [hro]⟩
  have hlog : l.token.login = .pub := by
    have h1 := hpub h _ ho
    have h2 := loggedIn_of (e := e) hi h _ ho
    rw [h1] at h2
    revert h2
    cases l.token.login <;> simp [expectedState]
  have hlen : pinLenOk pin = true := by simp [pinLenOk, h4, h32]
  have hlc : lockCheck l.token.so now = some l.token.so := by simp [lockCheck, maxFails, hf]
  rw [answer, step_resp hb]
  simp only [callBody, hc', if_false, hs, sessCall, login, hlen, Bool.not_true, Bool.false_eq_true, soLogin,
    hlog, ne_eq, not_true_eq_false, hlc, hany, if_true]

/-- Non-vacuity: a login attempt with the right PIN while a read-only session is open. -/
example : Demo.rvs Demo.env Demo.fresh
    [.cInit, .slot 1 (.initToken (some Demo.soPin) (some Demo.label)), openCall true, openCall false,
     .sess 65538 (.login .so (some Demo.soPin) 0), closeCall 65537,
     .sess 65538 (.login .so (some Demo.soPin) 0), openCall false] =
    [.ok, .ok, .ok, .ok, .sessionReadOnlyExists, .ok, .ok, .sessionReadWriteSoExists] := by decide

/-! ## C13 -/

/-- C13: there is one login state which every open session reports, each according to
its own mode. -/
theorem c13_one_state (e : Env) {l₀ : Lib} (h₀ : Start l₀) (cs : List Call) :
    ∃ L, LoggedIn e (run e l₀ cs) L :=
  ⟨_, loggedIn_of (h₀.sinv.run e cs)⟩

/-- C13: a successful login through any session changes it for all of them. -/
theorem c13_login (e : Env) {l₀ : Lib} (h₀ : Start l₀) (cs : List Call) (h : Nat) (u : UserType)
    (pin : Option Bytes) (now : Int) :
    let l := run e l₀ cs
    let c := Call.sess h (.login u pin now)
    (answer e l c).rv = .ok →
    (u = .so ∧ LoggedIn e (step e l c).1 .so) ∨ (u = .user ∧ LoggedIn e (step e l c).1 .user) := by
  intro l c hok
  have hi : SInv l := h₀.sinv.run e cs
  have hb : l.bad = false := by
    cases hb : l.bad with
    | false => rfl
    | true => rw [answer, step_bad hb] at hok; cases hok
  have hlog := loggedIn_of (e := e) (hi.step e c)
  have htok := (step_sessions (e := e) hb c).2.2.1
  rw [answer, step_resp hb] at hok
  rw [htok] at hlog
  simp only [c, callBody] at hok hlog ⊢
  split at hok
  · cases hok
  rename_i hc
  rw [if_neg hc] at hlog
  cases hg : getSession l h with
  | none => rw [hg] at hok; cases hok
  | some s =>
    rw [hg] at hok hlog
    simp only [sessCall, login] at hok hlog
    split at hok
    · cases hok
    rename_i p
    split at hok
    · cases hok
    rename_i hlen
    simp only [hlen, if_false] at hlog
    cases u with
    | so =>
      refine .inl ⟨rfl, ?_⟩
      simp only [soLogin] at hok hlog
      split at hok
      · cases hok
      rename_i h1
      rw [if_neg h1] at hlog
      split at hok
      · cases hok
      rename_i a h2
      rw [h2] at hlog
      dsimp only at hok hlog
      split at hok
      · cases hok
      rename_i h3
      rw [if_neg h3] at hlog
      split at hok
      · cases hok
      · cases hok
      · rename_i h4; rw [h4] at hlog; exact hlog
    | user =>
      refine .inr ⟨rfl, ?_⟩
      simp only [userLogin] at hok hlog
      split at hok
      · cases hok
      rename_i h1
      rw [if_neg h1] at hlog
      split at hok
      · cases hok
      rename_i a h2
      rw [h2] at hlog
      dsimp only at hok hlog
      split at hok
      · cases hok
      · cases hok
      rename_i h3
      rw [h3] at hlog
      dsimp only at hok hlog
      split at hok
      · rename_i h4; rw [h4] at hlog; exact hlog
      · cases hok
      · cases hok
    | contextSpecific => cases hok
    | other => cases hok

/-- C13: a logout through any session logs all of them out. -/
theorem c13_logout (e : Env) {l₀ : Lib} (h₀ : Start l₀) (cs : List Call) (h : Nat) :
    let l := run e l₀ cs
    (answer e l (.sess h .logout)).rv = .ok → LoggedIn e (step e l (.sess h .logout)).1 .pub := by
  intro l hok
  have hi : SInv l := h₀.sinv.run e cs
  have hb : l.bad = false := by
    cases hb : l.bad with
    | false => rfl
    | true => rw [answer, step_bad hb] at hok; cases hok
  have hlog := loggedIn_of (e := e) (hi.step e (.sess h .logout))
  rw [(step_sessions (e := e) hb _).2.2.1] at hlog
  rw [answer, step_resp hb] at hok
  simp only [callBody] at hok hlog
  split at hok
  · cases hok
  rename_i hc
  rw [if_neg hc] at hlog
  cases hg : getSession l h with
  | none => rw [hg] at hok; cases hok
  | some s => rw [hg] at hlog; exact hlog

/-- A call that may change who is logged in: login, logout, closing a session,
`C_InitToken`, `C_Initialize` and `C_Finalize`. -/
def Call.mayChangeLogin : Call → Bool
  | .cInit | .cFinal | .slot _ (.initToken ..) => true
  | .sess _ (.login ..) | .sess _ .logout | .sess _ .close => true
  | _ => false

/-- C13: no other call changes it. -/
theorem c13_kept (e : Env) {l₀ : Lib} (h₀ : Start l₀) (cs : List Call) (c : Call)
    (hc : c.mayChangeLogin = false) (L : Login) (hL : LoggedIn e (run e l₀ cs) L)
    (hsome : ∃ h, IsOpen e (run e l₀ cs) h) : LoggedIn e (step e (run e l₀ cs) c).1 L := by
  have hi : SInv (run e l₀ cs) := h₀.sinv.run e cs
  generalize run e l₀ cs = l at *
  obtain ⟨h, ho⟩ := hsome
  obtain ⟨hb, s, hs⟩ := (isOpen_iff hi).mp ho
  have hLl : L = l.token.login := by
    have hoa : OpenAs e l h (s.use == .rw) := (openAs_iff hi).mpr ⟨hb, s, hs, rfl⟩
    have h1 := hL h _ hoa
    have h2 := loggedIn_of (e := e) hi h _ hoa
    rw [h1] at h2
    simp only [Resp.mk.injEq, Option.some.injEq, Prod.mk.injEq] at h2
    have h3 : expectedState L (s.use == .rw) = expectedState l.token.login (s.use == .rw) := by
      simpa using h2
    revert h3
    cases (s.use == Use.rw) <;> cases L <;> cases l.token.login <;> simp [expectedState]
  have hkeep : (step e l c).1.token.login = l.token.login := by
    rw [(step_sessions hb c).2.2.1]
    cases c with
    | cInit => cases hc
    | cFinal => cases hc
    | slot id sc =>
      simp only [callBody]
      split; · rfl
      split; · rfl
      cases sc with
      | initToken => cases hc
      | tokenInfo => simp only [slotCall]; split <;> rfl
      | closeAll => rfl
      | openSession =>
        simp only [slotCall, openSession]
        repeat' split
        all_goals rfl
    | sess k sc =>
      simp only [callBody]
      split; · rfl
      split; · rfl
      rename_i t _
      cases sc
      case close => cases hc
      case login => cases hc
      case logout => cases hc
      case initPin p =>
        simp only [sessCall, initPin]
        repeat' split
        all_goals rfl
      case setPin o n =>
        simp only [sessCall, setPin]
        repeat' split
        all_goals rfl
      all_goals exact (tframe_sessCall e l t _ rfl).login
  rw [hLl, ← hkeep]
  exact loggedIn_of (hi.step e c)

/-- Non-vacuity: a read-only and a read/write session of a logged-in user. -/
example : let l := run Demo.env Demo.fresh (Demo.setup ++ [openCall false])
    sessionInfo Demo.env l 65538 = { rv := .ok, state := some (.rwUser, true) } ∧
    sessionInfo Demo.env l 65537 = { rv := .ok, state := some (.roUser, false) } := by decide

/-! ## C54 -/

/-- A call on one session leaves every other session as it is. -/
theorem other_session {e : Env} {l : Lib} (hi : SInv l) (h k : Nat) (hk : k ≠ h) (c : SessCall) :
    getSession (step e l (.sess h c)).1 k = getSession l k := by
  cases hb : l.bad with
  | true => rw [step_bad hb]
  | false =>
    rw [getSession_congr (step_sessions hb _).1]
    simp only [callBody]
    split; · rfl
    rename_i hc
    cases hg : getSession l h with
    | none => rfl
    | some s =>
      have hsh := (getSession_handle hg).1
      by_cases hcl : c = .close
      · subst hcl
        have ho : IsOpen e l h := (isOpen_iff hi).mpr ⟨hb, s, hg⟩
        have := (close_spec hi ho).2.2.2.1 k hk
        rw [getSession_congr (step_sessions hb _).1] at this
        simpa only [callBody, closeCall, hc, if_false, hg] using this
      · exact (frame_sessCall e l s c hcl).getSession_ne (by rw [hsh]; exact hk)

/-- C54: a call on one session changes nothing of any other open session: its mode,
session objects, search state and results, key in use, operation in progress and its
buffered data. -/
theorem c54_other_sessions (e : Env) {l₀ : Lib} (h₀ : Start l₀) (cs : List Call) (h k : Nat)
    (hk : k ≠ h) (c : SessCall) :
    getSession (step e (run e l₀ cs) (.sess h c)).1 k = getSession (run e l₀ cs) k :=
  other_session (h₀.sinv.run e cs) h k hk c

/-- Non-vacuity: a call on one session while another has an active search. -/
example : let l := run Demo.env Demo.fresh (Demo.setup ++ [openCall false, .sess 65537 (.findInit (some []))])
    (getSession l 65537).map (·.find.active) = some true ∧
    (answer Demo.env l (.sess 65538 (.findInit (some [])))).rv = .ok := by decide

end Verif
