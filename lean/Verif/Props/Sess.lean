import Verif.Proofs.Run
import Verif.Proofs.DemoEnv

/-!
# C01–C08, C13, C54: initialisation, sessions and the login state
-/

namespace Verif

/-! ## C01, C02 -/

theorem callBody_count (e : Env) (l : Lib) (c : Call) :
    (callBody e l c).1.count =
      match c with
      | .cInit => l.count + 1
      | .cFinal => l.count - 1
      | _ => l.count := by
  cases c with
  | cInit => simp only [callBody, cInitialize]; split <;> rfl
  | cFinal => simp only [callBody, cFinalize]; split <;> rfl
  | slot id c =>
    simp only [callBody]
    split; · rfl
    split; · rfl
    cases c with
    | tokenInfo => simp only [slotCall]; split <;> rfl
    | initToken p lab => exact (initToken_sessions e l p lab).2.1
    | openSession =>
      simp only [slotCall, openSession]
      repeat' split
      all_goals rfl
    | closeAll => rfl
  | sess h c =>
    simp only [callBody]
    split; · rfl
    split; · rfl
    rename_i s _
    by_cases hc : c = .close
    · subst hc; exact (closeSession_sessions e l s.handle).2
    · exact (frame_sessCall e l s c hc).count

theorem run_count {e : Env} {l : Lib} {cs : List Call} (hb : (run e l cs).bad = false) :
    (run e l cs).count = l.count + inits cs - finals cs := by
  induction cs generalizing l with
  | nil => simp [run, inits, finals]
  | cons c cs ih =>
    have hg := run_good (cs := cs) hb
    obtain ⟨h1, _, h3⟩ := step_good hg
    rw [run, ih hb, h3, callBody_count]
    cases c <;> simp [inits, finals] <;> omega

theorem initialised_iff {e : Env} {l : Lib} (hb : l.bad = false) : Initialised e l ↔ 0 < l.count := by
  unfold Initialised answer
  rw [step_resp hb]
  simp only [callBody]
  by_cases h : l.count ≤ 0
  · simp [h]
  · simp [h, slotCall]; omega

/-- C01: the library is initialised exactly when `C_Initialize` was called more often
than `C_Finalize`. -/
theorem c01_initialised_iff (e : Env) {l : Lib} (h : Start l) (cs : List Call)
    (hb : (run e l cs).bad = false) : Initialised e (run e l cs) ↔ finals cs < inits cs := by
  rw [initialised_iff hb, run_count hb, h.count]
  omega

/-- C01: while it is not, every other call is refused and changes nothing. -/
theorem c01_refused (e : Env) {l : Lib} (h : Start l) (cs : List Call)
    (hb : (run e l cs).bad = false) (hn : finals cs ≥ inits cs) (c : Call) (h1 : c ≠ .cInit)
    (h2 : c ≠ .cFinal) : step e (run e l cs) c = (run e l cs, { rv := .cryptokiNotInitialized }) := by
  have hc : (run e l cs).count ≤ 0 := by rw [run_count hb, h.count]; omega
  have hbd : callBody e (run e l cs) c = (run e l cs, { rv := .cryptokiNotInitialized }) := by
    cases c with
    | cInit => exact absurd rfl h1
    | cFinal => exact absurd rfl h2
    | slot id c => simp [callBody, hc]
    | sess k c => simp [callBody, hc]
  rw [step_eq hb (by rw [hbd]; simp), hbd]

example : Initialised Demo.env (run Demo.env Demo.fresh [.cInit, .cInit, .cFinal]) := by
  unfold Initialised; decide

example : (run Demo.env Demo.fresh [.cInit, openCall true, .cFinal]).bad = false := by decide

/-- C02 for histories in which `C_Finalize` was not called too often. -/
theorem c02_partial (e : Env) {l : Lib} (h : Start l) (cs : List Call)
    (hb : (run e l cs).bad = false) (hn : finals cs ≤ inits cs) :
    (answer e (run e l cs) .cInit).rv = .ok ∧ Initialised e (step e (run e l cs) .cInit).1 := by
  have hs : step e (run e l cs) .cInit = callBody e (run e l cs) .cInit :=
    step_eq hb (by simp [callBody, cInitialize])
  have hb' : (callBody e (run e l cs) .cInit).1.bad = false := by
    simp only [callBody, cInitialize]; split <;> exact hb
  refine ⟨by rw [answer, hs]; rfl, ?_⟩
  rw [hs, initialised_iff hb', callBody_count, run_count hb, h.count]
  simp only; omega

/-- C02 fails in general: after one `C_Finalize` too many, `C_Initialize` returns
`CKR_OK` and the library is not initialised. -/
theorem c02_violated (e : Env) {l : Lib} (h : Start l) :
    (answer e (run e l [.cFinal]) .cInit).rv = .ok ∧
    ¬ Initialised e (step e (run e l [.cFinal]) .cInit).1 := by
  have h1 : run e l [.cFinal] = { l with count := -1 } := by
    simp [run, step, h.bad, callBody, cFinalize, h.count]
  have h2 : step e { l with count := -1 } .cInit = ({ l with count := 0 }, { rv := .ok }) := by
    simp [step, h.bad, callBody, cInitialize]
  rw [h1, answer, h2]
  refine ⟨rfl, ?_⟩
  rw [initialised_iff (show ({ l with count := 0 } : Lib).bad = false from h.bad)]
  show ¬ (0 : Int) < 0
  omega

/-! ## C03, C04 -/

/-- C03: different open sessions have different handles. -/
theorem c03_handles_distinct (e : Env) {l : Lib} (h : Start l) (cs : List Call) :
    (((run e l cs).sessions.filter fun s => s.use != .no).map (·.handle)).Nodup :=
  (h.sinv.run e cs).nodup.sublist (List.filter_sublist.map _)

/-- What `C_OpenSession` does with valid arguments. -/
theorem openSession_spec {e : Env} {l : Lib} (hi : SInv l) (hb : l.bad = false) (hc : 0 < l.count)
    (rw' : Bool) :
    let r := step e l (openCall rw')
    r.1.bad = false ∧
    ((rw' = false ∧ l.token.login = .so ∧ r = (l, { rv := .sessionReadWriteSoExists })) ∨
     (¬ (rw' = false ∧ l.token.login = .so) ∧ l.sessions.length = 70 ∧
       (∀ s ∈ l.sessions, s.use ≠ .no) ∧ r = (l, { rv := .sessionCount })) ∨
     (¬ (rw' = false ∧ l.token.login = .so) ∧
      ¬ (l.sessions.length = 70 ∧ ∀ s ∈ l.sessions, s.use ≠ .no) ∧
       ∃ h, r.2 = { rv := .ok, handle := some h } ∧ getSession l h = none ∧
       (∃ s, getSession r.1 h = some s ∧ (s.use == .rw) = rw' ∧ s.objs = [] ∧ s.curr = none) ∧
       (∀ k, k ≠ h → getSession r.1 k = getSession l k) ∧ r.1.token = l.token ∧ r.1.count = l.count)) := by
  intro r
  have hc' : ¬ l.count ≤ 0 := by omega
  obtain ⟨n, h2, h70, hh⟩ : ∃ n, 2 ≤ n ∧ n ≤ 70 ∧ handles l.sessions = down n := by
    rcases hi.shape with ⟨h1, _⟩ | ⟨_, h2⟩
    · omega
    · exact h2
  have hlen : l.sessions.length = n := by rw [← length_down n, ← hh]; simp
  have hbody : callBody e l (openCall rw') = openSession l rw' := by
    simp [callBody, openCall, hc', slotCall]
  have hnu : (openSession l rw').2.rv ≠ .ub := by
    unfold openSession; dsimp only
    repeat' split
    all_goals simp
  have hr : r = openSession l rw' := by
    show step e l (openCall rw') = _
    rw [step_eq hb (by rw [hbody]; exact hnu), hbody]
  have hi' : SInv r.1 := hi.step e _
  unfold openSession at hr
  dsimp only at hr
  by_cases hso : rw' = false ∧ l.token.login = .so
  · have : (!rw' && l.token.login == .so) = true := by simp [hso.1, hso.2]
    rw [if_pos this] at hr
    rw [hr]
    exact ⟨hb, .inl ⟨hso.1, hso.2, rfl⟩⟩
  · have hns : ¬ (!rw' && l.token.login == .so) = true := by
      simp only [Bool.and_eq_true, Bool.not_eq_true', beq_iff_eq]
      exact hso
    rw [if_neg hns] at hr
    cases hf : l.sessions.find? (fun s => s.use == .no) with
    | some s =>
      rw [hf] at hr
      dsimp only at hr
      have hm := List.mem_of_find?_eq_some hf
      have hu : s.use = .no := by simpa using List.find?_some hf
      have hnn : getSession l s.handle = none := by
        cases hg : getSession l s.handle with
        | none => rfl
        | some t =>
          obtain ⟨hm', he, hu'⟩ := (getSession_iff hi).mp hg
          have := (find_iff hi.nodup).mpr ⟨hm', he⟩
          rw [(find_iff hi.nodup).mpr ⟨hm, rfl⟩] at this
          cases this
          exact absurd hu hu'
      have hidle := hi.idle s hm hu
      refine ⟨by rw [hr]; exact hb, .inr (.inr ⟨hso, ?_, s.handle, by rw [hr], hnn, ?_, ?_, ?_, ?_⟩)⟩
      · rintro ⟨_, ha⟩; exact ha s hm hu
      · refine ⟨{ s with use := if rw' then .rw else .ro }, ?_, ?_, hidle.1, hidle.2⟩
        · rw [getSession_iff hi']
          refine ⟨?_, rfl, ?_⟩
          · rw [hr]
            exact List.mem_map.mpr ⟨s, hm, by simp⟩
          · cases rw' <;> simp
        · cases rw' <;> rfl
      · intro k hk
        rw [hr]
        unfold getSession Lib.upd
        dsimp only
        rw [find_map_ne (g := fun t => { t with use := if rw' then .rw else .ro }) (fun _ => rfl) hk]
      · rw [hr]; rfl
      · rw [hr]; rfl
    | none =>
      rw [hf] at hr
      dsimp only at hr
      have hall : ∀ s ∈ l.sessions, s.use ≠ .no := by
        intro s hs hu
        have := List.find?_eq_none.mp hf s hs
        simp [hu] at this
      cases hss : l.sessions with
      | nil => simp [hss] at hlen; omega
      | cons s ss =>
        rw [hss] at hh hr hlen
        obtain ⟨n, rfl⟩ : ∃ k, n = k + 1 := ⟨n - 1, by omega⟩
        have hh' := hh
        simp only [handles, List.map_cons, down, List.cons.injEq] at hh'
        simp only [List.head?_cons, Option.any_some, hh'.1, sessId_down h70, sessMax, beq_iff_eq] at hr
        by_cases hmax : n + 1 = 70
        · rw [if_pos hmax] at hr
          refine ⟨by rw [hr]; exact hb, .inr (.inl ⟨hso, by rw [hlen, hmax], ?_, hr⟩)⟩
          rw [← hss]; exact hall
        · rw [if_neg hmax] at hr
          simp only [addSession] at hr
          have hnn : getSession l (s.handle + 1) = none := by
            cases hg : getSession l (s.handle + 1) with
            | none => rfl
            | some t =>
              obtain ⟨hm', he, _⟩ := (getSession_iff hi).mp hg
              have : t.handle ∈ down (n + 1) := by
                rw [← hh, ← hss]; exact List.mem_map.mpr ⟨t, hm', rfl⟩
              have := mem_down.mp this
              rw [he, hh'.1] at this
              omega
          refine ⟨by rw [hr]; exact hb,
            .inr (.inr ⟨hso, ?_, s.handle + 1, by rw [hr], hnn, ?_, ?_, ?_, ?_⟩)⟩
          · rintro ⟨h7, _⟩; rw [hlen] at h7; exact hmax h7
          · refine ⟨{ handle := s.handle + 1, use := if rw' then .rw else .ro }, ?_, ?_, rfl, rfl⟩
            · rw [getSession_iff hi']
              refine ⟨?_, rfl, ?_⟩
              · rw [hr]; simp
              · cases rw' <;> simp
            · cases rw' <;> rfl
          · intro k hk
            rw [hr]
            unfold getSession
            rw [hss]
            dsimp only
            have hne : ¬ (s.handle + 1) = k := fun h => hk h.symm
            simp [List.find?_cons, hne]
          · rw [hr]
          · rw [hr]

/-- C03: a handle returned by `C_OpenSession` was not open before, and is open now with
the mode asked for. -/
theorem c03_open (e : Env) {l₀ : Lib} (h₀ : Start l₀) (cs : List Call) (rw' : Bool) (h : Nat) :
    let l := run e l₀ cs
    answer e l (openCall rw') = { rv := .ok, handle := some h } →
    ¬ IsOpen e l h ∧ OpenAs e (step e l (openCall rw')).1 h rw' := by
  intro l ha
  have hi : SInv l := h₀.sinv.run e cs
  have hb : l.bad = false := by
    cases hb : l.bad with
    | false => rfl
    | true => rw [answer, step_bad hb] at ha; cases ha
  have hc : 0 < l.count := by
    by_cases hc : l.count ≤ 0
    · rw [answer, step_resp hb] at ha
      simp [callBody, openCall, hc] at ha
    · omega
  obtain ⟨hb', hs⟩ := openSession_spec (e := e) hi hb hc rw'
  rcases hs with ⟨_, _, hr⟩ | ⟨_, _, _, hr⟩ | ⟨_, _, k, hr, hn, ⟨s, hs, hrw, _⟩, _⟩
  · rw [answer, hr] at ha; cases ha
  · rw [answer, hr] at ha; cases ha
  · rw [answer, hr] at ha
    simp only [Resp.mk.injEq, Option.some.injEq] at ha
    obtain rfl : k = h := by simpa using ha
    refine ⟨?_, (openAs_iff (hi.step e _)).mpr ⟨hb', s, hs, hrw⟩⟩
    rw [isOpen_iff hi]
    rintro ⟨_, t, ht⟩
    rw [hn] at ht; cases ht

/-- A call other than closing the session leaves it open with its mode. -/
theorem openAs_step {e : Env} {l : Lib} (hi : SInv l) {h : Nat} {rw' : Bool} (ho : OpenAs e l h rw')
    {c : Call} (h1 : c ≠ closeCall h) (h2 : c ≠ closeAllCall) (h3 : c ≠ .cFinal)
    (hb : (step e l c).1.bad = false) : OpenAs e (step e l c).1 h rw' := by
  obtain ⟨hb0, s, hs, hrw⟩ := (openAs_iff hi).mp ho
  refine (openAs_iff (hi.step e c)).mpr ⟨hb, ?_⟩
  obtain ⟨_, _, he⟩ := step_good hb
  have hc := count_pos_of_open hi hs
  have hc' : ¬ l.count ≤ 0 := by omega
  cases c with
  | cFinal => exact absurd rfl h3
  | cInit =>
    rw [he]
    have : ¬ l.count = 0 := by omega
    simp only [callBody, cInitialize, this, if_false]
    exact ⟨s, hs, hrw⟩
  | slot id c =>
    by_cases hid : id ≠ 1
    · rw [he]
      simp only [callBody, hc', if_false]
      rw [if_pos hid]
      exact ⟨s, hs, hrw⟩
    · obtain rfl : id = 1 := by simpa using hid
      cases c with
      | tokenInfo p n =>
        rw [he]
        simp only [callBody, hc', if_false, slotCall, ne_eq, not_true_eq_false]
        split <;> exact ⟨s, hs, hrw⟩
      | initToken p lab =>
        rw [he]
        simp only [callBody, hc', if_false, slotCall, ne_eq, not_true_eq_false]
        exact ⟨s, by rw [getSession_congr (initToken_sessions e l p lab).1]; exact hs, hrw⟩
      | closeAll => exact absurd rfl h2
      | openSession rw2 serial ptr =>
        cases serial
        · rw [he]
          simp only [callBody, hc', if_false, slotCall, ne_eq, not_true_eq_false, Bool.not_false, if_true]
          exact ⟨s, hs, hrw⟩
        cases ptr
        · rw [he]
          simp only [callBody, hc', if_false, slotCall, ne_eq, not_true_eq_false, Bool.not_false, if_true,
            Bool.not_true, Bool.false_eq_true]
          exact ⟨s, hs, hrw⟩
        have hsp := (openSession_spec (e := e) hi hb0 hc rw2).2
        unfold openCall at hsp
        rcases hsp with ⟨_, _, hr⟩ | ⟨_, _, _, hr⟩ | ⟨_, _, k, _, hn, _, hk, _⟩
        · rw [hr]; exact ⟨s, hs, hrw⟩
        · rw [hr]; exact ⟨s, hs, hrw⟩
        · refine ⟨s, ?_, hrw⟩
          rw [hk h ?_]
          · exact hs
          · rintro rfl; rw [hn] at hs; cases hs
  | sess k c =>
    rw [he]
    simp only [callBody, hc', if_false]
    cases hk : getSession l k with
    | none => exact ⟨s, hs, hrw⟩
    | some t =>
      have htk := (getSession_handle hk).1
      by_cases hcl : c = .close
      · subst hcl
        have hne : h ≠ k := by rintro rfl; exact h1 rfl
        simp only [sessCall]
        obtain ⟨n, hn2, h70, hh⟩ : ∃ n, 2 ≤ n ∧ n ≤ 70 ∧ handles l.sessions = down n := by
          rcases hi.shape with ⟨h1, _⟩ | ⟨_, h2⟩
          · omega
          · exact h2
        obtain ⟨_, c2, _, _⟩ := closeOne_spec hn2 h70 hh t.handle
        obtain ⟨hm, hsh, hsu⟩ := (getSession_iff hi).mp hs
        have hi' : SInv (closeSession e l t.handle).1 := by
          have := hi.callBody e (.sess k .close)
          simpa only [callBody, hc', if_false, hk, sessCall] using this
        refine ⟨s, (getSession_iff hi').mpr ⟨?_, hsh, hsu⟩, hrw⟩
        rw [(closeSession_sessions e l t.handle).1]
        exact c2 s hm (by rw [hsh, htk]; exact hne) hsu
      · have hf := frame_sessCall e l t c hcl
        by_cases hne : h = t.handle
        · obtain ⟨s', hs', hu⟩ := hf.getSession_eq (hne ▸ hs)
          exact ⟨s', hne ▸ hs', by rw [hu]; exact hrw⟩
        · exact ⟨s, by rw [hf.getSession_ne hne]; exact hs, hrw⟩

/-- C03: an open session stays open with its mode until it is closed: by
`C_CloseSession` with its handle, `C_CloseAllSessions` or `C_Finalize`. -/
theorem c03_stays_open (e : Env) {l₀ : Lib} (h₀ : Start l₀) (cs : List Call) (h : Nat) (rw' : Bool)
    (ho : OpenAs e (run e l₀ cs) h rw') (ds : List Call)
    (hd : ∀ c ∈ ds, c ≠ closeCall h ∧ c ≠ closeAllCall ∧ c ≠ .cFinal)
    (hb : (run e (run e l₀ cs) ds).bad = false) : OpenAs e (run e (run e l₀ cs) ds) h rw' := by
  have hi : SInv (run e l₀ cs) := h₀.sinv.run e cs
  generalize run e l₀ cs = l at *
  induction ds generalizing l with
  | nil => exact ho
  | cons c ds ih =>
    have hg := run_good (cs := ds) hb
    obtain ⟨h1, h2, h3⟩ := hd c (by simp)
    exact ih (fun d hd' => hd d (by simp [hd'])) _ (openAs_step hi ho h1 h2 h3 hg) hb (hi.step e c)

/-- Non-vacuity: two sessions, opened and used. -/
example : OpenAs Demo.env (run Demo.env Demo.fresh [.cInit, openCall true, openCall false]) 65537 false ∧
    (run Demo.env Demo.fresh [.cInit, openCall true, openCall false, .sess 65538 .close]).bad = false :=
  ⟨⟨.roPublic, by decide⟩, by decide⟩

/-- Open sessions are those in use. -/
theorem open_count {e : Env} {l : Lib} (hi : SInv l) (hs : List Nat) (hn : hs.Nodup)
    (ho : ∀ h ∈ hs, IsOpen e l h) : hs.length ≤ (l.sessions.filter fun s => s.use != .no).length := by
  have hsub : ∀ h ∈ hs, h ∈ (l.sessions.filter fun s => s.use != .no).map (·.handle) := by
    intro h hh
    obtain ⟨_, s, hs⟩ := (isOpen_iff hi).mp (ho h hh)
    obtain ⟨hm, he, hu⟩ := (getSession_iff hi).mp hs
    exact List.mem_map.mpr ⟨s, List.mem_filter.mpr ⟨hm, by simp [hu]⟩, he⟩
  have := hn.length_le_of_subset hsub
  simpa using this

/-- C04: never more than 70 sessions are open. -/
theorem c04_at_most_70 (e : Env) {l : Lib} (h : Start l) (cs : List Call) (hs : List Nat)
    (hn : hs.Nodup) (ho : ∀ h ∈ hs, IsOpen e (run e l cs) h) : hs.length ≤ 70 := by
  have hi := h.sinv.run e cs
  refine Nat.le_trans (open_count hi hs hn ho) (Nat.le_trans (List.length_filter_le ..) ?_)
  rcases hi.shape with ⟨_, h⟩ | ⟨_, n, _, h70, hh⟩
  · simp [h]
  · rw [show (run e l cs).sessions.length = n by rw [← length_down n, ← hh]; simp]
    exact h70

/-- C04: `C_OpenSession` says `CKR_SESSION_COUNT` exactly when 70 sessions are open (and
the session would otherwise be allowed: see C08). -/
theorem c04_refused_iff (e : Env) {l₀ : Lib} (h₀ : Start l₀) (cs : List Call) (rw' : Bool) :
    let l := run e l₀ cs
    Initialised e l → (answer e l (openCall rw')).rv ≠ .sessionReadWriteSoExists →
    ((answer e l (openCall rw')).rv = .sessionCount ↔
      ∃ hs : List Nat, hs.Nodup ∧ hs.length = 70 ∧ ∀ h ∈ hs, IsOpen e l h) := by
  intro l hin hso
  have hi : SInv l := h₀.sinv.run e cs
  have hb : l.bad = false := by
    cases hb : l.bad with
    | false => rfl
    | true => unfold Initialised answer at hin; rw [step_bad hb] at hin; cases hin
  have hc := (initialised_iff hb).mp hin
  obtain ⟨_, hs⟩ := openSession_spec (e := e) hi hb hc rw'
  unfold answer at hso ⊢
  rcases hs with ⟨_, _, hr⟩ | ⟨_, h70, hall, hr⟩ | ⟨_, hnot, k, hr, _⟩
  · rw [hr] at hso; exact absurd rfl hso
  · rw [hr]
    refine ⟨fun _ => ⟨handles l.sessions, hi.nodup, by simpa using h70, ?_⟩, fun _ => rfl⟩
    intro h hh
    obtain ⟨s, hm, rfl⟩ := List.mem_map.mp hh
    exact (isOpen_iff hi).mpr ⟨hb, s, (getSession_iff hi).mpr ⟨hm, rfl, hall s hm⟩⟩
  · rw [hr]
    refine ⟨fun h => (by cases h), ?_⟩
    rintro ⟨hs, hn, hl, ho⟩
    exfalso
    have h1 := open_count hi hs hn ho
    have h2 : l.sessions.length ≤ 70 := by
      rcases hi.shape with ⟨_, h⟩ | ⟨_, n, _, h70, hh⟩
      · simp [h]
      · rw [show l.sessions.length = n by rw [← length_down n, ← hh]; simp]
        exact h70
    have h3 := List.length_filter_le (fun s : Session => s.use != .no) l.sessions
    refine hnot ⟨by omega, ?_⟩
    intro s hm hu
    have h4 : (l.sessions.filter fun s => s.use != .no).length = l.sessions.length := by omega
    have := List.length_filter_eq_length_iff.mp h4 s hm
    simp [hu] at this

set_option maxRecDepth 20000 in
/-- Non-vacuity: after 70 successful openings the next is refused. -/
example : ((Demo.rvs Demo.env Demo.fresh (.cInit :: List.replicate 71 (openCall true))).getLast?) =
    some .sessionCount := by decide

end Verif
