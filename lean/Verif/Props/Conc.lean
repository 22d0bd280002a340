import Verif.Proofs.Conc
import Verif.Props.Lockout
import Verif.Props.SessClose

/-!
# Logins of several threads (C09, C12)
-/

namespace Verif

/-! ## A login made without interruption is the call -/

theorem at_pc (s : Conc) (t : Nat) (p : Pc) : (s.at t p).pc t = p := by simp [Conc.at]

theorem at_lib (s : Conc) (t : Nat) (p : Pc) : (s.at t p).lib = s.lib := rfl

theorem at_at (s : Conc) (t : Nat) (p q : Pc) : (s.at t p).at t q = s.at t q := by
  simp only [Conc.at, Conc.mk.injEq, true_and]
  funext u
  by_cases h : u = t <;> simp [h]

theorem at_self {s : Conc} {t : Nat} {p : Pc} (h : s.pc t = p) : s.at t p = s := by
  simp only [Conc.at]
  cases s with
  | mk l pc =>
    simp only [Conc.mk.injEq, true_and]
    funext u
    by_cases hu : u = t
    · rw [if_pos hu, hu]; exact h.symm
    · rw [if_neg hu]

/-- The parts of a login done one after the other: at most `n` of them. -/
def finishLogin (e : Env) : Nat → Lib → Pc → Lib × Pc × Option RV
  | 0, l, p => (l, p, none)
  | n + 1, l, p =>
    let r := advance e l p
    match r.2.2 with
    | some rv => (r.1, r.2.1, some rv)
    | none => finishLogin e n r.1 r.2.1

theorem advance_returns {e : Env} {l : Lib} {p : Pc} {rv : RV} (h : (advance e l p).2.2 = some rv) :
    (advance e l p).2.1 = .idle := by
  revert h
  cases p with
  | idle => intro h; rfl
  | called w pin now =>
    simp only [advance, admit]
    repeat' split
    all_goals (intro h; first | rfl | cases h)
  | admitted w pin now => simp only [advance]; split <;> intro h <;> first | rfl | cases h
  | hashing w pin now => intro h; cases h
  | comparing w pin now x => intro h; cases h
  | checked w pin now ok => cases w <;> cases ok <;> intro h <;> first | rfl | cases h
  | keyed now =>
    simp only [advance, unlockObjs]
    split <;> intro h <;> first | rfl | cases h
  | entering w => intro h; rfl

theorem advance_bad {e : Env} {l : Lib} {p : Pc} (hb : l.bad = false) (h : (advance e l p).2.2 = none) :
    (advance e l p).1.bad = false := by
  revert h
  cases p with
  | idle => intro _; exact hb
  | called w pin now =>
    simp only [advance, admit]
    repeat' split
    all_goals (intro _; cases w <;> exact hb)
  | admitted w pin now => simp only [advance]; split <;> intro _ <;> exact hb
  | hashing w pin now => intro _; exact hb
  | comparing w pin now x => intro _; exact hb
  | checked w pin now ok => cases w <;> cases ok <;> intro _ <;> exact hb
  | keyed now =>
    simp only [advance, unlockObjs]
    split <;> intro h
    · exact hb
    · cases h
    · cases h
  | entering w => intro h; cases h

theorem idle_go {e : Env} {s : Conc} {t : Nat} (h : s.pc t = .idle) : s.step e (.go t) = (s, none) := by
  simp only [Conc.step, h, advance]
  split
  · rfl
  · rw [show ({ s with lib := s.lib } : Conc) = s from rfl, at_self h]

theorem idle_goes {e : Env} {s : Conc} {t : Nat} (h : s.pc t = .idle) (n : Nat) :
    s.run e (List.replicate n (.go t)) = s ∧ s.returns e (List.replicate n (.go t)) = [] := by
  induction n with
  | zero => exact ⟨rfl, rfl⟩
  | succ n ih =>
    simp only [List.replicate_succ, Conc.run, Conc.returns, idle_go h]
    exact ⟨ih.1, by rw [ih.2]; rfl⟩

theorem goes {e : Env} {s : Conc} {t : Nat} (n : Nat) (hb : s.lib.bad = false) :
    let r := finishLogin e n s.lib (s.pc t)
    s.run e (List.replicate n (.go t)) = { s with lib := r.1 }.at t r.2.1 ∧
    s.returns e (List.replicate n (.go t)) = r.2.2.toList := by
  induction n generalizing s with
  | zero => exact ⟨(at_self rfl).symm, rfl⟩
  | succ n ih =>
    simp only [List.replicate_succ, Conc.run, Conc.returns, finishLogin]
    have hs : s.step e (.go t) = ({ s with lib := (advance e s.lib (s.pc t)).1 }.at t
        (advance e s.lib (s.pc t)).2.1, (advance e s.lib (s.pc t)).2.2) := by
      simp only [Conc.step, hb]; rfl
    rw [hs]
    cases hr : (advance e s.lib (s.pc t)).2.2 with
    | some rv =>
      have hp := advance_returns hr
      dsimp only
      obtain ⟨h1, h2⟩ := idle_goes (e := e) (s := Conc.at { s with lib := (advance e s.lib (s.pc t)).1 } t
        (advance e s.lib (s.pc t)).2.1) (t := t) (by rw [at_pc]; exact hp) n
      rw [h1, h2]
      exact ⟨rfl, rfl⟩
    | none =>
      dsimp only
      obtain ⟨h1, h2⟩ := ih (s := Conc.at { s with lib := (advance e s.lib (s.pc t)).1 } t
        (advance e s.lib (s.pc t)).2.1) (advance_bad hb hr)
      rw [h1, h2, at_pc]
      refine ⟨?_, rfl⟩
      exact at_at { s with lib := _ } t _ _

theorem finish_some {e : Env} {l l' : Lib} {p q : Pc} {rv : RV} (n : Nat)
    (h : advance e l p = (l', q, some rv)) : finishLogin e (n + 1) l p = (l', q, some rv) := by
  simp only [finishLogin, h]

theorem finish_none {e : Env} {l l' : Lib} {p q : Pc} (n : Nat) (h : advance e l p = (l', q, none)) :
    finishLogin e (n + 1) l p = finishLogin e n l' q := by
  simp only [finishLogin, h]

theorem finish_so (e : Env) (l : Lib) (pin : Bytes) (now : Int) :
    finishLogin e 7 l (.called .so pin now) =
      ((soLogin e l pin now).1, .idle, some (soLogin e l pin now).2) := by
  unfold soLogin
  by_cases h0 : l.token.login ≠ .pub
  · rw [finish_some 6 (by simp only [advance, admit, if_pos h0]; rfl), if_pos h0]
  rw [if_neg h0]
  cases hl : lockCheck l.token.so now with
  | none => rw [finish_some 6 (by simp only [advance, admit, if_neg h0, Who.acct, hl]; rfl)]
  | some a =>
    dsimp only
    by_cases hr : (l.sessions.any fun s => s.use == .ro) = true
    · rw [if_pos hr, finish_some 6 (by simp only [advance, admit, if_neg h0, Who.acct, hl, hr]; rfl)]
      rfl
    rw [if_neg hr]
    rw [finish_none 6 (by
      simp only [advance, admit, if_neg h0, Who.acct, hl, hr, true_and, if_false, Bool.false_eq_true]; rfl)]
    unfold checkPin
    dsimp only
    by_cases h1 : l.token.init = false ∨ a.pin = []
    · rw [if_pos h1, finish_some 5 (by simp only [advance, setAcct, Who.acct]; exact if_pos h1)]
    rw [if_neg h1]
    rw [finish_none 5 (by simp only [advance, setAcct, Who.acct]; exact if_neg h1),
      finish_none 4 (by simp only [advance]; rfl)]
    by_cases h2 : (e.store.hash pin a.seed).take a.pin.length = a.pin
    · rw [if_pos h2]
      rw [finish_none 3 (by simp only [advance, setAcct, Who.acct, h2, decide_true]; rfl),
        finish_none 2 (by simp only [advance]; rfl), finish_some 1 (by simp only [advance]; rfl)]
      rfl
    · rw [if_neg h2]
      rw [finish_none 3 (by simp only [advance, setAcct, Who.acct, h2, decide_false]; rfl),
        finish_some 2 (by simp only [advance]; rfl)]
      rfl

theorem finish_user (e : Env) (l : Lib) (pin : Bytes) (now : Int) :
    finishLogin e 7 l (.called .user pin now) =
      (if (userLogin e l pin now).2 = .ub then { (userLogin e l pin now).1 with bad := true }
        else (userLogin e l pin now).1, .idle, some (userLogin e l pin now).2) := by
  unfold userLogin
  by_cases h0 : l.token.login ≠ .pub
  · rw [finish_some 6 (by simp only [advance, admit, if_pos h0]; rfl)]
    simp only [if_pos h0]; rfl
  simp only [if_neg h0]
  cases hl : lockCheck l.token.user now with
  | none => rw [finish_some 6 (by simp only [advance, admit, if_neg h0, Who.acct, hl]; rfl)]; rfl
  | some a =>
    dsimp only
    rw [finish_none 6 (by
      simp only [advance, admit, if_neg h0, Who.acct, hl, reduceCtorEq, false_and, if_false]; rfl)]
    unfold checkPin
    by_cases h1 : l.token.init = false ∨ a.pin = []
    · simp only [if_pos h1]; rw [finish_some 5 (by simp only [advance, setAcct, Who.acct]; exact if_pos h1)]
      rfl
    simp only [if_neg h1]
    rw [finish_none 5 (by simp only [advance, setAcct, Who.acct]; exact if_neg h1),
      finish_none 4 (by simp only [advance]; rfl)]
    by_cases h2 : (e.store.hash pin a.seed).take a.pin.length = a.pin
    · simp only [if_pos h2]
      rw [finish_none 3 (by simp only [advance, setAcct, Who.acct, h2, decide_true]; rfl),
        finish_none 2 (by simp only [advance]; rfl)]
      cases hr : (decodeAll e.store (e.store.hash pin l.token.seed) l.token.objs).1
      · rw [finish_none 1 (by simp only [advance, unlockObjs, setAcct, hr]; rfl),
          finish_some 0 (by simp only [advance]; rfl)]
        simp only [Who.login]; rfl
      · rw [finish_some 1 (by simp only [advance, unlockObjs, setAcct, hr]; rfl)]; rfl
      · rw [finish_some 1 (by simp only [advance, unlockObjs, setAcct, hr]; rfl)]; rfl
      · rw [finish_some 1 (by simp only [advance, unlockObjs, setAcct, hr]; rfl)]; rfl
    · simp only [if_neg h2]
      rw [finish_none 3 (by simp only [advance, setAcct, Who.acct, h2, decide_false]; rfl),
        finish_some 2 (by simp only [advance]; rfl)]
      rfl

/-- All the parts of a login of thread `t`, one after the other. -/
def wholeLogin (t h : Nat) (w : Who) (pin : Bytes) (now : Int) : List Ev :=
  .login t h w pin now :: List.replicate 7 (.go t)

/-- A login no other thread interrupts is the call of the sequential model: the same
library afterwards, the same status returned once, the thread outside `C_Login` again. -/
theorem login_alone (e : Env) (s : Conc) (t h : Nat) (w : Who) (pin : Bytes) (now : Int)
    (hb : s.lib.bad = false) (ht : s.pc t = .idle) :
    s.run e (wholeLogin t h w pin now) = { s with lib := (step e s.lib (loginCall h w pin now)).1 } ∧
    s.returns e (wholeLogin t h w pin now) = [(step e s.lib (loginCall h w pin now)).2.rv] := by
  simp only [wholeLogin, Conc.run, Conc.returns]
  have hs : s.step e (.login t h w pin now) =
      (s.at t (beginLogin s.lib h w pin now).1, (beginLogin s.lib h w pin now).2) := by
    simp only [Conc.step, hb, ht]; rfl
  rw [hs]
  have key : ∀ r, callBody e s.lib (loginCall h w pin now) = r →
      step e s.lib (loginCall h w pin now) = if r.2.rv = .ub then ({ r.1 with bad := true }, r.2) else r := by
    rintro r rfl
    unfold step
    simp only [hb, Bool.false_eq_true, if_false]
  have put : ∀ (l' : Lib) (p : Pc), (Conc.mk l' (s.at t p).pc).at t .idle = { s with lib := l' } := by
    intro l' p
    rw [show (Conc.mk l' (s.at t p).pc).at t .idle = (Conc.at (Conc.at { s with lib := l' } t p) t .idle)
      from rfl, at_at]
    exact at_self ht
  unfold beginLogin
  by_cases h1 : s.lib.count ≤ 0
  · rw [key _ (by simp only [loginCall, callBody, if_pos h1]; rfl)]
    simp only [if_pos h1]
    rw [at_self ht, (idle_goes ht 7).1, (idle_goes ht 7).2]
    exact ⟨rfl, rfl⟩
  simp only [if_neg h1]
  cases hg : getSession s.lib h with
  | none =>
    rw [key _ (by simp only [loginCall, callBody, if_neg h1, hg]; rfl)]
    simp only [Option.isNone_none, if_true]
    rw [at_self ht, (idle_goes ht 7).1, (idle_goes ht 7).2]
    exact ⟨rfl, rfl⟩
  | some x =>
    simp only [Option.isNone_some, Bool.false_eq_true, if_false]
    by_cases hp : (!pinLenOk pin) = true
    · rw [key _ (by simp only [loginCall, callBody, if_neg h1, hg, sessCall, login, if_pos hp]; rfl)]
      simp only [if_pos hp]
      rw [at_self ht, (idle_goes ht 7).1, (idle_goes ht 7).2]
      exact ⟨rfl, rfl⟩
    simp only [if_neg hp]
    obtain ⟨h2, h3⟩ := goes (e := e) (s := s.at t (.called w pin now)) (t := t) 7 hb
    rw [h2, h3, at_pc, at_lib]
    cases w with
    | so =>
      rw [key ((soLogin e s.lib pin now).1, { rv := (soLogin e s.lib pin now).2 }) (by
        simp only [loginCall, callBody, if_neg h1, hg, sessCall, login, if_neg hp, Who.type])]
      have hu : (soLogin e s.lib pin now).2 ≠ .ub := by
        unfold soLogin; dsimp only; repeat' split
        all_goals simp
      rw [finish_so, if_neg hu]
      exact ⟨put _ _, rfl⟩
    | user =>
      rw [key ((userLogin e s.lib pin now).1, { rv := (userLogin e s.lib pin now).2 }) (by
        simp only [loginCall, callBody, if_neg h1, hg, sessCall, login, if_neg hp, Who.type])]
      rw [finish_user]
      by_cases hu : (userLogin e s.lib pin now).2 = .ub
      · rw [if_pos hu, if_pos hu]; exact ⟨put _ _, rfl⟩
      · rw [if_neg hu, if_neg hu]; exact ⟨put _ _, rfl⟩

/-! ## C09 -/

/-- The thread is past the check for read-only sessions. -/
def Pc.Past (p : Pc) : Prop := p.who = some .so ∧ ∀ pin now, p ≠ .called .so pin now

theorem advance_past {e : Env} {l : Lib} {p : Pc} (h : (advance e l p).2.1.Past) : p.Past ∨ NoRo l := by
  cases p with
  | idle => exact absurd h.1 (by simp [advance, Pc.who])
  | called w pin now =>
    right
    revert h
    simp only [advance, admit]
    repeat' split
    · intro h; cases h.1
    · intro h; cases h.1
    · intro h; cases h.1
    rename_i hro
    intro h
    have hw : w = .so := by have := h.1; simpa [Pc.who] using this
    intro s hs hu
    exact hro ⟨hw, List.any_eq_true.mpr ⟨s, hs, by simp [hu]⟩⟩
  | admitted w pin now =>
    left
    revert h
    simp only [advance]
    split <;> intro h
    · exact absurd h.1 (by simp [Pc.who])
    · exact ⟨h.1, by simp⟩
  | hashing w pin now => exact .inl ⟨h.1, by simp⟩
  | comparing w pin now x => exact .inl ⟨h.1, by simp⟩
  | checked w pin now ok =>
    left
    cases w <;> cases ok <;> first | exact ⟨rfl, by simp⟩ | exact absurd h.1 (by simp [advance, Pc.who])
  | keyed now =>
    revert h
    simp only [advance, unlockObjs]
    split <;> intro h <;> exact absurd h.1 (by simp [Pc.who])
  | entering w => exact absurd h.1 (by simp [advance, Pc.who])

/-- The invariant of schedules that open read-only sessions apart from the logins of the
security officer. -/
structure SoInv (s : Conc) : Prop where
  sinv : SInv s.lib
  past : ∀ t, (s.pc t).Past → NoRo s.lib

theorem SoInv.step {e : Env} {s : Conc} (hs : SoInv s) (v : Ev)
    (ho : ∀ i a b, v = .call (.slot i (.openSession false a b)) → ∀ t, (s.pc t).who ≠ some .so) :
    SoInv (s.step e v).1 := by
  cases v with
  | call c =>
    refine ⟨hs.sinv.step e c, fun t ht => ?_⟩
    exact noRo_step (hs.past t ht) (fun i a b hc => ho i a b (by rw [hc]) t ht.1)
  | login t h w pin now =>
    simp only [Conc.step]
    split; · exact hs
    split
    · refine ⟨hs.sinv, fun u hu => ?_⟩
      by_cases hut : u = t
      · subst hut
        rw [at_pc] at hu
        exfalso
        revert hu
        unfold beginLogin
        repeat' split
        · intro hu; cases hu.1
        · intro hu; cases hu.1
        · intro hu; cases hu.1
        · intro hu
          have : w = .so := by have := hu.1; simpa [Pc.who] using this
          exact hu.2 pin now (by rw [this])
      · simp only [Conc.at, if_neg hut] at hu
        exact hs.past u hu
    · exact hs
  | go t =>
    simp only [Conc.step]
    split; · exact hs
    obtain ⟨h1, h2, h3⟩ := advance_frame e s.lib (s.pc t)
    refine ⟨?_, fun u hu => ?_⟩
    · refine hs.sinv.of_parts (l' := (advance e s.lib (s.pc t)).1) h1 h2 (fun h => ?_)
      rcases h3 with h3 | ⟨w, hw, h3⟩
      · exact hs.sinv.so (h3 ▸ h)
      · refine hs.past t ?_
        rw [hw]
        cases w with
        | so => exact ⟨rfl, by simp⟩
        | user => rw [h3] at h; cases h
    · have key : NoRo s.lib := by
        by_cases hut : u = t
        · subst hut
          rw [at_pc] at hu
          rcases advance_past hu with h | h
          · exact hs.past u h
          · exact h
        · simp only [Conc.at, if_neg hut] at hu
          exact hs.past u hu
      intro x hx
      have hx : x ∈ (advance e s.lib (s.pc t)).1.sessions := hx
      rw [h1] at hx
      exact key x hx

theorem SoInv.run {e : Env} (vs : List Ev) {s : Conc} (hs : SoInv s) (ho : OpensApart e s vs) :
    SoInv (s.run e vs) := by
  induction vs generalizing s with
  | nil => exact hs
  | cons v vs ih => exact ih (hs.step v ho.1) ho.2

/-- C09, for the schedules in which no read-only session is opened while a thread is inside
a login as security officer: when a read-only session is open, no session reports that the
security officer is logged in.  Any number of threads may log in, at the same time, as
either user; all other calls may be made at any moment.

What is missing: schedules that open a read-only session during such a login; there the
claim is false (`c09_violated`). -/
theorem c09_partial (e : Env) {l₀ : Lib} (h₀ : Start l₀) (vs : List Ev) (h : Nat)
    (ho : OpensApart e { lib := l₀ } vs) :
    let l := (Conc.run e { lib := l₀ } vs).lib
    OpenAs e l h false → ∀ k rw', sessionInfo e l k ≠ { rv := .ok, state := some (.rwSo, rw') } := by
  intro l ho' k rw' hk
  have hi : SInv l := (SoInv.run vs (s := { lib := l₀ })
    ⟨h₀.sinv, fun t ht => absurd ht.1 (by simp [Pc.who])⟩ ho).sinv
  obtain ⟨hb, s, hs, hrw⟩ := (openAs_iff hi).mp ho'
  have hc := count_pos_of_open hi hs
  obtain ⟨hm, _, hu⟩ := (getSession_iff hi).mp hs
  have hro : s.use = .ro := by
    cases hsu : s.use with
    | no => exact absurd hsu hu
    | ro => rfl
    | rw => simp [hsu] at hrw
  rw [sessionInfo_eq hb hc] at hk
  cases hg : getSession l k with
  | none => rw [hg] at hk; cases hk
  | some t =>
    rw [hg] at hk
    simp only [Resp.mk.injEq, Option.some.injEq, Prod.mk.injEq, sessState] at hk
    have hlog : l.token.login = .so := by
      cases hl : l.token.login with
      | so => rfl
      | pub => simp only [hl] at hk; split at hk <;> simp at hk
      | user => simp only [hl] at hk; split at hk <;> simp at hk
    exact hi.so hlog s hm hro

namespace Demo

/-- One thread begins a login as security officer; before it ends another opens a session
read-only. -/
def soRace : List Ev :=
  [.call .cInit, .call (.slot 1 (.initToken (some soPin) (some label))), .call (openCall true),
   .login 1 65538 .so soPin 0, .go 1, .call (openCall false), .go 1, .go 1, .go 1, .go 1, .go 1]

/-- Two threads log in at the same time, the read-only session is opened before. -/
def soApart : List Ev :=
  [.call .cInit, .call (.slot 1 (.initToken (some soPin) (some label))), .call (openCall true),
   .call (openCall false), .call (closeCall 65537),
   .login 1 65538 .so soPin 0, .login 2 65538 .so soPin 0, .go 1, .go 2, .go 1, .go 2, .go 2, .go 1, .go 1,
   .go 1, .go 2, .go 1, .go 2, .go 2, .call (openCall false)]

end Demo

set_option maxRecDepth 20000 in
/-- C09 is violated: all calls of the schedule succeed, and then a read-only session is open
and the security officer is logged in. -/
theorem c09_violated :
    ∃ (e : Env) (l₀ : Lib) (_ : Start l₀) (vs : List Ev),
      let l := (Conc.run e { lib := l₀ } vs).lib
      (∀ rv ∈ Conc.returns e { lib := l₀ } vs, rv = .ok) ∧
      OpenAs e l 65537 false ∧ sessionInfo e l 65538 = { rv := .ok, state := some (.rwSo, true) } :=
  ⟨Demo.env, Demo.fresh, Demo.fresh_start, Demo.soRace, by decide, ⟨_, by rfl⟩, by decide⟩

end Verif
