import Verif.Proofs.PinStep
import Verif.Proofs.DemoEnv

/-!
# Locking after wrong PINs (C11, C62)
-/

namespace Verif

theorem wrongGuess_good {e : Env} {l : Lib} (hi : SInv l) {w : Who} {c : Call} (h : WrongGuess e l w c) :
    l.bad = false := by
  obtain ⟨_, _, ⟨_, _, ho, _⟩, _⟩ := h
  exact ((isOpen_iff hi).mp ho).1

theorem count_cases' {e : Env} {l : Lib} (hi : SInv l) {w : Who} {c : Call} (hc : ¬ Clears e l w c) :
    CountCase e l w c (w.acct (step e l c).1.token) := by
  cases hb : l.bad with
  | false => exact count_cases hi hb hc
  | true =>
    rw [step_bad hb]
    refine .same ⟨rfl, rfl, rfl⟩ (fun x => ?_)
    rw [wrongGuess_good hi x] at hb; cases hb

theorem unlocked_fails_lt {w : Who} {a : Account} (h : Sane w a) :
    0 ≤ (unlocked a).fails ∧ (unlocked a).fails < 3 ∧ (unlocked a).timeout = a.timeout ∧
    (unlocked a).last = a.last ∧ (a.fails ≠ 3 → (unlocked a).fails = a.fails) ∧
    (a.fails = 3 → (unlocked a).fails = 0) := by
  have := h.lo; have := h.hi
  unfold unlocked
  split
  · rename_i h3; exact ⟨by simp, by simp, rfl, rfl, fun x => absurd h3 x, fun _ => rfl⟩
  · rename_i h3
    exact ⟨h.lo, by omega, rfl, rfl, fun _ => rfl, fun x => absurd x h3⟩

/-- A counted failure. -/
theorem failed_eq (a : Account) (now add : Int) :
    (failed a now add).fails = a.fails + 1 ∧
    (a.fails = 2 → (failed a now add).last = now ∧ (failed a now add).timeout = a.timeout + add) ∧
    (a.fails ≠ 2 → (failed a now add).last = a.last ∧ (failed a now add).timeout = a.timeout) := by
  unfold failed
  have hm : a.fails + 1 = maxFails ↔ a.fails = 2 := by
    show a.fails + 1 = 3 ↔ _
    omega
  by_cases h : a.fails = 2
  · rw [if_pos (hm.mpr h)]; exact ⟨rfl, fun _ => ⟨rfl, rfl⟩, fun x => absurd h x⟩
  · rw [if_neg (fun x => h (hm.mp x))]; exact ⟨rfl, fun x => absurd x h, fun _ => ⟨rfl, rfl⟩⟩

theorem penalty_pos (w : Who) : 0 < w.penalty := by cases w <;> decide

theorem Sane.same {w : Who} {a b : Account} (h : Sane w a) (hs : SameCount a b) : Sane w b := by
  obtain ⟨h1, h2, h3⟩ := hs
  exact ⟨by rw [h1]; exact h.lo, by rw [h1]; exact h.hi, by rw [h3]; exact h.time,
    by rw [h1, h3]; exact h.locked⟩

theorem Sane.unlocked {w : Who} {a : Account} (h : Sane w a) : Sane w (unlocked a) := by
  have hu := unlocked_fails_lt h
  exact ⟨hu.1, by omega, by rw [hu.2.2.1]; exact h.time, fun x => by omega⟩

theorem Sane.failed {w : Who} {a : Account} (h : Sane w a) (h3 : a.fails < 3) (now : Int) :
    Sane w (failed a now w.penalty) := by
  have hf := failed_eq a now w.penalty
  have hp := penalty_pos w
  have := h.lo; have := h.time
  refine ⟨by omega, by omega, ?_, ?_⟩
  · by_cases h2 : a.fails = 2
    · rw [(hf.2.1 h2).2]; omega
    · rw [(hf.2.2 h2).2]; omega
  · intro hx
    have h2 : a.fails = 2 := by omega
    rw [(hf.2.1 h2).2]; omega

/-- Only counters the library can produce are ever produced. -/
theorem sane_step {e : Env} {l : Lib} (hi : SInv l) {w : Who} {c : Call} (hc : ¬ Clears e l w c)
    (hs : Sane w (w.acct l.token)) : Sane w (w.acct (step e l c).1.token) := by
  cases count_cases' hi hc with
  | same h _ => exact hs.same h
  | expired _ _ _ _ _ h _ => exact hs.unlocked.same h
  | wrong _ _ _ _ _ h _ => exact (hs.unlocked.failed (unlocked_fails_lt hs).2.1 _).same h

/-- C11: while an account is locked every login is refused, whatever the PIN, and nothing
changes. -/
theorem c11_locked_refused (e : Env) {l₀ : Lib} (h₀ : Start l₀) (cs : List Call) (h : Nat) (w : Who)
    (pin : Bytes) (now : Int) :
    let l := run e l₀ cs
    Locked (w.acct l.token) now →
    (answer e l (loginCall h w pin now)).rv ≠ .ok ∧ (step e l (loginCall h w pin now)).1 = l := by
  intro l hlk
  have hi : SInv l := h₀.sinv.run e cs
  cases hb : l.bad with
  | true => rw [answer, step_bad hb]; exact ⟨by simp, rfl⟩
  | false =>
    have key : (callBody e l (loginCall h w pin now)).2.rv ≠ .ok ∧
        (callBody e l (loginCall h w pin now)).2.rv ≠ .ub ∧
        (callBody e l (loginCall h w pin now)).1 = l := by
      by_cases ho : IsOpen e l h
      case neg =>
        simp only [loginCall, callBody]
        split
        · exact ⟨by simp, by simp, rfl⟩
        split
        · exact ⟨by simp, by simp, rfl⟩
        · rename_i s hs
          exact absurd ((isOpen_iff hi).mpr ⟨hb, s, hs⟩) ho
      have hc := login_cases hi hb ho w pin now
      cases hc with
      | badLen _ h => rw [h]; exact ⟨by simp, by simp, rfl⟩
      | already _ h => rw [h]; exact ⟨by simp, by simp, rfl⟩
      | locked _ h => rw [h]; exact ⟨by simp, by simp, rfl⟩
      | readOnly h => exact absurd hlk h
      | notSet h => exact absurd hlk h
      | wrong _ _ h => exact absurd hlk h
      | right _ _ h => exact absurd hlk h
    rw [answer, step_eq hb key.2.1]
    exact ⟨key.1, key.2.2⟩

/-- C11: a locked account stays locked, with the same unlock time, through any calls made
before that time. -/
theorem c11_stays_locked (e : Env) {l₀ : Lib} (h₀ : Start l₀) (cs ds : List Call) (w : Who) (lo : Int) :
    let l := run e l₀ cs
    let a := w.acct l.token
    a.fails = 3 → NoClear e w l ds → ClockIn lo (a.last + a.timeout) ds →
    SameCount a (w.acct (run e l ds).token) := by
  intro l a h3 hn hclk
  have hi : SInv l := h₀.sinv.run e cs
  revert hi h3 hn hclk
  suffices ∀ (ds : List Call) (l : Lib), SInv l → (w.acct l.token).fails = 3 → NoClear e w l ds →
      ClockIn lo ((w.acct l.token).last + (w.acct l.token).timeout) ds →
      SameCount (w.acct l.token) (w.acct (run e l ds).token) from
    fun h3 hn hclk hi => this ds l hi h3 hn hclk
  intro ds
  induction ds with
  | nil => intro l _ _ _ _; exact ⟨rfl, rfl, rfl⟩
  | cons c ds ih =>
    intro l hi h3 hn hclk
    have hstep : SameCount (w.acct l.token) (w.acct (step e l c).1.token) := by
      have hlk : ∀ h pin now, c = loginCall h w pin now → Locked (w.acct l.token) now := by
        intro h pin now hc
        refine ⟨h3, (hclk h w.type (some pin) now ?_).2⟩
        rw [hc]; exact List.mem_cons_self
      cases count_cases' hi hn.1 with
      | same h _ => exact h
      | expired h pin now hc hl => exact absurd (hlk h pin now hc) hl
      | wrong h pin now hc hl => exact absurd (hlk h pin now hc) hl
    have hrest := ih (step e l c).1 (hi.step e c) (hstep.1.trans h3) hn.2 (by
      intro h u p n hm
      rw [hstep.2.1, hstep.2.2]
      exact hclk h u p n (List.mem_cons_of_mem _ hm))
    exact ⟨hrest.1.trans hstep.1, hrest.2.1.trans hstep.2.1, hrest.2.2.trans hstep.2.2⟩

/-- C11: in any window of 600 seconds (security officer) or 60 seconds (user), at most
three wrong PINs are looked at, whatever calls are made, unless the right PIN is given. -/
theorem c11_at_most_three (e : Env) {l₀ : Lib} (h₀ : Start l₀) (cs ds : List Call) (w : Who) (lo : Int) :
    let l := run e l₀ cs
    Sane w (w.acct l.token) → NoClear e w l ds → ClockIn lo (lo + w.penalty) ds →
    wrongGuesses e w l ds ≤ 3 := by
  intro l hs hn hclk
  have hi : SInv l := h₀.sinv.run e cs
  suffices ∀ (ds : List Call) (l : Lib), SInv l → Sane w (w.acct l.token) → NoClear e w l ds →
      ClockIn lo (lo + w.penalty) ds →
      wrongGuesses e w l ds ≤
        (if (w.acct l.token).fails = 3 then (if lo ≤ (w.acct l.token).last then 0 else 3)
         else (3 - (w.acct l.token).fails).toNat) by
    have := this ds l hi hs hn hclk
    have := hs.lo
    split at *
    · split at * <;> omega
    · omega
  intro ds
  induction ds with
  | nil => intro l _ _ _ _; exact Nat.zero_le _
  | cons c ds ih =>
    intro l hi hs hn hclk
    have hrest := ih (step e l c).1 (hi.step e c) (sane_step hi hn.1 hs) hn.2
      (fun h u p n hm => hclk h u p n (List.mem_cons_of_mem _ hm))
    have hclk1 : ∀ h pin now, c = loginCall h w pin now → lo ≤ now ∧ now ≤ lo + w.penalty := by
      intro h pin now hc
      refine hclk h w.type (some pin) now ?_
      rw [hc]; exact List.mem_cons_self
    have hu := unlocked_fails_lt hs
    have h0 := hs.lo
    have hlk := hs.locked
    unfold wrongGuesses
    cases count_cases' hi hn.1 with
    | same h hw =>
      rw [if_neg hw]
      rw [h.1, h.2.1] at hrest
      omega
    | expired k pin now hc hl h hw =>
      rw [if_neg hw]
      rw [h.1, h.2.1] at hrest
      have hclk := hclk1 k pin now hc
      unfold Locked at hl
      rw [if_neg (by omega)] at hrest
      by_cases h3 : (w.acct l.token).fails = 3
      · rw [if_pos h3]
        rw [if_neg (by intro x; exact hl ⟨h3, by have := hlk h3; omega⟩)]
        have := hu.2.2.2.2.2 h3
        omega
      · rw [if_neg h3]
        have := hu.2.2.2.2.1 h3
        omega
    | wrong k pin now hc hl h hw =>
      rw [if_pos hw]
      have hf := failed_eq (unlocked (w.acct l.token)) now w.penalty
      rw [h.1, h.2.1, hf.1] at hrest
      have hclk := hclk1 k pin now hc
      unfold Locked at hl
      have hbnd : (if (unlocked (w.acct l.token)).fails + 1 = 3 then
          (if lo ≤ (failed (unlocked (w.acct l.token)) now w.penalty).last then 0 else 3)
          else (3 - ((unlocked (w.acct l.token)).fails + 1)).toNat) =
          (3 - ((unlocked (w.acct l.token)).fails + 1)).toNat := by
        split
        · rename_i h2
          rw [(hf.2.1 (by omega)).1, if_pos hclk.1]; omega
        · rfl
      rw [hbnd] at hrest
      by_cases h3 : (w.acct l.token).fails = 3
      · rw [if_pos h3]
        rw [if_neg (by intro x; exact hl ⟨h3, by have := hlk h3; omega⟩)]
        have := hu.2.2.2.2.2 h3
        omega
      · rw [if_neg h3]
        have := hu.2.2.2.2.1 h3
        omega

theorem noClear_append {e : Env} {w : Who} {l : Lib} {cs ds : List Call} :
    NoClear e w l (cs ++ ds) ↔ NoClear e w l cs ∧ NoClear e w (run e l cs) ds := by
  induction cs generalizing l with
  | nil => exact ⟨fun h => ⟨trivial, h⟩, fun h => h.2⟩
  | cons c cs ih =>
    simp only [List.cons_append, NoClear, run, ih, and_assoc]

/-- As long as the account was not locked, the counter is the number of wrong PINs. -/
theorem fails_count {e : Env} {w : Who} (ds : List Call) (l : Lib) (hi : SInv l)
    (h0 : 0 ≤ (w.acct l.token).fails) (h2 : (w.acct l.token).fails + wrongGuesses e w l ds ≤ 2)
    (hn : NoClear e w l ds) :
    (w.acct (run e l ds).token).fails = (w.acct l.token).fails + wrongGuesses e w l ds ∧
    (w.acct (run e l ds).token).timeout = (w.acct l.token).timeout := by
  induction ds generalizing l with
  | nil => exact ⟨by simp [run, wrongGuesses], rfl⟩
  | cons d ds ih =>
    unfold wrongGuesses at h2 ⊢
    have hne : (w.acct l.token).fails ≠ 3 := by omega
    have hu : unlocked (w.acct l.token) = w.acct l.token := by unfold unlocked; rw [if_neg hne]
    cases count_cases' hi hn.1 with
    | same h hw =>
      rw [if_neg hw] at h2 ⊢
      have := ih _ (hi.step e d) (by rw [h.1]; exact h0) (by rw [h.1]; omega) hn.2
      rw [h.1, h.2.2] at this
      exact ⟨by simp only [run]; rw [this.1]; omega, this.2⟩
    | expired _ _ _ _ _ h hw =>
      rw [hu] at h
      rw [if_neg hw] at h2 ⊢
      have := ih _ (hi.step e d) (by rw [h.1]; exact h0) (by rw [h.1]; omega) hn.2
      rw [h.1, h.2.2] at this
      exact ⟨by simp only [run]; rw [this.1]; omega, this.2⟩
    | wrong k pin now _ _ h hw =>
      rw [hu] at h
      rw [if_pos hw] at h2 ⊢
      have hf := failed_eq (w.acct l.token) now w.penalty
      have hne2 : (w.acct l.token).fails ≠ 2 := by omega
      rw [SameCount, hf.1, (hf.2.2 hne2).2] at h
      have := ih _ (hi.step e d) (by rw [h.1]; omega) (by rw [h.1]; omega) hn.2
      rw [h.1, h.2.2] at this
      exact ⟨by simp only [run]; rw [this.1]; omega, this.2⟩

/-- C11: the third wrong PIN since the counters were clear locks the account: it is
locked from that time until the timeout, increased by the penalty, is over. -/
theorem c11_third_locks (e : Env) {l₀ : Lib} (h₀ : Start l₀) (cs ds : List Call) (c : Call) (w : Who) :
    let l := run e l₀ cs
    let l' := run e l ds
    (w.acct l.token).fails = 0 → 0 ≤ (w.acct l.token).timeout → NoClear e w l (ds ++ [c]) →
    wrongGuesses e w l ds = 2 → WrongGuess e l' w c →
    ∃ h pin now, c = loginCall h w pin now ∧
      let a' := w.acct (step e l' c).1.token
      a'.timeout = (w.acct l.token).timeout + w.penalty ∧
      ∀ t, t ≤ now + a'.timeout → Locked a' t := by
  intro l l' h0 ht hn hw hwg
  have hi : SInv l := h₀.sinv.run e cs
  obtain ⟨k1, k2⟩ := fails_count ds l hi (by omega) (by omega) (noClear_append.mp hn).1
  have k3 : ¬ Clears e l' w c := (noClear_append.mp hn).2.1
  have hf2 : (w.acct l'.token).fails = 2 := by rw [k1, h0, hw]; rfl
  cases count_cases' (hi.run e ds) k3 with
  | same _ h => exact absurd hwg h
  | expired _ _ _ _ _ _ h => exact absurd hwg h
  | wrong h pin now hc hl hs _ =>
    refine ⟨h, pin, now, hc, ?_⟩
    have hu : unlocked (w.acct l'.token) = w.acct l'.token := by unfold unlocked; rw [if_neg (by omega)]
    rw [hu] at hs
    have hf := failed_eq (w.acct l'.token) now w.penalty
    rw [SameCount, hf.1, (hf.2.1 hf2).1, (hf.2.1 hf2).2, k2] at hs
    refine ⟨hs.2.2, fun t ht => ⟨by rw [hs.1, hf2]; rfl, by rw [hs.2.1]; exact ht⟩⟩

/-- C11: the timeout never shrinks unless the counters are cleared. -/
theorem c11_timeout_grows (e : Env) {l₀ : Lib} (h₀ : Start l₀) (cs ds : List Call) (w : Who) :
    let l := run e l₀ cs
    Sane w (w.acct l.token) → NoClear e w l ds →
    (w.acct l.token).timeout ≤ (w.acct (run e l ds).token).timeout := by
  intro l hs hn
  have hi : SInv l := h₀.sinv.run e cs
  suffices ∀ (ds : List Call) (l : Lib), SInv l → Sane w (w.acct l.token) → NoClear e w l ds →
      (w.acct l.token).timeout ≤ (w.acct (run e l ds).token).timeout from this ds l hi hs hn
  intro ds
  induction ds with
  | nil => intro l _ _ _; exact Int.le_refl _
  | cons c ds ih =>
    intro l hi hs hn
    have := ih _ (hi.step e c) (sane_step hi hn.1 hs) hn.2
    have hp := penalty_pos w
    have hu := unlocked_fails_lt hs
    simp only [run]
    cases count_cases' hi hn.1 with
    | same h _ => rw [h.2.2] at this; exact this
    | expired _ _ _ _ _ h _ => rw [h.2.2, hu.2.2.1] at this; exact this
    | wrong k pin now _ _ h _ =>
      have hf := failed_eq (unlocked (w.acct l.token)) now w.penalty
      rw [h.2.2] at this
      by_cases h2 : (unlocked (w.acct l.token)).fails = 2
      · rw [(hf.2.1 h2).2] at this; omega
      · rw [(hf.2.2 h2).2] at this; omega

/-- A successful login clears the counters. -/
theorem right_clears {e : Env} {l : Lib} (hi : SInv l) {h : Nat} {w : Who} {pin : Bytes} {now : Int}
    (hok : (answer e l (loginCall h w pin now)).rv = .ok) :
    (w.acct (step e l (loginCall h w pin now)).1.token).fails = 0 ∧
    (w.acct (step e l (loginCall h w pin now)).1.token).timeout = 0 := by
  have hb : l.bad = false := by
    cases hb : l.bad with
    | false => rfl
    | true => unfold answer at hok; rw [step_bad hb] at hok; cases hok
  unfold answer at hok
  rw [step_resp hb] at hok
  rw [step_eq (e := e) hb (by rw [hok]; decide)]
  revert hok
  unfold loginCall
  simp only [callBody]
  split
  · intro h; cases h
  split
  · intro h; cases h
  cases w
  · simp only [sessCall, login, Who.type, soLogin]
    repeat' split
    all_goals intro hok
    all_goals first
      | exact ⟨rfl, rfl⟩
      | cases hok
  · simp only [sessCall, login, Who.type, userLogin]
    repeat' split
    all_goals intro hok
    all_goals first
      | exact ⟨rfl, rfl⟩
      | cases hok

/-- C11: a successful login makes the account forget earlier wrong PINs: it takes three new
ones to lock it. As long as there were at most two since then, it is not locked at any
time. -/
theorem c11_success_forgets (e : Env) {l₀ : Lib} (h₀ : Start l₀) (cs ds : List Call) (h : Nat) (w : Who)
    (pin : Bytes) (now : Int) :
    let l := run e l₀ cs
    let l' := (step e l (loginCall h w pin now)).1
    (answer e l (loginCall h w pin now)).rv = .ok → NoClear e w l' ds → wrongGuesses e w l' ds ≤ 2 →
    ∀ t, ¬ Locked (w.acct (run e l' ds).token) t := by
  intro l l' hok hn hw t hl
  have hi : SInv l := h₀.sinv.run e cs
  obtain ⟨h1, _⟩ := right_clears hi hok
  have h1 : (w.acct l'.token).fails = 0 := h1
  have := (fails_count ds l' (hi.step e _) (by omega) (by omega) hn).1
  have h3 := hl.1
  omega

/-! A concrete case: the user PIN of the demonstration token is guessed. -/

/-- The demonstration token with nobody logged in. -/
def Demo.ready : Lib := run Demo.env Demo.fresh (Demo.setup ++ [.sess 65538 .logout])

example : (Who.acct .user Demo.ready.token).fails = 0 ∧ (Who.acct .user Demo.ready.token).timeout = 0 := by
  decide

/-- Three wrong PINs, then the right one: refused until 61 seconds later. -/
example : Demo.rvs Demo.env Demo.ready
    [loginCall 65538 .user [9, 9, 9, 9] 100, loginCall 65538 .user [9, 9, 9, 8] 101,
     loginCall 65538 .user [9, 9, 9, 7] 102, loginCall 65538 .user Demo.userPin 103,
     loginCall 65538 .user Demo.userPin 162, loginCall 65538 .user Demo.userPin 163] =
    [.pinIncorrect, .pinIncorrect, .pinIncorrect, .pinIncorrect, .pinIncorrect, .ok] := by decide

example : Locked (Who.acct .user (run Demo.env Demo.ready
    [loginCall 65538 .user [9, 9, 9, 9] 100, loginCall 65538 .user [9, 9, 9, 8] 101,
     loginCall 65538 .user [9, 9, 9, 7] 102]).token) 162 := by decide

/-- The first of them is a wrong guess in the sense of the theorems. -/
example : WrongGuess Demo.env Demo.ready .user (loginCall 65538 .user [9, 9, 9, 9] 100) := by
  refine ⟨[9, 9, 9, 9], 100, ⟨65538, rfl, ?_, by decide, by decide, by simp, by decide, by decide, by decide,
    by decide⟩, by decide⟩
  show (sessionInfo Demo.env Demo.ready 65538).rv = .ok
  decide

/-- Two wrong PINs, the right one, and two wrong ones again: not locked. -/
example : Demo.rvs Demo.env Demo.ready
    [loginCall 65538 .user [9, 9, 9, 9] 100, loginCall 65538 .user [9, 9, 9, 8] 101,
     loginCall 65538 .user Demo.userPin 102, .sess 65538 .logout, loginCall 65538 .user [9, 9, 9, 7] 103,
     loginCall 65538 .user [9, 9, 9, 6] 104, loginCall 65538 .user Demo.userPin 105] =
    [.pinIncorrect, .pinIncorrect, .ok, .ok, .pinIncorrect, .pinIncorrect, .ok] := by decide

example : Sane .user (Who.acct .user Demo.ready.token) :=
  ⟨by decide, by decide, by decide, by decide⟩

end Verif
