import Verif.Props.Conc

/-!
# Wrong PINs of several threads (C12)
-/

namespace Verif

/-! ## What an event does to the counters -/

/-- A call that is no login and neither loads nor resets the token keeps the counters. -/
theorem ordinary_count {e : Env} {l : Lib} {c : Call} (hc : Ordinary c) (w : Who) :
    SameCount (w.acct l.token) (w.acct (step e l c).1.token) := by
  cases hb : l.bad with
  | true => rw [step_bad hb]; exact ⟨rfl, rfl, rfl⟩
  | false =>
    rw [(step_sessions (e := e) hb c).2.2.1]
    by_cases hacc : c.onAccounts = false
    · have hs := sameAcct_callBody e l c hacc
      cases w
      · simp only [Who.acct, hs.so]; exact ⟨rfl, rfl, rfl⟩
      · simp only [Who.acct, hs.user]; exact ⟨rfl, rfl, rfl⟩
    cases c with
    | cInit => exact absurd hc (by simp [Ordinary])
    | cFinal => exact absurd hc (by simp [Ordinary])
    | slot i sc =>
      cases sc with
      | tokenInfo => exact absurd rfl hacc
      | openSession => exact absurd rfl hacc
      | closeAll => exact absurd rfl hacc
      | initToken p lab => exact absurd hc (by simp [Ordinary])
    | sess k sc =>
      simp only [callBody]
      split; · exact ⟨rfl, rfl, rfl⟩
      split; · exact ⟨rfl, rfl, rfl⟩
      rename_i s hs
      cases sc
      case initPin p =>
        simp only [sessCall]
        rcases initPin_spec e l s p with h | ⟨q, _, _, _, h⟩
        · rw [h.1]; exact ⟨rfl, rfl, rfl⟩
        · rw [h]; cases w <;> exact ⟨rfl, rfl, rfl⟩
      case setPin o n =>
        simp only [sessCall]
        rcases setPin_spec e l s o n with h | ⟨_, _, _, _, _, _, ⟨_, _, h⟩ | ⟨_, _, h⟩⟩
        · rw [h.1]; exact ⟨rfl, rfl, rfl⟩
        · rw [h]; cases w <;> exact ⟨rfl, rfl, rfl⟩
        · rw [h]; cases w <;> exact ⟨rfl, rfl, rfl⟩
      case login u p n => exact absurd hc (by simp [Ordinary])
      all_goals exact absurd rfl hacc

/-- The thread has been admitted and tries its PIN; it read the clock as `now`. -/
def Pc.Tries (w : Who) (now : Int) (p : Pc) : Prop :=
  ∃ pin, p = .admitted w pin now ∨ p = .hashing w pin now ∨ (∃ h, p = .comparing w pin now h) ∨
    (∃ ok, p = .checked w pin now ok)

/-- What a part of a login does to the counters of an account and to the position of the
thread. -/
inductive GoCase (e : Env) (l : Lib) (w : Who) (p : Pc) : Prop
  | same : w.acct (advance e l p).1.token = w.acct l.token →
      (∀ now, (advance e l p).2.1.Tries w now → p.Tries w now) →
      (∀ pin now, p ≠ .checked w pin now false) →
      GoCase e l w p
  | admit (pin : Bytes) (now : Int) : p = .called w pin now → ¬ Locked (w.acct l.token) now →
      w.acct (advance e l p).1.token = unlocked (w.acct l.token) →
      ((advance e l p).2.1 = .idle ∨ (advance e l p).2.1 = .admitted w pin now) → GoCase e l w p
  | wrong (pin : Bytes) (now : Int) : p = .checked w pin now false →
      w.acct (advance e l p).1.token = failed (w.acct l.token) now w.penalty →
      (advance e l p).2.1 = .idle → GoCase e l w p

theorem setAcct_same (l : Lib) (w : Who) (a : Account) : w.acct (setAcct l w a).token = a := by
  cases w <;> rfl

theorem setAcct_other {l : Lib} {w w' : Who} (a : Account) (h : w' ≠ w) :
    w'.acct (setAcct l w a).token = w'.acct l.token := by
  cases w <;> cases w' <;> first | rfl | exact absurd rfl h

theorem idle_tries {w : Who} {now : Int} : ¬ Pc.Tries w now .idle := by
  rintro ⟨_, h | h | ⟨_, h⟩ | ⟨_, h⟩⟩ <;> cases h

theorem entering_tries {w w' : Who} {now : Int} : ¬ Pc.Tries w now (.entering w') := by
  rintro ⟨_, h | h | ⟨_, h⟩ | ⟨_, h⟩⟩ <;> cases h

theorem keyed_tries {w : Who} {now n : Int} : ¬ Pc.Tries w now (.keyed n) := by
  rintro ⟨_, h | h | ⟨_, h⟩ | ⟨_, h⟩⟩ <;> cases h

theorem go_cases (e : Env) (l : Lib) (w : Who) (p : Pc)
    (hc : ¬ ((∃ pin now, w = .so ∧ p = .checked .so pin now true) ∨ (∃ now, w = .user ∧ p = .keyed now))) :
    GoCase e l w p := by
  cases p with
  | idle => exact .same rfl (fun _ h => h) (by simp)
  | called w' pin now =>
    by_cases hw : w' = w
    · subst hw
      by_cases hpub : l.token.login ≠ .pub
      · have h1 : advance e l (.called w' pin now) = (l, .idle, some .userAlreadyLoggedIn) := by
          simp only [advance, Verif.admit]; exact if_pos hpub
        exact .same (by rw [h1]) (by rw [h1]; exact fun _ h => absurd h idle_tries) (by simp)
      by_cases hl : Locked (w'.acct l.token) now
      · have h1 : advance e l (.called w' pin now) = (l, .idle, some .pinIncorrect) := by
          simp only [advance, Verif.admit, if_neg hpub, lockCheck_none.mpr hl]
        exact .same (by rw [h1]) (by rw [h1]; exact fun _ h => absurd h idle_tries) (by simp)
      · refine .admit pin now rfl hl ?_ ?_
        · simp only [advance, Verif.admit, if_neg hpub, lockCheck_some hl]
          split <;> exact setAcct_same _ _ _
        · simp only [advance, Verif.admit, if_neg hpub, lockCheck_some hl]
          split
          · exact .inl rfl
          · exact .inr rfl
    · refine .same ?_ ?_ (by simp)
      · simp only [advance, Verif.admit]
        repeat' split
        all_goals first | rfl | exact setAcct_other _ (fun h => hw h.symm)
      · simp only [advance, Verif.admit]
        repeat' split
        · exact fun _ h => absurd h idle_tries
        · exact fun _ h => absurd h idle_tries
        · exact fun _ h => absurd h idle_tries
        · rintro n ⟨_, h | h | ⟨_, h⟩ | ⟨_, h⟩⟩
          · simp only [Pc.admitted.injEq] at h; exact absurd h.1 hw
          all_goals cases h
  | admitted w' pin now =>
    refine .same ?_ ?_ (by simp)
    · simp only [advance]; split <;> rfl
    · simp only [advance]
      split
      · exact fun _ h => absurd h idle_tries
      · rintro n ⟨q, h | h | ⟨_, h⟩ | ⟨_, h⟩⟩
        · cases h
        · cases h; exact ⟨_, .inl rfl⟩
        all_goals cases h
  | hashing w' pin now =>
    refine .same rfl ?_ (by simp)
    rintro n ⟨q, h | h | ⟨_, h⟩ | ⟨_, h⟩⟩
    · cases h
    · cases h
    · cases h; exact ⟨_, .inr (.inl rfl)⟩
    · cases h
  | comparing w' pin now x =>
    refine .same rfl ?_ (by simp)
    rintro n ⟨q, h | h | ⟨_, h⟩ | ⟨_, h⟩⟩
    · cases h
    · cases h
    · cases h
    · cases h; exact ⟨_, .inr (.inr (.inl ⟨_, rfl⟩))⟩
  | checked w' pin now ok =>
    cases ok with
    | false =>
      by_cases hw : w' = w
      · subst hw
        exact .wrong pin now rfl (setAcct_same _ _ _) rfl
      · exact .same (setAcct_other _ (fun h => hw h.symm)) (fun _ h => absurd h idle_tries)
          (by rintro _ _ h; cases h; exact hw rfl)
    | true =>
      cases w' with
      | so =>
        have hw : w ≠ .so := fun h => hc (.inl ⟨pin, now, h, rfl⟩)
        exact .same (setAcct_other _ hw) (fun _ h => absurd h entering_tries) (by simp)
      | user =>
        exact .same (by cases w <;> rfl) (fun _ h => absurd h keyed_tries) (by simp)
  | keyed now =>
    have hw : w = .so := by
      cases w with
      | so => rfl
      | user => exact absurd (.inr ⟨now, rfl, rfl⟩) hc
    subst hw
    refine .same ?_ ?_ (by simp)
    · simp only [advance, unlockObjs]; split <;> rfl
    · simp only [advance, unlockObjs]
      split
      · exact fun _ h => absurd h entering_tries
      · exact fun _ h => absurd h idle_tries
      · exact fun _ h => absurd h idle_tries
  | entering w' => exact .same (by cases w <;> rfl) (fun _ h => absurd h idle_tries) (by simp)

/-- A part of a login stays with its account. -/
theorem advance_who {e : Env} {l : Lib} {p : Pc} {w : Who} (h : (advance e l p).2.1.who = some w) :
    p.who = some w := by
  revert h
  cases p with
  | idle => exact id
  | called w' pin now =>
    simp only [advance, admit]
    repeat' split
    all_goals intro h
    all_goals first | exact h | cases h
  | admitted w' pin now =>
    simp only [advance]
    split <;> intro h <;> first | exact h | cases h
  | hashing w' pin now => exact id
  | comparing w' pin now x => exact id
  | checked w' pin now ok => cases w' <;> cases ok <;> intro h <;> first | exact h | cases h
  | keyed now =>
    simp only [advance, unlockObjs]
    split <;> intro h <;> first | exact h | cases h
  | entering w' => intro h; cases h

theorem Pc.Tries.who {w : Who} {now : Int} {p : Pc} (h : p.Tries w now) : p.who = some w := by
  obtain ⟨_, h | h | ⟨_, h⟩ | ⟨_, h⟩⟩ := h <;> rw [h] <;> rfl

/-! ## At most three -/

/-- The invariant of schedules with one login at a time, in a window of the clock. -/
structure TryInv (w : Who) (lo hi : Int) (s : Conc) : Prop where
  sane : Sane w (w.acct s.lib.token)
  one : ∀ t u, (s.pc t).who = some w → (s.pc u).who = some w → t = u
  called : ∀ t pin now, s.pc t = .called w pin now → lo ≤ now ∧ now ≤ hi
  tries : ∀ t now, (s.pc t).Tries w now → (w.acct s.lib.token).fails < 3 ∧ lo ≤ now ∧ now ≤ hi

/-- How many more wrong PINs are looked at in the window. -/
def Account.left (lo : Int) (a : Account) : Nat :=
  if a.fails = 3 then (if lo ≤ a.last then 0 else 3) else (3 - a.fails).toNat

theorem SameCount.left {a b : Account} (h : SameCount a b) (lo : Int) : b.left lo = a.left lo := by
  unfold Account.left; rw [h.1, h.2.1]

theorem TryInv.step {e : Env} {w : Who} {lo : Int} {s : Conc} (hs : TryInv w lo (lo + w.penalty) s) (v : Ev)
    (h1 : ¬ ClearsAt s w v) (h2 : ∀ c, v = .call c → Ordinary c)
    (h3 : ∀ t h pin now, v = .login t h w pin now → ∀ u, u ≠ t → (s.pc u).who ≠ some w)
    (h4 : ∀ t h pin now, v = .login t h w pin now → lo ≤ now ∧ now ≤ lo + w.penalty) :
    TryInv w lo (lo + w.penalty) (s.step e v).1 ∧
    (¬ CountsWrong s w v → (w.acct (s.step e v).1.lib.token).left lo ≤ (w.acct s.lib.token).left lo) ∧
    (CountsWrong s w v → (w.acct (s.step e v).1.lib.token).left lo + 1 ≤ (w.acct s.lib.token).left lo) := by
  cases v with
  | call c =>
    have hc := ordinary_count (e := e) (l := s.lib) (h2 c rfl) w
    refine ⟨⟨hs.sane.same hc, hs.one, hs.called, fun t now ht => ?_⟩, fun _ => ?_, fun h => h.elim⟩
    · have := hs.tries t now ht
      exact ⟨by simp only [Conc.step]; rw [hc.1]; exact this.1, this.2⟩
    · exact Nat.le_of_eq (hc.left lo)
  | login t h w' pin now =>
    simp only [Conc.step]
    split
    · exact ⟨hs, fun _ => Nat.le_refl _, fun h => h.elim⟩
    split
    · rename_i hidle
      refine ⟨⟨hs.sane, ?_, ?_, ?_⟩, fun _ => Nat.le_refl _, fun h => h.elim⟩
      · have key : ∀ u, (s.pc u).who ≠ some w ∨ w' ≠ w ∨ u = t := by
          intro u
          by_cases hw : w' = w
          · subst hw
            by_cases hut : u = t
            · exact .inr (.inr hut)
            · exact .inl (h3 t h pin now rfl u hut)
          · exact .inr (.inl hw)
        have hb : (beginLogin s.lib h w' pin now).1.who = some w → w' = w := by
          unfold beginLogin
          repeat' split
          all_goals intro hx
          all_goals first | (cases hx; done) | skip
          simpa [Pc.who] using hx
        intro a b ha hb'
        simp only [Conc.at] at ha hb'
        by_cases hat : a = t
        · by_cases hbt : b = t
          · rw [hat, hbt]
          · rw [if_pos hat] at ha
            rw [if_neg hbt] at hb'
            rcases key b with k | k | k
            · exact absurd hb' k
            · exact absurd (hb ha) k
            · exact absurd k hbt
        · by_cases hbt : b = t
          · rw [if_neg hat] at ha
            rw [if_pos hbt] at hb'
            rcases key a with k | k | k
            · exact absurd ha k
            · exact absurd (hb hb') k
            · exact absurd k hat
          · rw [if_neg hat] at ha
            rw [if_neg hbt] at hb'
            exact hs.one a b ha hb'
      · intro u q n hu
        by_cases hut : u = t
        · subst hut
          rw [at_pc] at hu
          revert hu
          unfold beginLogin
          repeat' split
          · intro hu; cases hu
          · intro hu; cases hu
          · intro hu; cases hu
          · intro hu
            simp only [Pc.called.injEq] at hu
            obtain ⟨rfl, rfl, rfl⟩ := hu
            exact h4 u h pin now rfl
        · simp only [Conc.at, if_neg hut] at hu
          exact hs.called u q n hu
      · intro u n hu
        by_cases hut : u = t
        · subst hut
          rw [at_pc] at hu
          exfalso
          revert hu
          unfold beginLogin
          repeat' split
          · exact idle_tries
          · exact idle_tries
          · exact idle_tries
          · rintro ⟨_, h | h | ⟨_, h⟩ | ⟨_, h⟩⟩ <;> cases h
        · simp only [Conc.at, if_neg hut] at hu
          exact hs.tries u n hu
    · exact ⟨hs, fun _ => Nat.le_refl _, fun h => h.elim⟩
  | go t =>
    simp only [Conc.step]
    split
    · rename_i hb
      exact ⟨hs, fun _ => Nat.le_refl _, fun h => by rw [h.1] at hb; cases hb⟩
    rename_i hb
    have hb : s.lib.bad = false := by simpa using hb
    have hone : ∀ a b, ((({ s with lib := (advance e s.lib (s.pc t)).1 } : Conc).at t
        (advance e s.lib (s.pc t)).2.1).pc a).who = some w → ((({ s with lib := (advance e s.lib (s.pc t)).1 } : Conc).at t
        (advance e s.lib (s.pc t)).2.1).pc b).who = some w → a = b := by
      have key : ∀ a, ((({ s with lib := (advance e s.lib (s.pc t)).1 } : Conc).at t
          (advance e s.lib (s.pc t)).2.1).pc a).who = some w → (s.pc a).who = some w := by
        intro a ha
        simp only [Conc.at] at ha
        by_cases hat : a = t
        · rw [if_pos hat] at ha; rw [hat]; exact advance_who ha
        · rw [if_neg hat] at ha; exact ha
      exact fun a b ha hb => hs.one a b (key a ha) (key b hb)
    have hcalled : ∀ a pin now, (({ s with lib := (advance e s.lib (s.pc t)).1 } : Conc).at t
        (advance e s.lib (s.pc t)).2.1).pc a = .called w pin now → lo ≤ now ∧ now ≤ lo + w.penalty := by
      intro a pin now ha
      simp only [Conc.at] at ha
      by_cases hat : a = t
      · rw [if_pos hat] at ha
        exfalso
        revert ha
        cases s.pc t with
        | idle => simp [advance]
        | called w' q n =>
          simp only [advance, admit]
          repeat' split
          all_goals simp
        | admitted w' q n => simp only [advance]; split <;> simp
        | hashing w' q n => simp [advance]
        | comparing w' q n x => simp [advance]
        | checked w' q n ok => cases w' <;> cases ok <;> simp [advance]
        | keyed n => simp only [advance, unlockObjs]; split <;> simp
        | entering w' => simp [advance]
      · rw [if_neg hat] at ha; exact hs.called a pin now ha
    have h0 := hs.sane.lo
    have h9 := hs.sane.hi
    have hu := unlocked_fails_lt hs.sane
    have hlk := hs.sane.locked
    -- nobody else is inside a login to the account
    have alone : (s.pc t).who = some w → ∀ u, u ≠ t → ∀ now, ¬ (s.pc u).Tries w now :=
      fun ht u hut now hx => hut (hs.one u t hx.who ht)
    cases go_cases e s.lib w (s.pc t) h1 with
    | same ha htr hnw =>
      have hl : w.acct (({ s with lib := (advance e s.lib (s.pc t)).1 } : Conc).at t
        (advance e s.lib (s.pc t)).2.1).lib.token = w.acct s.lib.token := ha
      refine ⟨⟨by rw [hl]; exact hs.sane, hone, hcalled, ?_⟩, fun _ => by rw [hl]; exact Nat.le_refl _,
        fun ⟨_, pin, now, h⟩ => absurd h (hnw pin now)⟩
      intro u now hx
      rw [hl]
      simp only [Conc.at] at hx
      by_cases hut : u = t
      · rw [if_pos hut] at hx
        exact hs.tries t now (htr now hx)
      · rw [if_neg hut] at hx
        exact hs.tries u now hx
    | admit pin now hp hnl ha hpc =>
      have hl : w.acct (({ s with lib := (advance e s.lib (s.pc t)).1 } : Conc).at t
        (advance e s.lib (s.pc t)).2.1).lib.token = unlocked (w.acct s.lib.token) := ha
      have hin := hs.called t pin now hp
      refine ⟨⟨by rw [hl]; exact hs.sane.unlocked, hone, hcalled, ?_⟩, fun _ => ?_,
        fun ⟨_, q, n, h⟩ => by rw [hp] at h; cases h⟩
      · intro u n hx
        rw [hl]
        refine ⟨hu.2.1, ?_⟩
        simp only [Conc.at] at hx
        by_cases hut : u = t
        · rw [if_pos hut] at hx
          rcases hpc with hpc | hpc
          · rw [hpc] at hx; exact absurd hx idle_tries
          · rw [hpc] at hx
            obtain ⟨_, h | h | ⟨_, h⟩ | ⟨_, h⟩⟩ := hx
            · cases h; exact hin
            all_goals cases h
        · rw [if_neg hut] at hx
          exact absurd hx (alone (by rw [hp]; rfl) u hut n)
      · rw [hl]
        unfold Account.left
        rw [if_neg (by omega)]
        unfold Locked at hnl
        by_cases h3 : (w.acct s.lib.token).fails = 3
        · rw [if_pos h3]
          rw [if_neg (by intro x; exact hnl ⟨h3, by have := hlk h3; omega⟩)]
          have := hu.2.2.2.2.2 h3
          omega
        · rw [if_neg h3]
          have := hu.2.2.2.2.1 h3
          omega
    | wrong pin now hp ha hpc =>
      have hl : w.acct (({ s with lib := (advance e s.lib (s.pc t)).1 } : Conc).at t
        (advance e s.lib (s.pc t)).2.1).lib.token = failed (w.acct s.lib.token) now w.penalty := ha
      have htr := hs.tries t now (by rw [hp]; exact ⟨pin, .inr (.inr (.inr ⟨_, rfl⟩))⟩)
      refine ⟨⟨by rw [hl]; exact hs.sane.failed htr.1 now, hone, hcalled, ?_⟩,
        fun h => absurd ⟨hb, pin, now, hp⟩ h, fun _ => ?_⟩
      · intro u n hx
        simp only [Conc.at] at hx
        by_cases hut : u = t
        · rw [if_pos hut, hpc] at hx; exact absurd hx idle_tries
        · rw [if_neg hut] at hx
          exact absurd hx (alone (by rw [hp]; rfl) u hut n)
      · rw [hl]
        have hf := failed_eq (w.acct s.lib.token) now w.penalty
        unfold Account.left
        rw [hf.1, if_neg (c := (w.acct s.lib.token).fails = 3) (by omega)]
        split
        · rename_i h2
          rw [(hf.2.1 (by omega)).1, if_pos htr.2.1]; omega
        · omega

/-- C12, when the threads do not try PINs of the same account at the same time: from a
moment when nobody is inside `C_Login`, in any window of 600 seconds (security officer) or
60 seconds (user) at most three wrong PINs are looked at, whatever the threads do, in
whatever order, unless the right PIN is given or the token is loaded or reset.  Logins to the
other account and all other calls may be made at any moment.

What is missing: two threads inside a login to the same account; there the claim is false
(`c12_violated`). -/
theorem c12_partial (e : Env) (s : Conc) (vs : List Ev) (w : Who) (lo : Int)
    (hq : s.Quiet) (hs : Sane w (w.acct s.lib.token)) (hg : Guessing e w s vs) (h1 : OneAtATime e w s vs)
    (hr : ReadsIn lo (lo + w.penalty) vs) : wrongLogins e w s vs ≤ 3 := by
  have hinv : TryInv w lo (lo + w.penalty) s :=
    ⟨hs, (by intro t u ht; rw [hq t] at ht; cases ht), (by intro t _ _ ht; rw [hq t] at ht; cases ht),
      (by intro t now ht; rw [hq t] at ht; exact absurd ht idle_tries)⟩
  have hb : (w.acct s.lib.token).left lo ≤ 3 := by
    unfold Account.left
    have := hs.lo
    split
    · split <;> omega
    · omega
  refine Nat.le_trans ?_ hb
  clear hb hq hs
  induction vs generalizing s with
  | nil => exact Nat.zero_le _
  | cons v vs ih =>
    obtain ⟨k1, k2, k3⟩ := hinv.step (e := e) v hg.1 hg.2.1 h1.1
      (fun t h pin now hv => hr t h w pin now (by rw [hv]; exact List.mem_cons_self))
    have := ih _ hg.2.2 h1.2 (fun t h w' pin now hm => hr t h w' pin now (List.mem_cons_of_mem _ hm)) k1
    unfold wrongLogins
    split
    · rename_i hcw; have := k3 hcw; omega
    · rename_i hcw; have := k2 hcw; omega

/-! ## Schedules that can be computed -/

/-- The thread an event belongs to, if it is part of a login. -/
def Ev.thread : Ev → Option Nat
  | .call _ => none
  | .login t _ _ _ _ => some t
  | .go t => some t

theorem pc_other {e : Env} {s : Conc} {v : Ev} {u : Nat} (h : v.thread ≠ some u) :
    (s.step e v).1.pc u = s.pc u := by
  cases v with
  | call c => rfl
  | login t h' w pin now =>
    have hut : u ≠ t := fun x => h (by rw [x]; rfl)
    simp only [Conc.step]
    split; · rfl
    split
    · simp only [Conc.at, if_neg hut]
    · rfl
  | go t =>
    have hut : u ≠ t := fun x => h (by rw [x]; rfl)
    simp only [Conc.step]
    split; · rfl
    simp only [Conc.at, if_neg hut]

/-- The thread finds the PIN wrong. -/
def Pc.isWrong (w : Who) : Pc → Bool
  | .checked w' _ _ false => w' = w
  | _ => false

/-- The thread clears the counters. -/
def Pc.isClear (w : Who) : Pc → Bool
  | .checked .so _ _ true => w = .so
  | .keyed _ => w = .user
  | _ => false

theorem isWrong_iff {w : Who} {p : Pc} : p.isWrong w = true ↔ ∃ pin now, p = .checked w pin now false := by
  unfold Pc.isWrong
  split
  · rename_i w' pin now
    constructor
    · intro h; exact ⟨pin, now, by rw [of_decide_eq_true h]⟩
    · rintro ⟨_, _, h⟩; simp only [Pc.checked.injEq] at h; simp [h.1]
  · rename_i hne
    constructor
    · intro h; cases h
    · rintro ⟨_, _, h⟩; exact absurd h (hne _ _ _)

theorem isClear_iff {w : Who} {p : Pc} : p.isClear w = true ↔
    (∃ pin now, w = .so ∧ p = .checked .so pin now true) ∨ (∃ now, w = .user ∧ p = .keyed now) := by
  unfold Pc.isClear
  split
  · rename_i pin now
    constructor
    · intro h; exact .inl ⟨pin, now, of_decide_eq_true h, rfl⟩
    · rintro (⟨_, _, h, _⟩ | ⟨_, _, h⟩)
      · exact decide_eq_true h
      · cases h
  · rename_i now
    constructor
    · intro h; exact .inr ⟨now, of_decide_eq_true h, rfl⟩
    · rintro (⟨_, _, _, h⟩ | ⟨_, h, _⟩)
      · cases h
      · exact decide_eq_true h
  · rename_i h1 h2
    constructor
    · intro h; cases h
    · rintro (⟨_, _, _, h⟩ | ⟨_, _, h⟩)
      · exact absurd h (h1 _ _)
      · exact absurd h (h2 _)

instance (s : Conc) (w : Who) (v : Ev) : Decidable (CountsWrong s w v) :=
  match v with
  | .go t => decidable_of_iff (s.lib.bad = false ∧ (s.pc t).isWrong w = true) (by rw [isWrong_iff]; exact .rfl)
  | .call _ => .isFalse id
  | .login _ _ _ _ _ => .isFalse id

instance (s : Conc) (w : Who) (v : Ev) : Decidable (ClearsAt s w v) :=
  match v with
  | .go t => decidable_of_iff ((s.pc t).isClear w = true) isClear_iff
  | .call _ => .isFalse id
  | .login _ _ _ _ _ => .isFalse id

instance (c : Call) : Decidable (Ordinary c) := by
  unfold Ordinary; split <;> infer_instance

/-- `wrongLogins`, computed. -/
def countWrong (e : Env) (w : Who) : Conc → List Ev → Nat
  | _, [] => 0
  | s, v :: vs => (if CountsWrong s w v then 1 else 0) + countWrong e w (s.step e v).1 vs

theorem wrongLogins_eq (e : Env) (w : Who) (s : Conc) (vs : List Ev) :
    wrongLogins e w s vs = countWrong e w s vs := by
  induction vs generalizing s with
  | nil => rfl
  | cons v vs ih =>
    unfold wrongLogins countWrong
    rw [ih]
    congr 1
    by_cases h : CountsWrong s w v
    · rw [if_pos h, if_pos h]
    · rw [if_neg h, if_neg h]

/-- The call of an event, if any, is an ordinary one. -/
def Ev.ordinary : Ev → Bool
  | .call c => decide (Ordinary c)
  | _ => true

/-- `Guessing`, computed. -/
def guessing (e : Env) (w : Who) : Conc → List Ev → Bool
  | _, [] => true
  | s, v :: vs => !decide (ClearsAt s w v) && v.ordinary && guessing e w (s.step e v).1 vs

theorem guessing_iff (e : Env) (w : Who) (s : Conc) (vs : List Ev) (h : guessing e w s vs = true) :
    Guessing e w s vs := by
  induction vs generalizing s with
  | nil => trivial
  | cons v vs ih =>
    simp only [guessing, Bool.and_eq_true, Bool.not_eq_true', decide_eq_false_iff_not] at h
    refine ⟨h.1.1, ?_, ih _ h.2⟩
    rintro c rfl
    exact of_decide_eq_true h.1.2

/-- Threads below `n` only. -/
def Below (n : Nat) (vs : List Ev) : Bool := vs.all fun v => match v.thread with | none => true | some t => t < n

/-- `OneAtATime` and `OpensApart`, computed. -/
def oneAtATime (e : Env) (w : Who) (n : Nat) : Conc → List Ev → Bool
  | _, [] => true
  | s, v :: vs =>
    (match v with
     | .login t _ w' _ _ => w' ≠ w || (List.range n).all fun u => u = t || (s.pc u).who ≠ some w
     | _ => true) && oneAtATime e w n (s.step e v).1 vs

def opensApart (e : Env) (n : Nat) : Conc → List Ev → Bool
  | _, [] => true
  | s, v :: vs =>
    (match v with
     | .call (.slot _ (.openSession false _ _)) => (List.range n).all fun u => (s.pc u).who ≠ some .so
     | _ => true) && opensApart e n (s.step e v).1 vs

theorem below_idle {e : Env} {n : Nat} {s : Conc} {v : Ev} {vs : List Ev} (hb : Below n (v :: vs) = true)
    (hi : ∀ u, n ≤ u → s.pc u = .idle) :
    Below n vs = true ∧ ∀ u, n ≤ u → (s.step e v).1.pc u = .idle := by
  simp only [Below, List.all_cons, Bool.and_eq_true] at hb
  refine ⟨hb.2, fun u hu => ?_⟩
  rw [pc_other, hi u hu]
  intro h
  have := hb.1
  rw [h] at this
  have : u < n := of_decide_eq_true this
  omega

theorem oneAtATime_of {e : Env} {w : Who} {n : Nat} (vs : List Ev) (s : Conc) (hb : Below n vs = true)
    (hi : ∀ u, n ≤ u → s.pc u = .idle) (h : oneAtATime e w n s vs = true) : OneAtATime e w s vs := by
  induction vs generalizing s with
  | nil => trivial
  | cons v vs ih =>
    simp only [oneAtATime, Bool.and_eq_true] at h
    obtain ⟨k1, k2⟩ := below_idle (e := e) hb hi
    refine ⟨?_, ih _ k1 k2 h.2⟩
    rintro t h' pin now rfl u hu
    have h1 := h.1
    simp only [ne_eq, not_true_eq_false, decide_false, Bool.false_or, List.all_eq_true, List.mem_range,
      Bool.or_eq_true, decide_eq_true_eq] at h1
    by_cases hun : n ≤ u
    · rw [hi u hun]; simp [Pc.who]
    · rcases h1 u (by omega) with h2 | h2
      · exact absurd h2 hu
      · exact of_decide_eq_true (by simpa using h2)

theorem opensApart_of {e : Env} {n : Nat} (vs : List Ev) (s : Conc) (hb : Below n vs = true)
    (hi : ∀ u, n ≤ u → s.pc u = .idle) (h : opensApart e n s vs = true) : OpensApart e s vs := by
  induction vs generalizing s with
  | nil => trivial
  | cons v vs ih =>
    simp only [opensApart, Bool.and_eq_true] at h
    obtain ⟨k1, k2⟩ := below_idle (e := e) hb hi
    refine ⟨?_, ih _ k1 k2 h.2⟩
    rintro i a b rfl u
    have h1 := h.1
    simp only [List.all_eq_true, List.mem_range] at h1
    by_cases hun : n ≤ u
    · rw [hi u hun]; simp [Pc.who]
    · exact of_decide_eq_true (by simpa using h1 u (by omega))

set_option maxRecDepth 20000 in
/-- Non-vacuity of `c09_partial`: two threads log in as security officer at the same time,
both succeed; a read-only session was open before and one is asked for after. -/
example : OpensApart Demo.env { lib := Demo.fresh } Demo.soApart ∧
    Conc.returns Demo.env { lib := Demo.fresh } Demo.soApart =
      [.ok, .ok, .ok, .ok, .ok, .ok, .ok, .sessionReadWriteSoExists] :=
  ⟨opensApart_of (n := 3) _ _ (by decide) (fun _ _ => rfl) (by decide), by decide⟩

namespace Demo

/-- Wrong PINs of the user, one after the other but with logins of the security officer and
other calls in between. -/
def inTurn : List Ev :=
  [.login 1 65538 .user [9, 9, 9, 9] 100, .login 2 65538 .so [9, 9, 9, 9] 100, .go 1, .go 2, .go 1, .call (openCall true),
   .go 1, .go 1, .go 1, .go 2,
   .login 3 65538 .user [9, 9, 9, 8] 101, .go 3, .go 3, .go 2, .go 3, .go 3, .go 3,
   .login 1 65538 .user [9, 9, 9, 7] 102, .go 1, .go 1, .go 1, .go 1, .go 1, .go 2, .go 2,
   .login 3 65538 .user [9, 9, 9, 6] 103, .go 3]

end Demo

set_option maxRecDepth 20000 in
/-- Non-vacuity of `c12_partial`: three wrong PINs are looked at, the fourth is refused. -/
example : Sane .user (Who.acct .user Demo.ready.token) ∧
    Guessing Demo.env .user { lib := Demo.ready } Demo.inTurn ∧
    OneAtATime Demo.env .user { lib := Demo.ready } Demo.inTurn ∧
    wrongLogins Demo.env .user { lib := Demo.ready } Demo.inTurn = 3 ∧
    Conc.returns Demo.env { lib := Demo.ready } Demo.inTurn =
      [.ok, .pinIncorrect, .pinIncorrect, .pinIncorrect, .pinIncorrect, .pinIncorrect] :=
  ⟨⟨by decide, by decide, by decide, by decide⟩, guessing_iff _ _ _ _ (by decide),
   oneAtATime_of (n := 4) _ _ (by decide) (fun _ _ => rfl) (by decide),
   (wrongLogins_eq _ _ _ _).trans (by decide), by decide⟩

/-! ## The lock can be stepped over -/

theorem crun_append {e : Env} {s : Conc} (vs ws : List Ev) :
    Conc.run e s (vs ++ ws) = Conc.run e (Conc.run e s vs) ws := by
  induction vs generalizing s with
  | nil => rfl
  | cons v vs ih => exact ih

theorem countWrong_append {e : Env} {w : Who} {s : Conc} (vs ws : List Ev) :
    countWrong e w s (vs ++ ws) = countWrong e w s vs + countWrong e w (Conc.run e s vs) ws := by
  induction vs generalizing s with
  | nil => simp [countWrong, Conc.run]
  | cons v vs ih => simp only [List.cons_append, countWrong, Conc.run, ih, Nat.add_assoc]

theorem guessing_append {e : Env} {w : Who} {s : Conc} (vs ws : List Ev)
    (h1 : guessing e w s vs = true) (h2 : guessing e w (Conc.run e s vs) ws = true) :
    guessing e w s (vs ++ ws) = true := by
  induction vs generalizing s with
  | nil => exact h2
  | cons v vs ih =>
    simp only [guessing, Bool.and_eq_true, List.cons_append] at h1 ⊢
    exact ⟨h1.1, ih h1.2 h2⟩

/-- A login with a PIN that turns out wrong, made without interruption. -/
def guess (t h : Nat) (w : Who) (pin : Bytes) (now : Int) : List Ev :=
  [.login t h w pin now, .go t, .go t, .go t, .go t, .go t]

/-- A wrong PIN of an account whose counter is not three is looked at. -/
theorem guess_spec {e : Env} {s : Conc} {t h : Nat} {w : Who} {pin : Bytes} {now : Int}
    (hb : s.lib.bad = false) (ht : s.pc t = .idle) (hc : 0 < s.lib.count)
    (hg : (getSession s.lib h).isSome = true) (hp : pinLenOk pin = true) (hl : s.lib.token.login = .pub)
    (hf : (w.acct s.lib.token).fails ≠ 3) (hw : w = .user) (hi : s.lib.token.init = true)
    (hne : (w.acct s.lib.token).pin ≠ []) (hm : ¬ Matches e (w.acct s.lib.token) pin) :
    Conc.run e s (guess t h w pin now) =
      { s with lib := setAcct s.lib w (failed (w.acct s.lib.token) now w.penalty) } ∧
    countWrong e w s (guess t h w pin now) = 1 ∧ guessing e w s (guess t h w pin now) = true := by
  have hm' : (e.store.hash pin (w.acct s.lib.token).seed).take (w.acct s.lib.token).pin.length ≠
      (w.acct s.lib.token).pin := fun x => hm ⟨hne, x⟩
  have e1 : s.step e (.login t h w pin now) = (s.at t (.called w pin now), none) := by
    simp only [Conc.step, hb, Bool.false_eq_true, if_false, ht, if_true, beginLogin]
    rw [if_neg (by omega), if_neg (by
      intro hn; rw [Option.isNone_iff_eq_none] at hn; rw [hn] at hg; cases hg), if_neg (by simp [hp])]
  have hself : setAcct s.lib w (w.acct s.lib.token) = s.lib := by cases w <;> rfl
  have e2 : (s.at t (.called w pin now)).step e (.go t) = (s.at t (.admitted w pin now), none) := by
    have : advance e s.lib (.called w pin now) = (s.lib, .admitted w pin now, none) := by
      have hlc : lockCheck (w.acct s.lib.token) now = some (w.acct s.lib.token) := by
        simp [lockCheck, maxFails, hf]
      simp only [advance, admit, hl, ne_eq, not_true_eq_false, if_false, hlc]
      rw [if_neg (by rw [hw]; simp), hself]
    simp only [Conc.step, at_lib, hb, Bool.false_eq_true, if_false, at_pc, this]
    rw [show (Conc.mk s.lib (s.at t (.called w pin now)).pc) = s.at t (.called w pin now) from rfl, at_at]
  have e3 : (s.at t (.admitted w pin now)).step e (.go t) = (s.at t (.hashing w pin now), none) := by
    have : advance e s.lib (.admitted w pin now) = (s.lib, .hashing w pin now, none) := by
      simp only [advance, hi, hne, or_false, if_neg, Bool.true_eq_false, not_false_eq_true]
    simp only [Conc.step, at_lib, hb, Bool.false_eq_true, if_false, at_pc, this]
    rw [show (Conc.mk s.lib (s.at t (.admitted w pin now)).pc) = s.at t (.admitted w pin now) from rfl, at_at]
  have e4 : (s.at t (.hashing w pin now)).step e (.go t) =
      (s.at t (.comparing w pin now (e.store.hash pin (w.acct s.lib.token).seed)), none) := by
    simp only [Conc.step, at_lib, hb, Bool.false_eq_true, if_false, at_pc, advance]
    rw [show (Conc.mk s.lib (s.at t (.hashing w pin now)).pc) = s.at t (.hashing w pin now) from rfl, at_at]
  have e5 : (s.at t (.comparing w pin now (e.store.hash pin (w.acct s.lib.token).seed))).step e (.go t) =
      (s.at t (.checked w pin now false), none) := by
    simp only [Conc.step, at_lib, hb, Bool.false_eq_true, if_false, at_pc, advance, hm', decide_false]
    rw [show (Conc.mk s.lib (s.at t (.comparing w pin now _)).pc) = s.at t (.comparing w pin now _) from rfl, at_at]
  have e6 : (s.at t (.checked w pin now false)).step e (.go t) =
      ({ s with lib := setAcct s.lib w (failed (w.acct s.lib.token) now w.penalty) }, some .pinIncorrect) := by
    have ha : advance e s.lib (.checked w pin now false) =
      (setAcct s.lib w (failed (w.acct s.lib.token) now w.penalty), .idle, some .pinIncorrect) := by
        cases w <;> rfl
    simp only [Conc.step, at_lib, hb, Bool.false_eq_true, if_false, at_pc, ha]
    rw [show (Conc.mk (setAcct s.lib w (failed (w.acct s.lib.token) now w.penalty))
      (s.at t (.checked w pin now false)).pc) = (Conc.at { s with lib := setAcct s.lib w (failed (w.acct s.lib.token) now w.penalty) } t
        (.checked w pin now false)) from rfl, at_at, at_self]
    exact ht
  refine ⟨?_, ?_, ?_⟩
  · simp only [guess, Conc.run, e1, e2, e3, e4, e5, e6]
  · have n1 : ¬ CountsWrong s w (.login t h w pin now) := id
    have n2 : ¬ CountsWrong (s.at t (.called w pin now)) w (.go t) := by
      rintro ⟨_, _, _, h⟩; rw [at_pc] at h; cases h
    have n3 : ¬ CountsWrong (s.at t (.admitted w pin now)) w (.go t) := by
      rintro ⟨_, _, _, h⟩; rw [at_pc] at h; cases h
    have n4 : ¬ CountsWrong (s.at t (.hashing w pin now)) w (.go t) := by
      rintro ⟨_, _, _, h⟩; rw [at_pc] at h; cases h
    have n5 : ¬ CountsWrong (s.at t (.comparing w pin now (e.store.hash pin (w.acct s.lib.token).seed))) w
        (.go t) := by
      rintro ⟨_, _, _, h⟩; rw [at_pc] at h; cases h
    have n6 : CountsWrong (s.at t (.checked w pin now false)) w (.go t) :=
      ⟨hb, pin, now, at_pc _ _ _⟩
    simp only [guess, countWrong, e1, e2, e3, e4, e5, n1, n2, n3, n4, n5, n6, if_false, if_true]
  · have n1 : ¬ ClearsAt s w (.login t h w pin now) := id
    have n2 : ∀ p, p.isClear w = false → ¬ ClearsAt (s.at t p) w (.go t) := by
      intro p hp h
      have := isClear_iff.mpr h
      rw [at_pc, hp] at this; cases this
    have k1 := n2 (.called w pin now) rfl
    have k2 := n2 (.admitted w pin now) rfl
    have k3 := n2 (.hashing w pin now) rfl
    have k4 := n2 (.comparing w pin now (e.store.hash pin (w.acct s.lib.token).seed)) rfl
    have k5 := n2 (.checked w pin now false) (by cases w <;> rfl)
    simp only [guess, guessing, e1, e2, e3, e4, e5, n1, k1, k2, k3, k4, k5, decide_false, Bool.not_false,
      Ev.ordinary, Bool.and_self]

/-- The account is stuck above the limit; the PIN is not one of the guesses. -/
structure Stuck (e : Env) (h : Nat) (gs : List Bytes) (l : Lib) : Prop where
  bad : l.bad = false
  count : 0 < l.count
  sess : (getSession l h).isSome = true
  pub : l.token.login = .pub
  fails : 3 < l.token.user.fails
  init : l.token.init = true
  pin : l.token.user.pin ≠ []
  wrong : ∀ g ∈ gs, pinLenOk g = true ∧ ¬ Matches e l.token.user g

/-- A number of guesses, one after the other, all with the same clock reading. -/
def guesses (h : Nat) (gs : List Bytes) : List Ev := gs.flatMap fun g => guess 1 h .user g 0

theorem stuck_guesses {e : Env} {h : Nat} (gs : List Bytes) (s : Conc) (hs : Stuck e h gs s.lib)
    (ht : s.pc 1 = .idle) :
    (∃ f, 3 < f ∧ Conc.run e s (guesses h gs) =
      { s with lib := setAcct s.lib .user { s.lib.token.user with fails := f } }) ∧
    countWrong e .user s (guesses h gs) = gs.length ∧ guessing e .user s (guesses h gs) = true := by
  induction gs generalizing s with
  | nil => exact ⟨⟨_, hs.fails, rfl⟩, rfl, rfl⟩
  | cons g gs ih =>
    obtain ⟨h1, h2, h3⟩ := guess_spec (e := e) (s := s) (t := 1) (h := h) (w := .user) (pin := g) (now := 0)
      hs.bad ht hs.count hs.sess (hs.wrong g List.mem_cons_self).1 hs.pub
      (by have := hs.fails; show s.lib.token.user.fails ≠ 3; omega) rfl hs.init hs.pin
      (hs.wrong g List.mem_cons_self).2
    have hfe := failed_eq s.lib.token.user 0 (Who.penalty .user)
    have hne : s.lib.token.user.fails ≠ 2 := by have := hs.fails; omega
    have hf : failed s.lib.token.user 0 (Who.penalty .user) =
        { s.lib.token.user with fails := s.lib.token.user.fails + 1 } := by
      unfold failed
      rw [if_neg (by show ¬ s.lib.token.user.fails + 1 = 3; omega)]
    have h1' : Conc.run e s (guess 1 h .user g 0) =
        { s with lib := setAcct s.lib .user { s.lib.token.user with fails := s.lib.token.user.fails + 1 } } := by
      rw [h1]; show Conc.mk (setAcct s.lib .user (failed s.lib.token.user 0 (Who.penalty .user))) s.pc = _
      rw [hf]
    have hst : Stuck e h gs (Conc.run e s (guess 1 h .user g 0)).lib := by
      rw [h1']
      exact ⟨hs.bad, hs.count, hs.sess, hs.pub, by
        have := hs.fails
        show 3 < s.lib.token.user.fails + 1
        omega, hs.init, hs.pin, fun g' hg' => hs.wrong g' (List.mem_cons_of_mem _ hg')⟩
    obtain ⟨⟨f, hf3, k1⟩, k2, k3⟩ := ih _ hst (by rw [h1']; exact ht)
    have hcons : guesses h (g :: gs) = guess 1 h .user g 0 ++ guesses h gs := by
      simp [guesses]
    rw [hcons]
    refine ⟨⟨f, hf3, ?_⟩, ?_, guessing_append _ _ h3 k3⟩
    · rw [crun_append, k1, h1']; rfl
    · rw [countWrong_append, h2, k2, List.length_cons]; omega

/-- The right PIN of a user account whose counter is not three is accepted. -/
theorem right_ok {e : Env} {l : Lib} {h : Nat} {pin : Bytes} {now : Int} (hb : l.bad = false) (hc : 0 < l.count)
    (hg : (getSession l h).isSome = true) (hp : pinLenOk pin = true) (hl : l.token.login = .pub)
    (hf : l.token.user.fails ≠ 3) (hi : l.token.init = true) (hm : Matches e l.token.user pin)
    (hd : (decodeAll e.store (e.store.hash pin l.token.seed) l.token.objs).1 = .ok) :
    (answer e l (loginCall h .user pin now)).rv = .ok := by
  obtain ⟨x, hx⟩ := Option.isSome_iff_exists.mp hg
  have hlc : lockCheck l.token.user now = some l.token.user := by simp [lockCheck, maxFails, hf]
  have hck : checkPin e { l.token with user := l.token.user } l.token.user pin = .ok := by
    unfold checkPin
    rw [if_neg (by simp [hi, hm.1]), if_pos hm.2]
  rw [answer, step_resp hb]
  simp only [loginCall, Who.type, callBody, if_neg (show ¬ l.count ≤ 0 by omega), hx, sessCall, login, hp,
    Bool.not_true, Bool.false_eq_true, if_false, userLogin, hl, ne_eq, not_true_eq_false, hlc, hck, hd]

theorem stuck_right {e : Env} {l : Lib} {h : Nat} {gs : List Bytes} {pin : Bytes} {now f : Int}
    (hs : Stuck e h gs l) (hf : 3 < f) (hp : pinLenOk pin = true) (hm : Matches e l.token.user pin)
    (hd : (decodeAll e.store (e.store.hash pin l.token.seed) l.token.objs).1 = .ok) :
    (answer e (setAcct l .user { l.token.user with fails := f }) (loginCall h .user pin now)).rv = .ok :=
  right_ok hs.bad hs.count hs.sess hp hs.pub (by show f ≠ 3; omega) hs.init ⟨hm.1, hm.2⟩ hd

namespace Demo

/-- Two wrong PINs one after the other and two more at the same time: the counter goes from
two to four. -/
def overStep : List Ev :=
  guess 1 65538 .user [9, 9, 9, 9] 0 ++ guess 1 65538 .user [9, 9, 9, 8] 0 ++
  [.login 1 65538 .user [9, 9, 9, 7] 0, .login 2 65538 .user [9, 9, 9, 6] 0, .go 1, .go 2,
   .go 1, .go 1, .go 1, .go 1, .go 2, .go 2, .go 2, .go 2]

end Demo

set_option maxRecDepth 20000 in
/-- C12 is violated: against a token whose user account has no failed login, two threads can
try any list of wrong PINs, all with the same reading of the clock; every one is looked at,
and the right PIN after them is accepted. -/
theorem c12_violated :
    ∃ (e : Env) (l₀ : Lib) (_ : Start l₀) (cs : List Call) (right : Bytes),
      let s : Conc := { lib := run e l₀ cs }
      s.lib.token.user.fails = 0 ∧
      ∀ gs : List Bytes, (∀ g ∈ gs, 4 ≤ g.length ∧ g.length ≤ 32 ∧ ¬ Matches e s.lib.token.user g) →
        ∃ vs, Guessing e .user s vs ∧ ReadsIn 0 0 vs ∧ gs.length ≤ wrongLogins e .user s vs ∧
          (∀ g ∈ gs, ∃ t, Ev.login t 65538 .user g 0 ∈ vs) ∧
          (answer e (Conc.run e s vs).lib (loginCall 65538 .user right 0)).rv = .ok := by
  refine ⟨Demo.env, Demo.fresh, Demo.fresh_start, Demo.setup ++ [.sess 65538 .logout], Demo.userPin, by decide, ?_⟩
  intro gs hgs
  have hbase : Stuck Demo.env 65538 gs (Conc.run Demo.env { lib := Demo.ready } Demo.overStep).lib :=
    ⟨by decide, by decide, by decide, by decide, by decide, by decide, by decide, fun g hg => by
      obtain ⟨h1, h2, h3⟩ := hgs g hg
      refine ⟨by simp [pinLenOk, h1, h2], ?_⟩
      have hsame : SamePin Demo.ready.token.user
          (Conc.run Demo.env { lib := Demo.ready } Demo.overStep).lib.token.user := ⟨by decide, by decide⟩
      intro hm
      exact h3 ((matches_same hsame g).mp hm)⟩
  obtain ⟨⟨f, hf, k1⟩, k2, k3⟩ := stuck_guesses gs _ hbase (by decide)
  refine ⟨Demo.overStep ++ guesses 65538 gs, ?_, ?_, ?_, ?_, ?_⟩
  · exact guessing_iff _ _ _ _ (guessing_append _ _ (by decide) k3)
  · intro t h w pin now hm
    rcases List.mem_append.mp hm with hm | hm
    · simp only [Demo.overStep, guess, List.cons_append, List.nil_append, List.mem_cons, Ev.login.injEq, reduceCtorEq,
        false_or, or_false, List.not_mem_nil] at hm
      omega
    · simp only [guesses, guess, List.mem_flatMap, List.mem_cons, Ev.login.injEq, reduceCtorEq, or_false,
        List.not_mem_nil] at hm
      obtain ⟨_, _, _, _, _, _, hn⟩ := hm
      omega
  · rw [wrongLogins_eq, countWrong_append]
    have : countWrong Demo.env .user { lib := run Demo.env Demo.fresh (Demo.setup ++ [.sess 65538 .logout]) }
        Demo.overStep = 4 := by decide
    have k2' : countWrong Demo.env .user
      (Conc.run Demo.env { lib := run Demo.env Demo.fresh (Demo.setup ++ [.sess 65538 .logout]) } Demo.overStep)
      (guesses 65538 gs) = gs.length := k2
    omega
  · intro g hg
    refine ⟨1, List.mem_append.mpr (.inr (List.mem_flatMap.mpr ⟨g, hg, List.mem_cons_self⟩))⟩
  · rw [crun_append]
    have k1' : Conc.run Demo.env (Conc.run Demo.env
        { lib := run Demo.env Demo.fresh (Demo.setup ++ [.sess 65538 .logout]) } Demo.overStep) (guesses 65538 gs) =
        _ := k1
    rw [k1']
    exact stuck_right hbase hf (by decide) (by decide) (by decide)

end Verif
