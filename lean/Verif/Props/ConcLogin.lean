import Verif.Props.ConcAuth
import Verif.Spec.ConcLogin

/-!
# Logins of several threads need the PIN (C100)
-/

namespace Verif

/-- The arguments of the login are checked. -/
def Called (e : Env) (s : Chg) (t : Nat) (w : Who) (pin : Bytes) (vs : List PEv) : Prop :=
  ∃ a r h now, vs = a ++ .base (.login t h w pin now) :: r ∧
    IsOpen e (libAfter e s a) h ∧ InLogin e (s.run e (a ++ [.base (.login t h w pin now)])) t r

/-- Nobody was logged in. -/
def Admitted (e : Env) (s : Chg) (t : Nat) (w : Who) (pin : Bytes) (vs : List PEv) : Prop :=
  ∃ a b r h now, vs = a ++ .base (.login t h w pin now) :: (b ++ r) ∧
    IsOpen e (libAfter e s a) h ∧ InLogin e (s.run e (a ++ [.base (.login t h w pin now)])) t (b ++ r) ∧
    (libAfter e s (a ++ .base (.login t h w pin now) :: b)).token.login = .pub

/-- The hash is computed. -/
def Hashed (e : Env) (s : Chg) (t : Nat) (w : Who) (x : Bytes) (vs : List PEv) : Prop :=
  ∃ a b c r h pin now, vs = a ++ .base (.login t h w pin now) :: (b ++ c ++ r) ∧
    IsOpen e (libAfter e s a) h ∧ InLogin e (s.run e (a ++ [.base (.login t h w pin now)])) t (b ++ c ++ r) ∧
    (libAfter e s (a ++ .base (.login t h w pin now) :: b)).token.login = .pub ∧
    x = e.store.hash pin (w.acct (libAfter e s (a ++ .base (.login t h w pin now) :: (b ++ c))).token).seed

/-- What the place of a thread says about the schedule so far. -/
def WhyIn (e : Env) (s : Chg) (vs : List PEv) (t : Nat) : Pc → Prop
  | .idle => True
  | .called w pin _ => Called e s t w pin vs
  | .admitted w pin _ | .hashing w pin _ => Admitted e s t w pin vs
  | .comparing w _ _ x => Hashed e s t w x vs
  | .checked w _ _ ok => ok = true → GavePin e s t w vs
  | .keyed _ => GavePin e s t .user vs
  | .entering w => GavePin e s t w vs

theorem InLogin.snoc {e : Env} {s : Chg} {t : Nat} {vs : List PEv} {v : PEv} (h : InLogin e s t vs)
    (hv : (s.run e (vs ++ [v])).base.pc t ≠ .idle) : InLogin e s t (vs ++ [v]) := by
  intro a b hab
  rcases List.eq_nil_or_concat b with rfl | ⟨b', x, rfl⟩
  · rw [List.append_nil] at hab; rw [← hab]; exact hv
  · have : vs ++ [v] = (a ++ b') ++ [x] := by rw [hab]; simp
    exact h a b' (List.append_inj_left' this rfl)

theorem inLogin_nil {e : Env} {s : Chg} {t : Nat} (h : s.base.pc t ≠ .idle) : InLogin e s t [] := by
  intro a b hab
  rw [List.nil_eq_append_iff] at hab
  rw [hab.1]; exact h

theorem Called.snoc {e : Env} {s : Chg} {t : Nat} {w : Who} {pin : Bytes} {vs : List PEv} {v : PEv}
    (h : Called e s t w pin vs) (hv : (s.run e (vs ++ [v])).base.pc t ≠ .idle) : Called e s t w pin (vs ++ [v]) := by
  obtain ⟨a, r, h, now, rfl, h1, h2⟩ := h
  refine ⟨a, r ++ [v], h, now, by simp, h1, h2.snoc ?_⟩
  rw [← run_cons_call]; simpa using hv

theorem Admitted.snoc {e : Env} {s : Chg} {t : Nat} {w : Who} {pin : Bytes} {vs : List PEv} {v : PEv}
    (h : Admitted e s t w pin vs) (hv : (s.run e (vs ++ [v])).base.pc t ≠ .idle) : Admitted e s t w pin (vs ++ [v]) := by
  obtain ⟨a, b, r, h, now, rfl, h1, h2, h3⟩ := h
  refine ⟨a, b, r ++ [v], h, now, by simp, h1, ?_, h3⟩
  rw [← List.append_assoc]
  refine h2.snoc ?_
  rw [← run_cons_call]; simpa using hv

theorem Hashed.snoc {e : Env} {s : Chg} {t : Nat} {w : Who} {x : Bytes} {vs : List PEv} {v : PEv}
    (h : Hashed e s t w x vs) (hv : (s.run e (vs ++ [v])).base.pc t ≠ .idle) : Hashed e s t w x (vs ++ [v]) := by
  obtain ⟨a, b, c, r, h, pin, now, rfl, h1, h2, h3⟩ := h
  refine ⟨a, b, c, r ++ [v], h, pin, now, by simp, h1, ?_, h3⟩
  rw [← List.append_assoc]
  refine h2.snoc ?_
  rw [← run_cons_call]; simpa using hv

theorem GavePin.snoc {e : Env} {s : Chg} {t : Nat} {w : Who} {vs : List PEv} {v : PEv}
    (h : GavePin e s t w vs) (hv : (s.run e (vs ++ [v])).base.pc t ≠ .idle) : GavePin e s t w (vs ++ [v]) := by
  obtain ⟨a, b, c, d, r, h, pin, now, rfl, h1, h2, h3⟩ := h
  refine ⟨a, b, c, d, r ++ [v], h, pin, now, by simp, h1, ?_, h3⟩
  rw [← List.append_assoc]
  refine h2.snoc ?_
  rw [← run_cons_call]; simpa using hv

theorem WhyIn.keep {e : Env} {s : Chg} {vs : List PEv} {t : Nat} {p : Pc} {v : PEv} (h : WhyIn e s vs t p)
    (hv : (s.run e (vs ++ [v])).base.pc t = p) : WhyIn e s (vs ++ [v]) t p := by
  have hn : p ≠ .idle → (s.run e (vs ++ [v])).base.pc t ≠ .idle := fun hp => by rw [hv]; exact hp
  cases p with
  | idle => trivial
  | called w pin now => exact Called.snoc h (hn (by simp))
  | admitted w pin now => exact Admitted.snoc h (hn (by simp))
  | hashing w pin now => exact Admitted.snoc h (hn (by simp))
  | comparing w pin now x => exact Hashed.snoc h (hn (by simp))
  | checked w pin now ok => exact fun hok => GavePin.snoc (h hok) (hn (by simp))
  | keyed now => exact GavePin.snoc h (hn (by simp))
  | entering w => exact GavePin.snoc h (hn (by simp))

theorem conc_at_self (s : Conc) (t : Nat) (p : Pc) : (s.at t p).pc t = p := by simp [Conc.at]

theorem conc_at_other (s : Conc) {t u : Nat} (h : u ≠ t) (p : Pc) : (s.at t p).pc u = s.pc u := by simp [Conc.at, h]

/-- A part of a login, in the machine with PIN changes. -/
theorem base_go (e : Env) (s : Chg) (t : Nat) (hb : s.base.lib.bad = false) :
    (s.step e (.base (.go t))).1.base.pc = (s.base.at t (advance e s.base.lib (s.base.pc t)).2.1).pc := by
  simp only [Chg.step, Conc.step, hb]; rfl

/-- The facts hold after every schedule. -/
theorem whyIn_run (e : Env) (s : Chg) (h₀ : ∀ t, s.base.pc t = .idle) (vs : List PEv) :
    ∀ t, WhyIn e s vs t ((s.run e vs).base.pc t) := by
  suffices H : ∀ rs : List PEv, ∀ t, WhyIn e s rs.reverse t ((s.run e rs.reverse).base.pc t) by
    have := H vs.reverse; rwa [List.reverse_reverse] at this
  intro rs
  induction rs with
  | nil => intro t; show WhyIn e s [] t (s.base.pc t); rw [h₀]; trivial
  | cons v rs ih =>
    rw [List.reverse_cons]
    generalize rs.reverse = ws at ih
    intro t
    by_cases hsame : (s.run e (ws ++ [v])).base.pc t = (s.run e ws).base.pc t
    · rw [hsame]; exact (ih t).keep hsame
    have hstep := chg_run_snoc e s ws v
    have hself : ∀ q, (s.run e (ws ++ [v])).base.pc t = q → q ≠ .idle → (s.run e (ws ++ [v])).base.pc t ≠ .idle :=
      fun q h1 h2 => by rw [h1]; exact h2
    cases v with
    | setPin t' h o n =>
      refine absurd ?_ hsame
      rw [hstep]; simp only [Chg.step]; repeat' split
      all_goals rfl
    | initPin t' h n =>
      refine absurd ?_ hsame
      rw [hstep]; simp only [Chg.step]; repeat' split
      all_goals rfl
    | go t' =>
      refine absurd ?_ hsame
      rw [hstep]; simp only [Chg.step]; repeat' split
      all_goals rfl
    | base v =>
      cases v with
      | call c => exact absurd (by rw [hstep]; rfl) hsame
      | login t' h w pin now =>
        have hq := hstep
        simp only [Chg.step, Conc.step] at hq
        split at hq
        · split at hq
          · exact absurd (by rw [hq]) hsame
          rename_i hb
          split at hq
          · rename_i hid
            have hq' : (s.run e (ws ++ [.base (.login t' h w pin now)])).base.pc t =
                ((s.run e ws).base.at t' (beginLogin (s.run e ws).base.lib h w pin now).1).pc t := by rw [hq]
            by_cases ht : t = t'
            · subst ht
              rw [conc_at_self] at hq'
              rw [hq'] at hsame ⊢
              unfold beginLogin at hsame hq' ⊢
              split; · trivial
              rename_i hc
              split; · trivial
              rename_i hg
              split; · trivial
              rename_i hl
              rw [if_neg hc, if_neg hg, if_neg hl] at hq'
              refine ⟨ws, [], h, now, rfl, ?_, inLogin_nil (hself _ hq' (by simp))⟩
              unfold IsOpen libAfter
              rw [sessionInfo_eq (by simpa using hb) (by omega)]
              cases hg' : getSession (s.run e ws).base.lib h with
              | none => rw [hg'] at hg; exact absurd rfl hg
              | some x => rfl
            · rw [conc_at_other _ ht] at hq'; exact absurd hq' hsame
          · exact absurd (by rw [hq]) hsame
        · exact absurd (by rw [hq]) hsame
      | go t' =>
        have hih := ih t
        have hb : (s.run e ws).base.lib.bad = false := by
          cases hb : (s.run e ws).base.lib.bad with
          | false => rfl
          | true => rw [hstep] at hsame; simp only [Chg.step, Conc.step, hb, if_true] at hsame; exact absurd trivial hsame
        have hgo : (s.run e (ws ++ [.base (.go t')])).base.pc t =
            ((s.run e ws).base.at t' (advance e (s.run e ws).base.lib ((s.run e ws).base.pc t')).2.1).pc t := by
          rw [hstep, base_go e _ t' hb]
        by_cases ht : t = t'
        · subst ht
          rw [conc_at_self] at hgo
          rw [hgo]
          cases hp : (s.run e ws).base.pc t with
          | idle => trivial
          | called w pin now =>
            rw [hp] at hgo hih
            simp only [advance, admit] at hgo ⊢
            split; · trivial
            rename_i hl
            rw [if_neg hl] at hgo
            split; · trivial
            rename_i a ha
            simp only [ha] at hgo
            split; · trivial
            rename_i hr
            rw [if_neg hr] at hgo
            have hne := hself _ hgo (by simp)
            obtain ⟨a, r, h, now', rfl, h1, h2⟩ := hih
            refine ⟨a, r, [.base (.go t)], h, now', by simp, h1, h2.snoc ?_, Decidable.not_not.mp hl⟩
            rw [← run_cons_call]; simpa using hne
          | admitted w pin now =>
            rw [hp] at hgo hih
            simp only [advance] at hgo ⊢
            split; · trivial
            rename_i hl
            rw [if_neg hl] at hgo
            exact Admitted.snoc hih (hself _ hgo (by simp))
          | hashing w pin now =>
            rw [hp] at hgo hih
            have hne := hself _ hgo (by simp [advance])
            obtain ⟨a, b, r, h, now', rfl, h1, h2, h3⟩ := hih
            refine ⟨a, b, r, [.base (.go t)], h, pin, now', by simp, h1, h2.snoc ?_, h3, rfl⟩
            rw [← run_cons_call]; simpa using hne
          | comparing w pin now x =>
            rw [hp] at hgo hih
            have hne := hself _ hgo (by simp [advance])
            intro hok
            have hok := of_decide_eq_true hok
            obtain ⟨a, b, c, r, h, pin', now', rfl, h1, h2, h3, h4⟩ := hih
            refine ⟨a, b, c, r, [.base (.go t)], h, pin', now', by simp, h1, h2.snoc ?_, h3, ?_⟩
            · rw [← run_cons_call]; simpa using hne
            · rw [h4] at hok; exact hok
          | checked w pin now ok =>
            rw [hp] at hgo hih
            cases ok with
            | false => cases w <;> trivial
            | true =>
              cases w with
              | so => exact GavePin.snoc (hih rfl) (hself _ hgo (by simp [advance]))
              | user => exact GavePin.snoc (hih rfl) (hself _ hgo (by simp [advance]))
          | keyed now =>
            rw [hp] at hgo hih
            simp only [advance, unlockObjs] at hgo ⊢
            split
            · rename_i hd
              simp only [hd] at hgo
              exact GavePin.snoc hih (hself _ hgo (by simp))
            · trivial
            · trivial
          | entering w => trivial
        · rw [conc_at_other _ ht] at hgo
          exact absurd hgo hsame

/-! ## What a whole call does to the login state -/

theorem login_callBody {e : Env} {l : Lib} {c : Call} (hc : ∀ h u pin now, c ≠ .sess h (.login u pin now)) :
    (callBody e l c).1.token.login = l.token.login ∨ (callBody e l c).1.token.login = .pub := by
  cases c with
  | cInit =>
    simp only [callBody, cInitialize]
    split
    · right
      show (loadToken e.store l.disk l.uid).login = .pub
      unfold loadToken
      repeat' split
      all_goals rfl
    · exact .inl rfl
  | cFinal =>
    simp only [callBody, cFinalize]
    split
    · exact .inr rfl
    · exact .inl rfl
  | slot i sc =>
    simp only [callBody]
    split; · exact .inl rfl
    split; · exact .inl rfl
    cases sc with
    | tokenInfo p n => simp only [slotCall]; split <;> exact .inl rfl
    | initToken p n =>
      simp only [slotCall, initToken]
      repeat' split
      all_goals first | exact .inl rfl | exact .inr rfl
    | openSession a b c =>
      simp only [slotCall, openSession]
      repeat' split
      all_goals exact .inl rfl
    | closeAll => exact .inl rfl
  | sess k sc =>
    simp only [callBody]
    split; · exact .inl rfl
    split; · exact .inl rfl
    rename_i x _
    by_cases ha : sc.isAccount = false
    · exact .inl (tframe_sessCall e l x sc ha).login
    · cases sc <;> simp only [SessCall.isAccount, not_true_eq_false] at ha <;> simp only [sessCall]
      case close =>
        simp only [closeSession]
        split
        · exact .inl rfl
        · exact .inr rfl
      case logout => exact .inr rfl
      case login u pin now => exact absurd rfl (hc k u pin now)
      case initPin pin =>
        unfold initPin
        repeat' split
        all_goals exact .inl rfl
      case setPin o n =>
        unfold setPin
        repeat' split
        all_goals exact .inl rfl

theorem login_of_step {e : Env} {l : Lib} {c : Call} (hc : ∀ h u pin now, c ≠ .sess h (.login u pin now)) :
    (step e l c).1.token.login = l.token.login ∨ (step e l c).1.token.login = .pub := by
  cases hb : l.bad with
  | true => rw [step_bad hb]; exact .inl rfl
  | false => rw [(step_sessions (e := e) hb c).2.2.1]; exact login_callBody hc

theorem setAcct_login (l : Lib) (w : Who) (a : Account) : (setAcct l w a).token.login = l.token.login := by
  cases w <;> rfl

/-- Only the last part of a login changes the login state. -/
theorem login_advance (e : Env) (l : Lib) (p : Pc) :
    (advance e l p).1.token.login = l.token.login ∨
      ∃ w, p = .entering w ∧ (advance e l p).1.token.login = w.login := by
  cases p with
  | idle => exact .inl rfl
  | called w pin now =>
    simp only [advance, admit]
    split; · exact .inl rfl
    split
    · exact .inl rfl
    · split <;> exact .inl (setAcct_login ..)
  | admitted w pin now => simp only [advance]; split <;> exact .inl rfl
  | hashing w pin now => exact .inl rfl
  | comparing w pin now h => exact .inl rfl
  | checked w pin now ok => cases ok <;> cases w <;> exact .inl rfl
  | keyed now => simp only [advance, unlockObjs]; split <;> exact .inl rfl
  | entering w => exact .inr ⟨w, rfl, rfl⟩

/-- Setting a PIN does not change the login state. -/
theorem login_advanceSet (e : Env) (l : Lib) (raw : Who → Bytes) (p : Sp) :
    (advanceSet e l raw p).1.token.login = l.token.login := by
  cases p with
  | idle => rfl
  | old w o n => simp only [advanceSet]; split <;> rfl
  | oldHash w o n => rfl
  | oldCmp w x n => simp only [advanceSet]; split <;> rfl
  | start w n => cases w <;> rfl
  | seeded w n => rfl
  | hashed w n x =>
    simp only [advanceSet, writePin]
    split
    · rfl
    · exact setAcct_login ..
  | pinned n => rfl
  | keyHashed n k => rfl
  | storing w n =>
    simp only [advanceSet, commitPin]
    exact setAcct_login ..

/-- **C100**.  Any number of threads log in, set PINs and make other calls, their parts
interleaved in any way.  Whenever the security officer or the user becomes logged in, it is by a
thread that is inside `C_Login` for that account, called in an open session, at a moment of which
nobody was logged in, and with a PIN that was found to match. -/
theorem c100_authority (e : Env) (l : Lib) (vs : List PEv) (v : PEv) (hv : LoginsInParts (vs ++ [v])) (w : Who)
    (hin : (libAfter e (calm l) (vs ++ [v])).token.login = w.login)
    (hch : (libAfter e (calm l) vs).token.login ≠ w.login) :
    ∃ t, v = .base (.go t) ∧ GavePin e (calm l) t w vs := by
  have hwhy := whyIn_run e (calm l) (fun _ => rfl) vs
  unfold libAfter at hch hin
  rw [chg_run_snoc] at hin
  generalize hs : (calm l).run e vs = s at hch hin hwhy
  have hpub : w.login ≠ .pub := by cases w <;> simp [Who.login]
  cases v with
  | setPin t h o n =>
    refine absurd ?_ hch
    rw [← hin]; simp only [Chg.step]; repeat' split
    all_goals rfl
  | initPin t h n =>
    refine absurd ?_ hch
    rw [← hin]; simp only [Chg.step]; repeat' split
    all_goals rfl
  | go t =>
    refine absurd ?_ hch
    rw [← hin]; simp only [Chg.step]; split
    · rfl
    · exact (login_advanceSet ..).symm
  | base v =>
    cases v with
    | call c =>
      rcases login_of_step (e := e) (l := s.base.lib) (c := c) (by
        rintro h u pin now rfl
        exact hv h u pin now (by simp)) with h | h
      · exact absurd (h.symm.trans hin) hch
      · exact absurd (hin.symm.trans h) hpub
    | login t h w' pin now =>
      refine absurd ?_ hch
      rw [← hin]; simp only [Chg.step, Conc.step]; repeat' split
      all_goals rfl
    | go t =>
      refine ⟨t, rfl, ?_⟩
      simp only [Chg.step, Conc.step] at hin
      split at hin
      · exact absurd hin hch
      · rcases login_advance e s.base.lib (s.base.pc t) with h | ⟨w', hp, h⟩
        · exact absurd (h.symm.trans hin) hch
        · have : w' = w := by
            have := h.symm.trans hin
            cases w' <;> cases w <;> first | rfl | cases this
          subst this
          have := hwhy t
          rw [hp] at this
          exact this

set_option maxRecDepth 20000 in
/-- A schedule of `c100_authority`: after these events the next part of thread 3 logs in the
security officer, while thread 1 is changing the PIN of the user. -/
example :
    let vs := Demo.pinTurns.take 16
    LoginsInParts (vs ++ [.base (.go 3)]) ∧
    (libAfter Demo.env (calm Demo.pinLib) (vs ++ [.base (.go 3)])).token.login = Who.so.login ∧
    (libAfter Demo.env (calm Demo.pinLib) vs).token.login ≠ Who.so.login := by
  refine ⟨?_, by decide, by decide⟩
  intro h u pin now hm
  simp [Demo.pinTurns] at hm

/-- A thread that was let in and has not returned. -/
def Pc.LetIn : Pc → Prop
  | .idle | .called .. => False
  | _ => True

theorem past_advance {e : Env} {l : Lib} {p : Pc} (h : (advance e l p).2.1.LetIn) :
    (p.LetIn ∧ (advance e l p).1.token.login = l.token.login) ∨
      (l.token.login = .pub ∧ (advance e l p).1.token.login = .pub) := by
  cases p with
  | idle => exact h.elim
  | called w pin now =>
    right
    simp only [advance, admit] at h ⊢
    split at h; · exact h.elim
    rename_i hl
    rw [if_neg hl]
    have hl := Decidable.not_not.mp hl
    split at h; · exact h.elim
    rename_i a ha
    split at h; · exact h.elim
    rename_i hr
    rw [if_neg hr]
    exact ⟨hl, (setAcct_login ..).trans hl⟩
  | entering w => exact h.elim
  | admitted w pin now =>
    exact .inl ⟨trivial, (login_advance e l _).elim id fun ⟨w, h, _⟩ => by cases h⟩
  | hashing w pin now =>
    exact .inl ⟨trivial, (login_advance e l _).elim id fun ⟨w, h, _⟩ => by cases h⟩
  | comparing w pin now x =>
    exact .inl ⟨trivial, (login_advance e l _).elim id fun ⟨w, h, _⟩ => by cases h⟩
  | checked w pin now ok =>
    exact .inl ⟨trivial, (login_advance e l _).elim id fun ⟨w, h, _⟩ => by cases h⟩
  | keyed now =>
    exact .inl ⟨trivial, (login_advance e l _).elim id fun ⟨w, h, _⟩ => by cases h⟩

/-- While the only thread inside a login is past the first check nobody is logged in. -/
theorem past_public (e : Env) (vs : List PEv) (s : Chg) (h₀ : ∀ t, (s.base.pc t).LetIn → s.base.lib.token.login = .pub)
    (hv : LoginsInParts vs) (h1 : OneInLogin e s vs) :
    ∀ t, ((s.run e vs).base.pc t).LetIn → (s.run e vs).base.lib.token.login = .pub := by
  induction vs generalizing s with
  | nil => exact h₀
  | cons v vs ih =>
    refine ih _ ?_ (fun h u pin now hm => hv h u pin now (List.mem_cons_of_mem _ hm)) h1.2
    intro t ht
    cases v with
    | setPin t' h o n =>
      simp only [Chg.step] at ht ⊢
      repeat' split
      all_goals (simp only [*] at ht; exact h₀ t ht)
    | initPin t' h n =>
      simp only [Chg.step] at ht ⊢
      repeat' split
      all_goals (simp only [*] at ht; exact h₀ t ht)
    | go t' =>
      simp only [Chg.step] at ht ⊢
      split at ht
      · rename_i hb
        rw [if_pos hb]; exact h₀ t ht
      · rename_i hb
        rw [if_neg hb]
        exact (login_advanceSet ..).trans (h₀ t ht)
    | base v =>
      cases v with
      | call c =>
        have := h₀ t ht
        rcases login_of_step (e := e) (l := s.base.lib) (c := c) (by
          rintro h u pin now rfl
          exact hv h u pin now (by simp)) with h | h
        · exact h.trans this
        · exact h
      | login t' h w' pin now =>
        simp only [Chg.step, Conc.step] at ht ⊢
        split at ht
        · rename_i h1
          rw [if_pos h1]
          split at ht
          · rename_i hb
            rw [if_pos hb]; exact h₀ t ht
          · rename_i hb
            rw [if_neg hb]
            split at ht
            · rename_i hid
              rw [if_pos hid]
              by_cases htt : t = t'
              · subst htt
                rw [conc_at_self] at ht
                unfold beginLogin at ht
                repeat' split at ht
                all_goals exact ht.elim
              · rw [conc_at_other _ htt] at ht; exact h₀ t ht
            · rename_i hid
              rw [if_neg hid]; exact h₀ t ht
        · rename_i h1
          rw [if_neg h1]; exact h₀ t ht
      | go t' =>
        simp only [Chg.step, Conc.step] at ht ⊢
        split at ht
        · rename_i hb
          rw [if_pos hb]; exact h₀ t ht
        · rename_i hb
          rw [if_neg hb]
          by_cases htt : t = t'
          · subst htt
            rw [conc_at_self] at ht
            rcases past_advance ht with ⟨hp, h⟩ | ⟨_, h⟩
            · exact h.trans (h₀ t hp)
            · exact h
          · rw [conc_at_other _ htt] at ht
            rcases login_advance e s.base.lib (s.base.pc t') with h | ⟨w', hp, h⟩
            · exact h.trans (h₀ t ht)
            · exfalso
              refine htt (h1.1 t t' ?_ ?_)
              · intro hi; rw [hi] at ht; exact ht
              · rw [hp]; simp

theorem oneIn_last {e : Env} {s : Chg} {vs : List PEv} (h : OneInLogin e s vs) (t u : Nat)
    (ht : (s.run e vs).base.pc t ≠ .idle) (hu : (s.run e vs).base.pc u ≠ .idle) : t = u := by
  induction vs generalizing s with
  | nil => exact h t u ht hu
  | cons v vs ih => exact ih h.2 ht hu

/-- **C101**, for the schedules in which no two threads are inside `C_Login`: when `C_Login`
returns `CKR_OK`, nobody was logged in before, and the one whose PIN was given is now.

What is missing: logins at the same time; there it is false (`c101_violated`). -/
theorem c101_partial (e : Env) (l : Lib) (vs : List PEv) (t : Nat) (hv : LoginsInParts vs)
    (h1 : OneInLogin e (calm l) vs) (hok : (((calm l).run e vs).step e (.base (.go t))).2 = some .ok) :
    ∃ w, (((calm l).run e vs).base.pc t).who = some w ∧ (libAfter e (calm l) vs).token.login = .pub ∧
      (libAfter e (calm l) (vs ++ [.base (.go t)])).token.login = w.login := by
  have hp := past_public e vs (calm l) (fun t h => h.elim) hv h1 t
  unfold libAfter
  rw [chg_run_snoc]
  generalize (calm l).run e vs = s at hok hp ⊢
  simp only [Chg.step, Conc.step] at hok ⊢
  split at hok
  · cases hok
  rename_i hb
  rw [if_neg hb]
  cases hpc : s.base.pc t with
  | idle => rw [hpc] at hok; cases hok
  | called w pin now =>
    rw [hpc] at hok; simp only [advance, admit] at hok
    repeat' split at hok
    all_goals cases hok
  | admitted w pin now =>
    rw [hpc] at hok; simp only [advance] at hok
    split at hok <;> cases hok
  | hashing w pin now => rw [hpc] at hok; cases hok
  | comparing w pin now x => rw [hpc] at hok; cases hok
  | checked w pin now ok =>
    rw [hpc] at hok
    cases ok <;> cases w <;> cases hok
  | keyed now =>
    rw [hpc] at hok; simp only [advance, unlockObjs] at hok
    repeat' split at hok
    all_goals cases hok
  | entering w =>
    rw [hpc] at hp
    exact ⟨w, rfl, hp trivial, rfl⟩

set_option maxRecDepth 20000 in
/-- A schedule of `c101_partial`: a login as user with a PIN change of another thread in between,
after which the next part returns `CKR_OK`. -/
example :
    let vs : List PEv := [.base (.login 1 65538 .so Demo.soPin 0), .base (.go 1), .setPin 2 65538 Demo.userPin Demo.pinA] ++
      List.replicate 4 (.base (.go 1)) ++ [.go 2]
    LoginsInParts vs ∧ (((calm Demo.pinLib).run Demo.env vs).step Demo.env (.base (.go 1))).2 = some .ok := by
  refine ⟨?_, by decide⟩
  intro h u pin now hm
  simp at hm

set_option maxRecDepth 20000 in
/-- **C101 is violated**: one thread logs in as security officer and one as user, at the same
time and with the right PINs.  Both calls return `CKR_OK`; the one that ends last decides who is
logged in, and the other thread, told that it is logged in as user, is now the security officer. -/
theorem c101_violated :
    let vs : List PEv := [.base (.login 1 65538 .user Demo.userPin 0), .base (.go 1), .base (.login 2 65538 .so Demo.soPin 0), .base (.go 2)] ++
      List.replicate 6 (.base (.go 1)) ++ List.replicate 5 (.base (.go 2))
    ∃ s, s = calm Demo.pinLib ∧ s.returns Demo.env vs = [.ok, .ok] ∧
    stateOf Demo.env (libAfter Demo.env s vs) 65538 = some .rwSo := by
  refine ⟨_, rfl, by decide, by decide⟩

end Verif
