import Verif.Props.ConcPin
import Verif.Spec.ConcAuth

/-!
# Who changes a PIN, when several threads do (C99)
-/

namespace Verif

theorem chg_run_append (e : Env) (s : Chg) (vs ws : List PEv) : s.run e (vs ++ ws) = (s.run e vs).run e ws := by
  induction vs generalizing s with
  | nil => rfl
  | cons v vs ih => exact ih _

/-- The thread has called `C_SetPIN` (first half of `WithOldPin`). -/
def Asked (e : Env) (s : Chg) (t : Nat) (w : Who) (o : Bytes) (vs : List PEv) : Prop :=
  ∃ a b h n, vs = a ++ .setPin t h o n :: b ∧
    Changes e (libAfter e s a) h w ∧
    Inside e (s.run e (a ++ [.setPin t h o n])) t b

/-- The thread has called `C_SetPIN` and hashed the old PIN. -/
def AskedHash (e : Env) (s : Chg) (t : Nat) (w : Who) (x : Bytes) (vs : List PEv) : Prop :=
  ∃ a b c h o n, vs = a ++ .setPin t h o n :: (b ++ c) ∧
    Changes e (libAfter e s a) h w ∧
    Inside e (s.run e (a ++ [.setPin t h o n])) t (b ++ c) ∧
    x = e.store.hash o (w.acct (libAfter e s (a ++ .setPin t h o n :: b)).token).seed

/-- What the place of a thread says about the schedule so far. -/
def Why (e : Env) (s : Chg) (vs : List PEv) (t : Nat) : Sp → Prop
  | .idle => True
  | .old w o _ | .oldHash w o _ => Asked e s t w o vs
  | .oldCmp w x _ => AskedHash e s t w x vs
  | .start w _ | .seeded w _ | .hashed w _ _ | .storing w _ => AsOfficer e s t w vs ∨ WithOldPin e s t w vs
  | .pinned _ | .keyHashed _ _ => AsOfficer e s t .user vs ∨ WithOldPin e s t .user vs

theorem Inside.snoc {e : Env} {s : Chg} {t : Nat} {vs : List PEv} {v : PEv} (h : Inside e s t vs)
    (hv : (s.run e (vs ++ [v])).sp t ≠ .idle) : Inside e s t (vs ++ [v]) := by
  intro a b hab
  rcases List.eq_nil_or_concat b with rfl | ⟨b', x, rfl⟩
  · rw [List.append_nil] at hab; rw [← hab]; exact hv
  · have : vs ++ [v] = (a ++ b') ++ [x] := by rw [hab]; simp
    exact h a b' (List.append_inj_left' this rfl)

theorem inside_nil {e : Env} {s : Chg} {t : Nat} (h : s.sp t ≠ .idle) : Inside e s t [] := by
  intro a b hab
  rw [List.nil_eq_append_iff] at hab
  rw [hab.1]; exact h

theorem run_cons_call (e : Env) (s : Chg) (a : List PEv) (c : PEv) (b : List PEv) :
    s.run e (a ++ c :: b) = (s.run e (a ++ [c])).run e b := by
  rw [← chg_run_append]; simp

theorem Asked.snoc {e : Env} {s : Chg} {t : Nat} {w : Who} {o : Bytes} {vs : List PEv} {v : PEv}
    (h : Asked e s t w o vs) (hv : (s.run e (vs ++ [v])).sp t ≠ .idle) : Asked e s t w o (vs ++ [v]) := by
  obtain ⟨a, b, h, n, rfl, h1, h2⟩ := h
  refine ⟨a, b ++ [v], h, n, by simp, h1, h2.snoc ?_⟩
  rw [← run_cons_call]; simpa using hv

theorem AskedHash.snoc {e : Env} {s : Chg} {t : Nat} {w : Who} {o : Bytes} {vs : List PEv} {v : PEv}
    (h : AskedHash e s t w o vs) (hv : (s.run e (vs ++ [v])).sp t ≠ .idle) : AskedHash e s t w o (vs ++ [v]) := by
  obtain ⟨a, b, c, h, o, n, rfl, h1, h2, h3⟩ := h
  refine ⟨a, b, c ++ [v], h, o, n, by simp, h1, ?_, h3⟩
  rw [← List.append_assoc]
  refine h2.snoc ?_
  rw [← run_cons_call]; simpa using hv

theorem AsOfficer.snoc {e : Env} {s : Chg} {t : Nat} {w : Who} {vs : List PEv} {v : PEv}
    (h : AsOfficer e s t w vs) (hv : (s.run e (vs ++ [v])).sp t ≠ .idle) : AsOfficer e s t w (vs ++ [v]) := by
  obtain ⟨h0, a, b, h, n, rfl, h1, h2⟩ := h
  refine ⟨h0, a, b ++ [v], h, n, by simp, h1, h2.snoc ?_⟩
  rw [← run_cons_call]; simpa using hv

theorem WithOldPin.snoc {e : Env} {s : Chg} {t : Nat} {w : Who} {vs : List PEv} {v : PEv}
    (h : WithOldPin e s t w vs) (hv : (s.run e (vs ++ [v])).sp t ≠ .idle) : WithOldPin e s t w (vs ++ [v]) := by
  obtain ⟨a, b, c, d, h, o, n, rfl, h1, h2, h3⟩ := h
  refine ⟨a, b, c, d ++ [v], h, o, n, by simp, h1, ?_, h3⟩
  rw [← List.append_assoc]
  refine h2.snoc ?_
  rw [← run_cons_call]; simpa using hv

theorem Why.keep {e : Env} {s : Chg} {vs : List PEv} {t : Nat} {p : Sp} {v : PEv} (h : Why e s vs t p)
    (hv : (s.run e (vs ++ [v])).sp t = p) : Why e s (vs ++ [v]) t p := by
  have hn : p ≠ .idle → (s.run e (vs ++ [v])).sp t ≠ .idle := fun hp => by rw [hv]; exact hp
  cases p with
  | idle => trivial
  | old w o n => exact Asked.snoc h (hn (by simp))
  | oldHash w o n => exact Asked.snoc h (hn (by simp))
  | oldCmp w x n => exact AskedHash.snoc h (hn (by simp))
  | start w n => exact h.imp (·.snoc (hn (by simp))) (·.snoc (hn (by simp)))
  | seeded w n => exact h.imp (·.snoc (hn (by simp))) (·.snoc (hn (by simp)))
  | hashed w n x => exact h.imp (·.snoc (hn (by simp))) (·.snoc (hn (by simp)))
  | storing w n => exact h.imp (·.snoc (hn (by simp))) (·.snoc (hn (by simp)))
  | pinned n => exact h.imp (·.snoc (hn (by simp))) (·.snoc (hn (by simp)))
  | keyHashed n k => exact h.imp (·.snoc (hn (by simp))) (·.snoc (hn (by simp)))

theorem chg_run_snoc (e : Env) (s : Chg) (vs : List PEv) (v : PEv) :
    s.run e (vs ++ [v]) = ((s.run e vs).step e v).1 := by rw [chg_run_append]; rfl

theorem state_of {e : Env} {l : Lib} (hb : l.bad = false) (hc : ¬ l.count ≤ 0) {h : Nat} {x : Session}
    (hx : getSession l h = some x) : stateOf e l h = some (sessState l x) := by
  unfold stateOf
  rw [sessionInfo_eq hb (by omega), hx]
  rfl

/-- The facts hold after every schedule. -/
theorem why_run (e : Env) (s : Chg) (h₀ : ∀ t, s.sp t = .idle) (vs : List PEv) :
    ∀ t, Why e s vs t ((s.run e vs).sp t) := by
  suffices H : ∀ rs : List PEv, ∀ t, Why e s rs.reverse t ((s.run e rs.reverse).sp t) by
    have := H vs.reverse; rwa [List.reverse_reverse] at this
  intro rs
  induction rs with
  | nil => intro t; show Why e s [] t (s.sp t); rw [h₀]; trivial
  | cons v rs ih =>
    rw [List.reverse_cons]
    generalize rs.reverse = ws at ih
    intro t
    by_cases hsame : (s.run e (ws ++ [v])).sp t = (s.run e ws).sp t
    · rw [hsame]; exact (ih t).keep hsame
    have hstep := chg_run_snoc e s ws v
    have hself : ∀ q, (s.run e (ws ++ [v])).sp t = q → q ≠ .idle → (s.run e (ws ++ [v])).sp t ≠ .idle :=
      fun q h1 h2 => by rw [h1]; exact h2
    cases v with
    | base v =>
      refine absurd ?_ hsame
      rw [hstep]
      cases v with
      | login t' h w pin now => simp only [Chg.step]; split <;> rfl
      | call c => rfl
      | go t' => rfl
    | setPin t' h o n =>
      rw [hstep] at hsame ⊢
      simp only [Chg.step] at hsame ⊢
      split at hsame; · exact absurd rfl hsame
      rename_i hb
      split at hsame
      · rename_i hid
        rw [if_neg hb, if_pos hid]
        by_cases ht : t = t'
        · subst ht
          have hid' := hid.1
          rw [chg_at_self] at hsame ⊢
          have hq : (s.run e (ws ++ [.setPin t h o n])).sp t = (beginSet (s.run e ws).base.lib h o n).1 := by
            rw [hstep]; simp only [Chg.step]; rw [if_neg hb, if_pos hid, chg_at_self]
          unfold beginSet at hsame hq ⊢
          split at hsame; · exact absurd hid'.symm hsame
          rename_i hc
          rw [if_neg hc] at hq ⊢
          cases hg : getSession (s.run e ws).base.lib h with
          | none => trivial
          | some x =>
            simp only [hg] at hq ⊢
            have hst := state_of (e := e) (by simpa using hb) hc hg
            split; · trivial
            rename_i h1
            split; · trivial
            rename_i h2
            rw [if_neg h1, if_neg h2] at hq
            cases hs : sessState (s.run e ws).base.lib x with
            | rwSo =>
              rw [hs] at hq hst
              exact ⟨ws, [], h, n, rfl, hst, inside_nil (hself _ hq (by simp))⟩
            | rwUser =>
              rw [hs] at hq hst
              exact ⟨ws, [], h, n, rfl, .inl hst, inside_nil (hself _ hq (by simp))⟩
            | rwPublic =>
              rw [hs] at hq hst
              exact ⟨ws, [], h, n, rfl, .inr hst, inside_nil (hself _ hq (by simp))⟩
            | roUser => trivial
            | roPublic => trivial
        · rw [chg_at_other _ ht] at hsame; exact absurd rfl hsame
      · exact absurd rfl hsame
    | initPin t' h n =>
      rw [hstep] at hsame ⊢
      simp only [Chg.step] at hsame ⊢
      split at hsame; · exact absurd rfl hsame
      rename_i hb
      split at hsame
      · rename_i hid
        rw [if_neg hb, if_pos hid]
        by_cases ht : t = t'
        · subst ht
          have hid' := hid.1
          rw [chg_at_self] at hsame ⊢
          have hq : (s.run e (ws ++ [.initPin t h n])).sp t = (beginInit (s.run e ws).base.lib h n).1 := by
            rw [hstep]; simp only [Chg.step]; rw [if_neg hb, if_pos hid, chg_at_self]
          unfold beginInit at hsame hq ⊢
          split at hsame; · exact absurd hid'.symm hsame
          rename_i hc
          rw [if_neg hc] at hq ⊢
          cases hg : getSession (s.run e ws).base.lib h with
          | none => trivial
          | some x =>
            simp only [hg] at hq ⊢
            have hst := state_of (e := e) (by simpa using hb) hc hg
            split; · trivial
            rename_i h1
            split; · trivial
            rename_i h2
            rw [if_neg h1, if_neg h2] at hq
            have h1 : sessState (s.run e ws).base.lib x = .rwSo := Decidable.not_not.mp h1
            rw [h1] at hst
            exact .inl ⟨rfl, ws, [], h, n, rfl, hst, inside_nil (hself _ hq (by simp))⟩
        · rw [chg_at_other _ ht] at hsame; exact absurd rfl hsame
      · exact absurd rfl hsame
    | go t' =>
      have hih := ih t
      rw [hstep] at hsame
      have hb : (s.run e ws).base.lib.bad = false := by
        cases hb : (s.run e ws).base.lib.bad with
        | false => rfl
        | true => simp only [Chg.step, hb, if_true] at hsame; exact absurd trivial hsame
      have hgo : (s.run e (ws ++ [.go t'])).sp t =
          (Chg.at { (s.run e ws) with base := { (s.run e ws).base with lib := (advanceSet e (s.run e ws).base.lib (s.run e ws).raw ((s.run e ws).sp t')).1 }, raw := (advanceSet e (s.run e ws).base.lib (s.run e ws).raw ((s.run e ws).sp t')).2.1 } t' (advanceSet e (s.run e ws).base.lib (s.run e ws).raw ((s.run e ws).sp t')).2.2.1).sp t := by
        rw [hstep]; simp only [Chg.step, hb]; rfl
      by_cases ht : t = t'
      · subst ht
        rw [chg_at_self] at hgo
        rw [hgo]
        cases hp : (s.run e ws).sp t with
        | idle => trivial
        | old w o n =>
          rw [hp] at hgo hih
          simp only [advanceSet] at hgo ⊢
          split
          · trivial
          · rename_i hn
            rw [if_neg hn] at hgo
            exact Asked.snoc hih (hself _ hgo (by simp))
        | oldHash w o n =>
          rw [hp] at hgo hih
          obtain ⟨a, b, h, n', rfl, h1, h2⟩ := hih
          have := hself _ hgo (by simp [advanceSet])
          refine ⟨a, b, [.go t], h, o, n', by simp, h1, h2.snoc ?_, rfl⟩
          rw [← run_cons_call]; simpa using this
        | oldCmp w x n =>
          rw [hp] at hgo hih
          simp only [advanceSet] at hgo ⊢
          split
          · rename_i hm
            rw [if_pos hm] at hgo
            obtain ⟨a, b, c, h, o, n', rfl, h1, h2, h3⟩ := hih
            have := hself _ hgo (by simp)
            refine .inr ⟨a, b, c, [.go t], h, o, n', by simp, h1, h2.snoc ?_, ?_⟩
            · rw [← run_cons_call]; simpa using this
            · rw [h3] at hm; exact hm
          · trivial
        | start w n =>
          rw [hp] at hgo hih
          have := hself _ hgo (by simp [advanceSet])
          exact hih.imp (·.snoc this) (·.snoc this)
        | seeded w n =>
          rw [hp] at hgo hih
          have := hself _ hgo (by simp [advanceSet])
          exact hih.imp (·.snoc this) (·.snoc this)
        | hashed w n x =>
          rw [hp] at hgo hih
          cases w with
          | so =>
            have := hself _ hgo (by simp [advanceSet, afterHash])
            exact hih.imp (·.snoc this) (·.snoc this)
          | user =>
            have := hself _ hgo (by simp [advanceSet, afterHash])
            exact hih.imp (·.snoc this) (·.snoc this)
        | storing w n => trivial
        | pinned n =>
          rw [hp] at hgo hih
          have := hself _ hgo (by simp [advanceSet])
          exact hih.imp (·.snoc this) (·.snoc this)
        | keyHashed n k =>
          rw [hp] at hgo hih
          have := hself _ hgo (by simp [advanceSet])
          exact hih.imp (·.snoc this) (·.snoc this)
      · rw [chg_at_other _ ht] at hgo
        exact absurd (by rw [← hstep]; exact hgo) hsame

/-- **C99**.  Any number of threads log in, set PINs and make other calls (that do not load or
reset the token), their parts interleaved in any way.  Whenever the stored PIN of an account
becomes another one, it is by a thread that is inside `C_InitPIN`, called in a session of the
security officer (and then it is the user's PIN), or inside `C_SetPIN`, called with an old PIN
that was found to match. -/
theorem c99_authority (e : Env) (l : Lib) (vs : List PEv) (v : PEv) (hv : OnlyParts (vs ++ [v])) (w : Who)
    (hch : (w.acct (libAfter e (calm l) (vs ++ [v])).token).pin ≠ (w.acct (libAfter e (calm l) vs).token).pin) :
    ∃ t, v = .go t ∧ (AsOfficer e (calm l) t w vs ∨ WithOldPin e (calm l) t w vs) := by
  have hwhy := why_run e (calm l) (fun _ => rfl) vs
  unfold libAfter at hch
  rw [chg_run_snoc] at hch
  generalize hs : (calm l).run e vs = s at hch hwhy
  cases v with
  | base v =>
    refine absurd ?_ hch
    have hk : ∀ c, v = .call c → KeepsPins c := fun c hc => hv c (by rw [hc]; simp)
    have : KeptPins s.base.lib.token (s.step e (.base v)).1.base.lib.token := by
      cases v with
      | call c => exact keptPins_step (hk c rfl)
      | login t h w pin now =>
        simp only [Chg.step, Conc.step]
        split
        · split
          · exact .refl _
          · split <;> exact .refl _
        · exact .refl _
      | go t =>
        simp only [Chg.step, Conc.step]
        split
        · exact .refl _
        · exact keptPins_advance _ _ _
    exact (this.at w).1
  | setPin t h o n =>
    refine absurd ?_ hch
    simp only [Chg.step]
    split
    · rfl
    · split <;> rfl
  | initPin t h n =>
    refine absurd ?_ hch
    simp only [Chg.step]
    split
    · rfl
    · split <;> rfl
  | go t =>
    refine ⟨t, rfl, ?_⟩
    simp only [Chg.step] at hch
    split at hch
    · exact absurd rfl hch
    have hw := hwhy t
    cases hp : s.sp t with
    | idle => rw [hp] at hch; exact absurd rfl hch
    | old x o n =>
      rw [hp] at hch; simp only [advanceSet] at hch
      split at hch <;> exact absurd rfl hch
    | oldHash x o n => rw [hp] at hch; exact absurd rfl hch
    | oldCmp x o n =>
      rw [hp] at hch; simp only [advanceSet] at hch
      split at hch <;> exact absurd rfl hch
    | start x n =>
      rw [hp] at hch
      exact absurd (drawSeeds_pin e s.base.lib x w) hch
    | seeded x n => rw [hp] at hch; exact absurd rfl hch
    | hashed x n y =>
      rw [hp] at hch hw
      by_cases hx : w = x
      · subst hx; exact hw
      · refine absurd ?_ hch
        show (w.acct (writePin s.base.lib x y).token).pin = _
        rw [writePin_acct]
        simp [hx]
    | pinned n => rw [hp] at hch; exact absurd rfl hch
    | keyHashed n k => rw [hp] at hch; cases w <;> exact absurd rfl hch
    | storing x n =>
      rw [hp] at hch hw
      by_cases hx : w = x
      · subst hx; exact hw
      · refine absurd ?_ hch
        show (w.acct (commitPin e s.base.lib x (s.raw x)).1.token).pin = _
        rw [commit_acct]
        simp [hx]

/-! ## `C_InitPIN` made without interruption is the call -/

/-- `C_InitPIN` of thread `t`, all parts. -/
def wholeInit (t h : Nat) (new : Bytes) : List PEv := .initPin t h new :: List.replicate 6 (.go t)

/-- A `C_InitPIN` no other thread interrupts is the call of the sequential model: the same
library afterwards, the same status returned once, the thread outside the call again. -/
theorem initPin_alone (e : Env) (s : Chg) (t h : Nat) (new : Bytes) (hb : s.base.lib.bad = false)
    (ht : s.sp t = .idle) (ht' : s.base.pc t = .idle) :
    (s.run e (wholeInit t h new)).base =
      { s.base with lib := (step e s.base.lib (.sess h (.initPin (some new)))).1 } ∧
    (s.run e (wholeInit t h new)).sp = s.sp ∧
    s.returns e (wholeInit t h new) = [(step e s.base.lib (.sess h (.initPin (some new)))).2.rv] := by
  simp only [wholeInit, Chg.run, Chg.returns]
  have hs : s.step e (.initPin t h new) =
      (s.at t (beginInit s.base.lib h new).1, (beginInit s.base.lib h new).2) := by
    simp only [Chg.step, hb, ht, ht']; rfl
  rw [hs]
  have key : ∀ r, callBody e s.base.lib (.sess h (.initPin (some new))) = r → r.2.rv ≠ .ub →
      step e s.base.lib (.sess h (.initPin (some new))) = r := by
    rintro r rfl hu
    unfold step
    simp only [hb, Bool.false_eq_true, if_false]
    rw [if_neg hu]
  have back : ∀ rv : RV, beginInit s.base.lib h new = (.idle, some rv) → rv ≠ .ub →
      callBody e s.base.lib (.sess h (.initPin (some new))) = (s.base.lib, { rv := rv }) →
      ((s.at t (beginInit s.base.lib h new).1).run e (List.replicate 6 (.go t))).base =
        { s.base with lib := (step e s.base.lib (.sess h (.initPin (some new)))).1 } ∧
      ((s.at t (beginInit s.base.lib h new).1).run e (List.replicate 6 (.go t))).sp = s.sp ∧
      (beginInit s.base.lib h new).2.toList ++
        (s.at t (beginInit s.base.lib h new).1).returns e (List.replicate 6 (.go t)) =
        [(step e s.base.lib (.sess h (.initPin (some new)))).2.rv] := by
    intro rv h1 hu h2
    rw [key _ h2 hu, h1]
    dsimp only
    rw [chg_at_id ht, (chg_idle_goes ht 6).1, (chg_idle_goes ht 6).2]
    exact ⟨rfl, rfl, rfl⟩
  by_cases h1 : s.base.lib.count ≤ 0
  · exact back .cryptokiNotInitialized (by unfold beginInit; rw [if_pos h1]) (by simp)
      (by simp only [callBody, if_pos h1])
  cases hg : getSession s.base.lib h with
  | none =>
    exact back .sessionHandleInvalid (by unfold beginInit; rw [if_neg h1, hg]) (by simp)
      (by simp only [callBody, if_neg h1, hg])
  | some x =>
    by_cases h2 : sessState s.base.lib x ≠ .rwSo
    · exact back .userNotLoggedIn (by unfold beginInit; rw [if_neg h1, hg]; dsimp only; rw [if_pos h2]) (by simp)
        (by simp only [callBody, if_neg h1, hg, sessCall, initPin]; rw [if_pos h2])
    by_cases h3 : (!pinLenOk new) = true
    · exact back .pinIncorrect (by unfold beginInit; rw [if_neg h1, hg]; dsimp only; rw [if_neg h2, if_pos h3]) (by simp)
        (by simp only [callBody, if_neg h1, hg, sessCall, initPin]; rw [if_neg h2, if_pos h3])
    have hbg : beginInit s.base.lib h new = (.start .user new, none) := by
      unfold beginInit; rw [if_neg h1, hg]; dsimp only; rw [if_neg h2, if_neg h3]
    have hcb : callBody e s.base.lib (.sess h (.initPin (some new))) = pinSet (setUserPin e s.base.lib new) := by
      simp only [callBody, if_neg h1, hg, sessCall, initPin]; rw [if_neg h2, if_neg h3]
    obtain ⟨raw', hf⟩ := finish_start e s.base.lib s.raw .user new 0
    obtain ⟨g1, g2⟩ := chg_goes (e := e) (s := s.at t (.start .user new)) (t := t) 6 hb
    rw [hbg]
    dsimp only
    rw [g1, g2, chg_at_self]
    rw [show finishSet e 6 (s.at t (.start .user new)).base.lib (s.at t (.start .user new)).raw (.start .user new) = _ from hf]
    rw [key _ hcb (pinSet_ub _)]
    have hsp : ∀ (b : Conc) (r : Who → Bytes), (Chg.at ⟨b, r, (s.at t (.start .user new)).sp⟩ t .idle).sp = s.sp := by
      intro b r
      show (Chg.at (Chg.at ⟨b, r, s.sp⟩ t (.start .user new)) t .idle).sp = _
      rw [chg_at_at, chg_at_id (s := ⟨b, r, s.sp⟩) ht]
    exact ⟨rfl, hsp _ _, rfl⟩

set_option maxRecDepth 20000 in
/-- A schedule of `c99_authority`: after these events the next part of thread 1 changes the PIN
of the user. -/
example :
    let vs := Demo.pinTurns.take 9
    OnlyParts (vs ++ [.go 1]) ∧
    (Who.user.acct (libAfter Demo.env (calm Demo.pinLib) (vs ++ [.go 1])).token).pin ≠
      (Who.user.acct (libAfter Demo.env (calm Demo.pinLib) vs).token).pin := by
  refine ⟨?_, by decide⟩
  intro c hc
  simp [Demo.pinTurns] at hc

end Verif
