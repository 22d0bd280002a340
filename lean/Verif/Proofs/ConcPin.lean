import Verif.Spec.ConcPin
import Verif.Proofs.Conc

/-!
# Lemmas about PIN changes of several threads
-/

namespace Verif

/-- The library with nobody logged in. -/
def unlog (l : Lib) : Lib := { l with token := { l.token with login := .pub } }

/-- The shape of the list of sessions, whoever is logged in. -/
def WInv (l : Lib) : Prop := SInv (unlog l)

theorem SInv.winv {l : Lib} (h : SInv l) : WInv l := ⟨h.shape, h.idle, fun h => by cases h⟩

theorem WInv.of {l l' : Lib} (h : WInv l) (hs : l'.sessions = l.sessions) (hc : l'.count = l.count) : WInv l' :=
  ⟨by
    show (l'.count ≤ 0 ∧ l'.sessions = []) ∨ (0 < l'.count ∧ ∃ n, 2 ≤ n ∧ n ≤ 70 ∧ handles l'.sessions = down n)
    rw [hs, hc]; exact h.shape, by
    show ∀ s ∈ l'.sessions, _
    rw [hs]; exact h.idle, fun h => by cases h⟩

/-- Where nobody is logged in it is the invariant of the histories. -/
theorem WInv.sinv {l : Lib} (h : WInv l) (hl : l.token.login = .pub) : SInv l :=
  ⟨h.shape, h.idle, fun hx => by rw [hl] at hx; cases hx⟩

theorem WInv.callBody {l : Lib} (hi : WInv l) (e : Env) (c : Call) : WInv (callBody e l c).1 := by
  cases c with
  | cInit =>
    have hx := SInv.callBody hi e .cInit
    by_cases h0 : l.count = 0
    · refine hx.winv.of ?_ ?_
      · simp only [Verif.callBody, cInitialize, if_pos h0, if_pos (show (unlog l).count = 0 from h0)]
      · simp only [Verif.callBody, cInitialize, if_pos h0, if_pos (show (unlog l).count = 0 from h0)]; rfl
    · refine hx.winv.of ?_ ?_
      · simp only [Verif.callBody, cInitialize, if_neg h0, if_neg (show ¬ (unlog l).count = 0 from h0)]; rfl
      · simp only [Verif.callBody, cInitialize, if_neg h0, if_neg (show ¬ (unlog l).count = 0 from h0)]; rfl
  | cFinal =>
    have hx := SInv.callBody hi e .cFinal
    by_cases h0 : l.count - 1 = 0
    · refine hx.winv.of ?_ ?_
      · simp only [Verif.callBody, cFinalize, if_pos h0, if_pos (show (unlog l).count - 1 = 0 from h0)]
      · simp only [Verif.callBody, cFinalize, if_pos h0, if_pos (show (unlog l).count - 1 = 0 from h0)]; rfl
    · refine hx.winv.of ?_ ?_
      · simp only [Verif.callBody, cFinalize, if_neg h0, if_neg (show ¬ (unlog l).count - 1 = 0 from h0)]; rfl
      · simp only [Verif.callBody, cFinalize, if_neg h0, if_neg (show ¬ (unlog l).count - 1 = 0 from h0)]; rfl
  | slot i sc =>
    simp only [Verif.callBody]
    split; · exact hi
    split; · exact hi
    rename_i h1 h2
    have hx := SInv.callBody hi e (.slot i sc)
    have hb : Verif.callBody e (unlog l) (.slot i sc) = slotCall e (unlog l) sc := by
      simp only [Verif.callBody]
      rw [if_neg (show ¬ (unlog l).count ≤ 0 from h1), if_neg h2]
    rw [hb] at hx
    cases sc with
    | tokenInfo => simp only [slotCall]; split <;> exact hi
    | initToken p lab =>
      obtain ⟨h1, h2, _⟩ := initToken_sessions e l p lab
      exact hi.of h1 h2
    | openSession rw a b =>
      simp only [slotCall] at hx ⊢
      split; · exact hi
      split; · exact hi
      rename_i g1 g2
      rw [if_neg g1, if_neg g2] at hx
      by_cases hso : (!rw && l.token.login == .so) = true
      · unfold Verif.openSession; dsimp only; rw [if_pos hso]; exact hi
      have hu : ¬ (!rw && (unlog l).token.login == .so) = true := by
        show ¬ (!rw && (Login.pub == Login.so)) = true
        cases rw <;> simp
      unfold Verif.openSession at hx ⊢
      dsimp only at hx ⊢
      rw [if_neg hu, show (unlog l).sessions = l.sessions from rfl] at hx
      rw [if_neg hso]
      cases hf : l.sessions.find? fun s => s.use == .no with
      | some s => rw [hf] at hx; exact hx.winv.of rfl rfl
      | none =>
        rw [hf] at hx
        dsimp only at hx ⊢
        by_cases hm : (l.sessions.head?.any fun s => sessId s.handle == sessMax) = true
        · rw [if_pos hm]; exact hi
        rw [if_neg hm] at hx ⊢
        cases ha : addSession l.sessions with
        | nil => exact hi
        | cons s rest => rw [ha] at hx; exact hx.winv.of rfl rfl
    | closeAll => exact hx.winv.of rfl rfl
  | sess k sc =>
    simp only [Verif.callBody]
    split; · exact hi
    rename_i hc
    split; · exact hi
    rename_i s hs
    have hsh := (getSession_handle hs).1
    by_cases hcl : sc = .close
    · subst hcl
      have hx := SInv.callBody hi e (.sess k .close)
      have hb : Verif.callBody e (unlog l) (.sess k .close) = closeSession e (unlog l) s.handle := by
        simp only [Verif.callBody]
        rw [if_neg (show ¬ (unlog l).count ≤ 0 from hc), show getSession (unlog l) k = some s from hs]
        rfl
      rw [hb] at hx
      refine hx.winv.of ?_ ?_
      · simp only [sessCall]
        rw [(closeSession_sessions e l s.handle).1, (closeSession_sessions e (unlog l) s.handle).1]; rfl
      · simp only [sessCall]
        rw [(closeSession_sessions e l s.handle).2, (closeSession_sessions e (unlog l) s.handle).2]; rfl
    · have hf := frame_sessCall e l s sc hcl
      have hf' : Frame s.handle (unlog l) (unlog (sessCall e l s sc).1) := ⟨hf.count, hf.sess⟩
      exact SInv.frame hi hf' (hsh.symm ▸ hs) (fun h => by cases h)

theorem WInv.step {l : Lib} (hi : WInv l) (e : Env) (c : Call) : WInv (step e l c).1 := by
  unfold Verif.step
  split
  · exact hi
  · dsimp only
    split
    · exact (hi.callBody e c).of rfl rfl
    · exact hi.callBody e c

/-- The PINs, as the token keeps them, and that it is initialised. -/
structure KeptPins (t t' : Token) : Prop where
  so : SamePin t.so t'.so
  user : SamePin t.user t'.user
  init : t'.init = t.init

theorem KeptPins.refl (t : Token) : KeptPins t t := ⟨⟨rfl, rfl⟩, ⟨rfl, rfl⟩, rfl⟩

theorem KeptPins.at {t t' : Token} (h : KeptPins t t') (w : Who) : SamePin (w.acct t) (w.acct t') := by
  cases w
  · exact h.so
  · exact h.user

/-- The calls that are not about PINs do not change them. -/
theorem keptPins_callBody {e : Env} {l : Lib} {c : Call} (hc : KeepsPins c) :
    KeptPins l.token (callBody e l c).1.token := by
  by_cases hacc : c.onAccounts = false
  · have hs := sameAcct_callBody e l c hacc
    exact ⟨by rw [hs.so]; exact ⟨rfl, rfl⟩, by rw [hs.user]; exact ⟨rfl, rfl⟩, hs.init⟩
  cases c with
  | cInit => exact hc.elim
  | cFinal => exact hc.elim
  | slot i sc => cases sc <;> first | exact hc.elim | exact absurd rfl hacc
  | sess k sc =>
    by_cases hlog : ∃ u q n, sc = .login u q n
    · obtain ⟨u, q, n, rfl⟩ := hlog
      simp only [callBody]
      split; · exact .refl _
      split; · exact .refl _
      simp only [sessCall, login]
      cases q with
      | none => exact .refl _
      | some q =>
        dsimp only
        split; · exact .refl _
        cases u with
        | so =>
          have := soLogin_acct e l q n
          exact ⟨this.1, by rw [this.2.1]; exact ⟨rfl, rfl⟩, this.2.2.1⟩
        | user =>
          have := userLogin_acct e l q n
          exact ⟨by rw [this.2.1]; exact ⟨rfl, rfl⟩, this.1, this.2.2.1⟩
        | contextSpecific => exact .refl _
        | other => exact .refl _
    · cases sc <;> first | exact hc.elim | exact absurd rfl hacc | exact absurd ⟨_, _, _, rfl⟩ hlog

theorem keptPins_step {e : Env} {l : Lib} {c : Call} (hc : KeepsPins c) :
    KeptPins l.token (step e l c).1.token := by
  cases hb : l.bad with
  | true => rw [step_bad hb]; exact .refl _
  | false => rw [(step_sessions (e := e) hb c).2.2.1]; exact keptPins_callBody hc

theorem keptPins_setAcct {l : Lib} {w : Who} {a : Account} (h : SamePin (w.acct l.token) a) :
    KeptPins l.token (setAcct l w a).token := by
  cases w
  · exact ⟨h, ⟨rfl, rfl⟩, rfl⟩
  · exact ⟨⟨rfl, rfl⟩, h, rfl⟩

theorem keptPins_advance (e : Env) (l : Lib) (p : Pc) : KeptPins l.token (advance e l p).1.token := by
  cases p with
  | idle => exact .refl _
  | called w pin now =>
    simp only [advance, admit]
    split; · exact .refl _
    split
    · exact .refl _
    · rename_i a ha
      split <;> exact keptPins_setAcct (samePin_lockCheck ha)
  | admitted w pin now => simp only [advance]; split <;> exact .refl _
  | hashing w pin now => exact .refl _
  | comparing w pin now h => exact .refl _
  | checked w pin now ok =>
    cases ok with
    | false => cases w <;> exact keptPins_setAcct (w := _) (samePin_failed _ _ _)
    | true => cases w <;> exact ⟨⟨rfl, rfl⟩, ⟨rfl, rfl⟩, rfl⟩
  | keyed now =>
    simp only [advance, unlockObjs]
    split <;> exact ⟨⟨rfl, rfl⟩, ⟨rfl, rfl⟩, rfl⟩
  | entering w => exact ⟨⟨rfl, rfl⟩, ⟨rfl, rfl⟩, rfl⟩

theorem base_frame {e : Env} {s : Conc} {v : Ev} (hv : ∀ c, v = .call c → KeepsPins c) (hw : WInv s.lib) :
    KeptPins s.lib.token (s.step e v).1.lib.token ∧ WInv (s.step e v).1.lib := by
  cases v with
  | call c => exact ⟨keptPins_step (hv c rfl), hw.step e c⟩
  | login t h w pin now =>
    simp only [Conc.step]
    split; · exact ⟨.refl _, hw⟩
    split <;> exact ⟨.refl _, hw⟩
  | go t =>
    simp only [Conc.step]
    split; · exact ⟨.refl _, hw⟩
    obtain ⟨h1, h2, _⟩ := advance_frame e s.lib (s.pc t)
    exact ⟨keptPins_advance _ _ _, hw.of h1 h2⟩

end Verif
