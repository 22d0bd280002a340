import Verif.Spec.Conc
import Verif.Proofs.PinStep

/-!
# Lemmas about logins of several threads
-/

namespace Verif

/-- No session is open read-only. -/
def NoRo (l : Lib) : Prop := ∀ s ∈ l.sessions, s.use ≠ .ro

theorem noRo_frame {h : Nat} {l l' : Lib} (hf : Frame h l l') (hn : NoRo l) : NoRo l' := by
  intro s' hs'
  obtain ⟨s, hs, _, hu, _⟩ := hf.mem hs'
  rw [hu]; exact hn s hs

theorem noRo_closeOne {ss : List Session} (k : Nat) (hn : ∀ s ∈ ss, s.use ≠ .ro) :
    ∀ s ∈ closeOne ss k, s.use ≠ .ro := by
  intro s hs
  cases ss with
  | nil => cases hs
  | cons a as =>
    simp only [closeOne] at hs
    split at hs
    · exact hn s (List.mem_cons_of_mem _ (mem_dropUnused hs))
    · obtain ⟨t, ht, rfl⟩ := List.mem_map.mp hs
      split
      · rw [sessFinal_use]; decide
      · exact hn t ht

theorem closeDown_sub (n : Nat) (ss : List Session) {s : Session} (hs : s ∈ closeDown n ss) : s ∈ ss := by
  induction n generalizing ss with
  | zero => exact hs
  | succ n ih =>
    cases ss with
    | nil => exact hs
    | cons a as =>
      simp only [closeDown] at hs
      split at hs
      · exact List.mem_cons_of_mem _ (mem_dropUnused (ih _ hs))
      · exact hs

theorem noRo_closeAll {ss : List Session} (hn : ∀ s ∈ ss, s.use ≠ .ro) : ∀ s ∈ closeAll ss, s.use ≠ .ro := by
  intro s hs
  unfold closeAll at hs
  split at hs
  · cases hs
  · rename_i a as he
    rcases List.mem_cons.mp hs with rfl | hs
    · rw [sessFinal_use]; decide
    · exact hn s (closeDown_sub _ _ (by rw [he]; exact List.mem_cons_of_mem _ hs))

theorem noRo_openRw {l : Lib} (hn : NoRo l) : NoRo (openSession l true).1 := by
  unfold openSession
  simp only [Bool.not_true, Bool.false_and, Bool.false_eq_true, if_false, if_true]
  split
  · intro s hs
    simp only [Lib.upd] at hs
    obtain ⟨t, ht, rfl⟩ := List.mem_map.mp hs
    split
    · simp
    · exact hn t ht
  · split
    · exact hn
    · split
      · rename_i a as he
        intro s hs
        rcases List.mem_cons.mp hs with rfl | hs
        · simp
        · have hm : s ∈ addSession l.sessions := by rw [he]; exact List.mem_cons_of_mem _ hs
          unfold addSession at hm
          split at hm
          · simp only [List.mem_singleton] at hm
            rw [hm]; simp
          · rename_i b bs hb
            rcases List.mem_cons.mp hm with rfl | hm
            · simp
            · exact hn s (hm)
      · exact hn

/-- Only opening a session read-only makes one. -/
theorem noRo_callBody {e : Env} {l : Lib} {c : Call} (hn : NoRo l)
    (hc : ∀ i a b, c ≠ .slot i (.openSession false a b)) : NoRo (callBody e l c).1 := by
  cases c with
  | cInit =>
    simp only [callBody, cInitialize]
    split
    · intro s hs
      simp only [addSession, List.mem_cons, List.not_mem_nil, or_false] at hs
      rcases hs with rfl | rfl <;> simp
    · exact hn
  | cFinal =>
    simp only [callBody, cFinalize]
    split
    · intro s hs; cases hs
    · exact hn
  | slot i sc =>
    simp only [callBody]
    split; · exact hn
    split; · exact hn
    cases sc with
    | tokenInfo p n => simp only [slotCall]; split <;> exact hn
    | initToken p lab =>
      intro s hs
      simp only [slotCall] at hs
      rw [(initToken_sessions e l p lab).1] at hs
      exact hn s hs
    | openSession rw' a b =>
      cases rw' with
      | false => exact absurd rfl (hc i a b)
      | true =>
        simp only [slotCall]
        split; · exact hn
        split; · exact hn
        exact noRo_openRw hn
    | closeAll => exact noRo_closeAll hn
  | sess h sc =>
    simp only [callBody]
    split; · exact hn
    split; · exact hn
    rename_i s hs
    by_cases hcl : sc = .close
    · subst hcl
      simp only [sessCall]
      intro t ht
      rw [(closeSession_sessions e l s.handle).1] at ht
      exact noRo_closeOne _ hn t ht
    · exact noRo_frame (frame_sessCall e l s sc hcl) hn

theorem noRo_step {e : Env} {l : Lib} {c : Call} (hn : NoRo l)
    (hc : ∀ i a b, c ≠ .slot i (.openSession false a b)) : NoRo (step e l c).1 := by
  cases hb : l.bad with
  | true => rw [step_bad hb]; exact hn
  | false =>
    intro s hs
    rw [(step_sessions hb c).1] at hs
    exact noRo_callBody hn hc s hs

theorem setAcct_sessions (l : Lib) (w : Who) (a : Account) :
    (setAcct l w a).sessions = l.sessions ∧ (setAcct l w a).count = l.count ∧
    (setAcct l w a).token.login = l.token.login ∧ (setAcct l w a).bad = l.bad := by
  cases w <;> exact ⟨rfl, rfl, rfl, rfl⟩

/-- A part of a login does not change the sessions; the login state only at the end. -/
theorem advance_frame (e : Env) (l : Lib) (p : Pc) :
    (advance e l p).1.sessions = l.sessions ∧ (advance e l p).1.count = l.count ∧
    ((advance e l p).1.token.login = l.token.login ∨
      ∃ w, p = .entering w ∧ (advance e l p).1.token.login = w.login) := by
  cases p with
  | idle => exact ⟨rfl, rfl, .inl rfl⟩
  | called w pin now =>
    simp only [advance, admit]
    split
    · exact ⟨rfl, rfl, .inl rfl⟩
    · split
      · exact ⟨rfl, rfl, .inl rfl⟩
      · split <;> cases w <;> exact ⟨rfl, rfl, .inl rfl⟩
  | admitted w pin now => simp only [advance]; split <;> exact ⟨rfl, rfl, .inl rfl⟩
  | hashing w pin now => exact ⟨rfl, rfl, .inl rfl⟩
  | comparing w pin now h => exact ⟨rfl, rfl, .inl rfl⟩
  | checked w pin now ok => cases w <;> cases ok <;> exact ⟨rfl, rfl, .inl rfl⟩
  | keyed now =>
    simp only [advance, unlockObjs]
    split <;> exact ⟨rfl, rfl, .inl rfl⟩
  | entering w => exact ⟨rfl, rfl, .inr ⟨w, rfl, rfl⟩⟩

theorem SInv.of_parts {l l' : Lib} (hi : SInv l) (hs : l'.sessions = l.sessions) (hc : l'.count = l.count)
    (hso : l'.token.login = .so → NoRo l) : SInv l' :=
  ⟨by rw [hs, hc]; exact hi.shape, by rw [hs]; exact hi.idle, by
    intro h s hm; rw [hs] at hm; exact hso h s hm⟩

end Verif
