import Verif.Spec.StreamHist
import Verif.Proofs.SessProj
import Verif.Proofs.Sess
import Verif.Proofs.Run
import Verif.Proofs.Pop
import Verif.Props.SessClose

/-!
# Calls that leave nothing in the buffer of AES-CBC
-/

namespace Verif

variable {e : Env}

section
variable {st : OpSt}

theorem emp_args (h : st.Emptied) (c : Option Obj) (a : Option Bytes) (ob : OutBuf) {k : Obj → Bytes → OpSt × Out}
    (hk : ∀ o d, (k o d).1.Emptied) : (withArgs st c a ob k).1.Emptied := by
  unfold withArgs
  repeat' split
  all_goals first | exact h | exact hk _ _

theorem emp_need (h : st.Emptied) (i : OpInit) {k : OpSt × Out} (hk : st.init = i → k.1.Emptied) :
    (needInit st i k).1.Emptied := by
  unfold needInit
  split
  · rename_i hi; exact hk hi
  · split <;> exact h

theorem tear_ne (i : OpInit) : i.tear ≠ .aesCbcEnc ∧ i.tear ≠ .aesCbcDec ∧ i.tear ≠ .aesCbcPadEnc ∧ i.tear ≠ .aesCbcPadDec := by
  cases i <;> simp [OpInit.tear]

theorem emp_mark (h : st.Emptied) : st.mark.Emptied := ⟨h.1, tear_ne _⟩

theorem emp_pssOver (h : st.Emptied) (a b : Option HashAlg) (n : Int) : (st.pssOver a b n).Emptied := by
  unfold OpSt.pssOver
  repeat' split
  all_goals first | exact h | exact emp_mark h

theorem emp_oaepOver (h : st.Emptied) (a : Option HashAlg) : (st.oaepOver a).Emptied := by
  unfold OpSt.oaepOver
  split <;> first | exact h | exact emp_mark h

theorem emp_sized (h : st.Emptied) (ob : OutBuf) (n : Nat) {k : OpSt × Out} (hk : k.1.Emptied) :
    (sized st ob n k).1.Emptied := by
  unfold sized
  repeat' split
  all_goals first | exact h | exact hk

theorem emp_finish (h : st.Emptied) (r : Option Bytes) : (finish st r).1.Emptied := by
  cases r <;> exact h

theorem emp_finishSig (h : st.Emptied) (n : Nat) (r : Option Bytes) : (finishSig st n r).1.Emptied := by
  cases r <;> exact h

theorem emp_finishVerify (h : st.Emptied) (r : Option Bool) : (finishVerify st r).1.Emptied := by
  cases r with
  | none => exact h
  | some b => cases b <;> exact h

theorem emp_oaep (h : st.Emptied) (r : Option Bytes) : (finish (oaepDone st r) r).1.Emptied := by
  cases r <;> exact h

theorem emp_none (h : st.Emptied) : ({ st with init := .none } : OpSt).Emptied :=
  ⟨h.1, nofun, nofun, nofun, nofun⟩

/-- The data calls. -/
theorem emp_run (h : st.Emptied) (x : Crypto) (c : Option Obj) (d : DataCall) : (d.run x st c).1.Emptied := by
  obtain ⟨n1, n2, n3, n4⟩ := h.2
  cases d with
  | encrypt a ob r =>
    refine emp_args h c a ob fun o d => ?_
    split
    · exact emp_need h _ fun _ => emp_sized h _ _ (emp_finish h _)
    · exact emp_need h _ fun _ => emp_sized h _ _ (emp_finish h _)
    · exact emp_need h _ fun _ => emp_sized h _ _ (emp_oaep h _)
    · exact emp_need h _ fun hi => absurd hi n1
    · exact emp_need h _ fun hi => absurd hi n3
    · exact emp_need h _ fun _ => emp_sized h _ _ (emp_finish (by exact h) _)
    · exact h
  | encryptUpdate a ob =>
    refine emp_args h c a ob fun o d => ?_
    split
    · exact emp_need h _ fun hi => absurd hi n1
    · exact emp_need h _ fun hi => absurd hi n3
    · exact emp_need h _ fun _ => emp_sized h _ _ (emp_finish (by exact h) _)
    · exact h
  | encryptFinal ob =>
    refine emp_args h c (some []) ob fun o d => ?_
    split
    · exact emp_need h _ fun hi => absurd hi n1
    · exact emp_need h _ fun hi => absurd hi n3
    · exact emp_need h _ fun _ => emp_sized h _ _ (emp_finish (by exact h) _)
    · exact h
  | decrypt a ob r =>
    refine emp_args h c a ob fun o d => ?_
    split
    · exact emp_need h _ fun _ => emp_sized h _ _ (emp_finish h _)
    · exact emp_need h _ fun _ => emp_sized h _ _ (emp_finish h _)
    · exact emp_need h _ fun _ => emp_sized h _ _ (emp_oaep h _)
    · exact emp_need h _ fun hi => absurd hi n2
    · exact emp_need h _ fun hi => absurd hi n4
    · refine emp_need h _ fun _ => emp_sized h _ _ ?_
      unfold gcmDecrypt
      split
      · exact h
      · exact emp_finish (by exact h) _
    · exact h
  | decryptUpdate a ob =>
    refine emp_args h c a ob fun o d => ?_
    split
    · exact emp_need h _ fun hi => absurd hi n2
    · exact emp_need h _ fun hi => absurd hi n4
    · refine emp_need h _ fun _ => ?_
      split <;> exact h
    · exact h
  | decryptFinal ob =>
    refine emp_args h c (some []) ob fun o d => ?_
    split
    · exact emp_need h _ fun hi => absurd hi n2
    · exact emp_need h _ fun hi => absurd hi n4
    · refine emp_need h _ fun _ => emp_sized h _ _ ?_
      split
      · exact h
      · exact emp_finish (by exact h) _
    · exact h
  | sign a ob r =>
    refine emp_args h c a ob fun o d => ?_
    split
    · exact emp_need h _ fun _ => emp_sized h _ _ (emp_finishSig h _ _)
    · exact emp_need h _ fun _ => emp_sized h _ _ (emp_finishSig h _ _)
    · exact emp_need h _ fun _ => emp_sized h _ _ (emp_finishSig h _ _)
    · refine emp_need h _ fun _ => ?_
      split
      · exact h
      · refine emp_sized h _ _ ?_
        split
        · exact h
        · exact emp_finishSig h _ _
        · exact emp_finishSig h _ _
    · exact emp_need h _ fun _ => emp_sized h _ _ (emp_finishSig (emp_none h) _ _)
    · exact h
  | signUpdate a =>
    refine emp_args h c a _ fun o d => ?_
    split
    · exact emp_need h _ fun _ => h
    · exact h
  | signFinal ob =>
    refine emp_args h c (some []) ob fun o d => ?_
    split
    · exact emp_need h _ fun _ => emp_sized h _ _ (emp_finishSig (emp_none h) _ _)
    · exact h
  | verify a sg =>
    simp only [DataCall.run, verify]
    split
    · exact h
    refine emp_args h c a _ fun o d => ?_
    split
    · exact emp_need h _ fun _ => emp_finishVerify h _
    · exact emp_need h _ fun _ => emp_finishVerify h _
    · exact emp_need h _ fun _ => emp_finishVerify h _
    · refine emp_need h _ fun _ => ?_
      split
      · exact h
      · exact emp_finishVerify h _
    · exact emp_need h _ fun _ => emp_finishVerify (emp_none h) _
    · exact h
  | verifyUpdate a =>
    refine emp_args h c a _ fun o d => ?_
    split
    · exact emp_need h _ fun _ => h
    · exact h
  | verifyFinal sg =>
    refine emp_args h c sg _ fun o d => ?_
    split
    · exact emp_need h _ fun _ => emp_finishVerify (emp_none h) _
    · exact h

theorem emp_plain (h : st.Emptied) (o : Obj) (t : Nat) (m : Mech) (p : MechParam) {i : OpInit}
    (hi : i ≠ .aesCbcEnc ∧ i ≠ .aesCbcDec ∧ i ≠ .aesCbcPadEnc ∧ i ≠ .aesCbcPadDec) : (plainInit st o t m p i).1.Emptied := by
  unfold plainInit
  repeat' split
  all_goals first | exact h | exact ⟨h.1, hi⟩

theorem emp_oaepInit (h : st.Emptied) (o : Obj) (p : MechParam) {i : OpInit}
    (hi : i ≠ .aesCbcEnc ∧ i ≠ .aesCbcDec ∧ i ≠ .aesCbcPadEnc ∧ i ≠ .aesCbcPadDec) : (oaepInit st o p i).1.Emptied := by
  have hs : ∀ a b c, (setOaep st a b c).2.Emptied := by
    intro a b c; unfold setOaep; split <;> first | exact h | exact emp_oaepOver h _
  unfold oaepInit
  dsimp only
  repeat' split
  all_goals first | exact h | exact ⟨(hs _ _ _).1, hi⟩ | exact hs _ _ _

theorem emp_pssInit (h : st.Emptied) (o : Obj) (p : MechParam) {i : OpInit}
    (hi : i ≠ .aesCbcEnc ∧ i ≠ .aesCbcDec ∧ i ≠ .aesCbcPadEnc ∧ i ≠ .aesCbcPadDec) : (pssInit st o p i).1.Emptied := by
  have hs : ∀ a b c, (setPss st a b c).2.Emptied := by
    intro a b c; unfold setPss; repeat' split
    all_goals first | exact h | exact emp_pssOver h _ _ _
  unfold pssInit
  dsimp only
  repeat' split
  all_goals first | exact h | exact ⟨(hs _ _ _).1, hi⟩ | exact hs _ _ _

theorem emp_gcmInit (h : st.Emptied) (o : Obj) (p : MechParam) {i : OpInit}
    (hi : i ≠ .aesCbcEnc ∧ i ≠ .aesCbcDec ∧ i ≠ .aesCbcPadEnc ∧ i ≠ .aesCbcPadDec) : (gcmInit st o p i).1.Emptied := by
  unfold gcmInit
  repeat' split
  all_goals first | exact h | exact ⟨h.1, hi⟩

/-- The Init calls other than those of AES-CBC and HMAC. -/
theorem emp_init (h : st.Emptied) (x : Crypto) (k : Kind) (o : Obj) {m : Mech} (p : MechParam)
    (h1 : m ≠ .aesCbc) (h2 : m ≠ .aesCbcPad) (h3 : ∀ a, m ≠ .hmac a) : (initCall x k st o m p).1.Emptied := by
  cases k <;> cases m <;> first
    | exact absurd rfl h1 | exact absurd rfl h2 | exact absurd rfl (h3 _) | exact h
    | exact emp_plain h _ _ _ _ (by decide) | exact emp_oaepInit h _ _ (by decide)
    | exact emp_pssInit h _ _ (by decide) | exact emp_gcmInit h _ _ (by decide)

theorem emp_final (h : st.Emptied) : (opFinal st).Emptied := by
  unfold opFinal
  split
  all_goals first | exact h | exact emp_none h

theorem emp_new : ({} : OpSt).Emptied := ⟨⟨rfl, rfl⟩, nofun, nofun, nofun, nofun⟩
end

/-- What is compared of a session. -/
def Session.ops (s : Session) : Nat × OpSt := (s.handle, s.op)

theorem Emptied.same {l l' : Lib} {h : Nat} (hf : Emptied l h) (hs : SameAt Session.ops l l') : Emptied l' h := by
  intro s hm hh
  have : s.ops ∈ l'.sessions.map Session.ops := List.mem_map_of_mem (f := Session.ops) hm
  rw [hs] at this
  obtain ⟨t, ht, he⟩ := List.mem_map.mp this
  have h1 : t.handle = s.handle := congrArg Prod.fst he
  have h2 : t.op = s.op := congrArg Prod.snd he
  rw [← h2]
  exact hf t ht (h1.trans hh)

theorem Emptied.frame {l l' : Lib} {h k : Nat} (hf : Emptied l h) (hk : k ≠ h) (hs : Frame k l l') : Emptied l' h := by
  intro s hm hh
  obtain ⟨t, ht, h1, _, h3⟩ := hs.mem hm
  rw [h3 (by rw [← h1, hh]; exact fun h => hk h.symm)]
  exact hf t ht (h1 ▸ hh)

theorem Emptied.upd {l : Lib} {h k : Nat} (hf : Emptied l h) {f : Session → Session} (hh : ∀ t, (f t).handle = t.handle)
    (ho : ∀ t, (f t).op.Emptied) : Emptied (l.upd k f) h := by
  intro s hm hs
  obtain ⟨t, ht, rfl⟩ := List.mem_map.mp hm
  by_cases hk : t.handle = k
  · simp only [hk, if_true]; exact ho t
  · simp only [hk, if_false] at hs ⊢; exact hf t ht hs

theorem Emptied.callBody {l : Lib} {h : Nat} (hf : Emptied l h) {c : Call} (hc : ¬ Buffers h c) :
    Emptied (callBody e l c).1 h := by
  cases c with
  | cInit =>
    simp only [Verif.callBody, cInitialize]
    split
    · intro s hs _
      simp only [addSession, List.mem_cons, List.not_mem_nil, or_false] at hs
      rcases hs with rfl | rfl <;> exact emp_new
    · exact hf
  | cFinal =>
    simp only [Verif.callBody, cFinalize]
    split
    · intro s hs; cases hs
    · exact hf
  | slot id c =>
    simp only [Verif.callBody]
    split
    · exact hf
    split
    · exact hf
    cases c with
    | tokenInfo p n => simp only [slotCall]; split <;> exact hf
    | initToken p lab => exact hf.same (.of (initToken_sessions e l p lab).1)
    | closeAll =>
      intro s hs hh
      simp only [slotCall] at hs
      unfold Verif.closeAll at hs
      split at hs
      · cases hs
      · rename_i a as heq
        rcases List.mem_cons.mp hs with rfl | h1
        · exact emp_final (hf a (mem_closeDown (heq ▸ List.mem_cons_self)) hh)
        · exact hf s (mem_closeDown (heq ▸ List.mem_cons_of_mem _ h1)) hh
    | openSession rw' serial ptr =>
      simp only [slotCall]
      split
      · exact hf
      split
      · exact hf
      unfold openSession
      dsimp only
      split
      · exact hf
      split
      · exact hf.same (.upd (by intro _; rfl))
      · split
        · exact hf
        · split
          · rename_i s rest hadd
            intro t ht hh
            cases hss : l.sessions with
            | nil =>
              rw [hss] at hadd
              simp only [addSession, List.cons.injEq] at hadd
              obtain ⟨rfl, rfl⟩ := hadd
              simp only [List.mem_cons, List.not_mem_nil, or_false] at ht
              subst ht; exact emp_new
            | cons a as =>
              rw [hss] at hadd
              simp only [addSession, List.cons.injEq] at hadd
              obtain ⟨rfl, rfl⟩ := hadd
              rcases List.mem_cons.mp ht with rfl | ht
              · exact emp_new
              · exact hf t (hss ▸ ht) hh
          · exact hf
  | sess k c =>
    simp only [Verif.callBody]
    split
    · exact hf
    split
    · exact hf
    rename_i s hs
    obtain ⟨hsh, _, hsm⟩ := getSession_handle hs
    have hob : NoObjs Session.ops := fun _ _ => rfl
    by_cases hcl : c = .close
    · subst hcl
      intro t ht hh
      rw [show (sessCall e l s .close).1.sessions = closeOne l.sessions s.handle from
        (closeSession_sessions e l s.handle).1] at ht
      unfold Verif.closeOne at ht
      split at ht
      · cases ht
      · rename_i heq
        split at ht
        · exact hf t (heq ▸ List.mem_cons_of_mem _ (mem_dropUnused ht)) hh
        · obtain ⟨t, htm, rfl⟩ := List.mem_map.mp ht
          by_cases hk : t.handle = s.handle
          · simp only [hk, if_true] at hh ⊢; exact emp_final (hf t (heq ▸ htm) hh)
          · simp only [hk, if_false] at hh ⊢; exact hf t (heq ▸ htm) hh
    by_cases hk : k = h
    · subst hk
      have hse := hf s hsm hsh
      cases c with
      | close => exact absurd rfl hcl
      | findInit t =>
        simp only [sessCall, cFindInit]
        repeat' split
        all_goals first | exact hf | exact hf.same (.upd (by intro _; rfl))
      | findNext p n =>
        simp only [sessCall, cFindNext]
        split
        · exact hf
        · exact hf.same (.upd (by intro _; rfl))
      | findFinal => exact hf.same (.upd (by intro _; rfl))
      | cryptInit kd m key =>
        simp only [sessCall, cCryptInit]
        split
        · exact hf
        rename_i m p
        split
        · exact hf
        split
        · exact hf
        refine hf.upd (by intro _; rfl) fun _ => emp_init hse _ _ _ _ ?_ ?_ ?_
        · rintro rfl; exact hc rfl
        · rintro rfl; exact hc rfl
        · rintro a rfl; exact hc rfl
      | crypt d =>
        simp only [sessCall, cCrypt]
        split
        · exact hf.upd (by intro _; rfl) fun _ => emp_run hse _ _ _
        · exact hf.upd (by intro _; rfl) fun _ => emp_run hse _ _ _
        · split <;> exact hf
      | wrap a b d o => exact absurd rfl hc
      | unwrap a b d o t => exact absurd rfl hc
      | _ =>
        exact hf.same (same_objs hob s _ (by simp) (by simp) (by simp) (by simp) (by simp) (by simp) (by simp) (by simp))
    · exact hf.frame (by rw [hsh]; exact hk) (frame_sessCall e l s c hcl)

theorem Emptied.step {l : Lib} {h : Nat} (hf : Emptied l h) {c : Call} (hc : ¬ Buffers h c) :
    Emptied (step e l c).1 h := by
  cases hb : l.bad with
  | true => rw [step_bad hb]; exact hf
  | false =>
    have := hf.callBody (e := e) hc
    unfold Emptied at this ⊢
    rw [(step_sessions hb c).1]
    exact this

theorem Emptied.run {h : Nat} (cs : List Call) (hc : ∀ c ∈ cs, ¬ Buffers h c) :
    ∀ {l : Lib}, Emptied l h → Emptied (run e l cs) h := by
  induction cs with
  | nil => intro l hf; exact hf
  | cons c cs ih =>
    intro l hf
    exact ih (fun d hd => hc d (List.mem_cons_of_mem _ hd)) (hf.step (hc c (List.mem_cons_self ..)))

end Verif
