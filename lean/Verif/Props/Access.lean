import Verif.Proofs.Access
import Verif.Props.Restart

/-!
# C124: sessions, logins and PINs follow a small machine
-/

namespace Verif

variable {e : Env} {l : Lib}

theorem ref_openSession (hi : SInv l) (hb : l.bad = false) (hc : 0 < l.count) (rw' : Bool) :
    Ref.SlotStep (SameHash e) (l.ref e) (.openSession rw' true true) (step e l (openCall rw')).2
      ((step e l (openCall rw')).1.ref e) := by
  obtain ⟨_, h⟩ := openSession_spec (e := e) hi hb hc rw'
  dsimp only [Ref.SlotStep]
  rw [if_neg (by simp), if_neg (by simp)]
  rcases h with ⟨h1, h2, hr⟩ | ⟨h1, h70, hall, hr⟩ | ⟨h1, hnot, k, hr, h3, ⟨s, h4, h5, _⟩, h6, h7, h8⟩
  · rw [if_pos (show rw' = false ∧ (l.ref e).who = .so from ⟨h1, h2⟩), hr]
    exact ⟨rfl, rfl⟩
  · rw [if_neg (show ¬ (rw' = false ∧ (l.ref e).who = .so) from h1), if_pos, hr]
    · exact ⟨rfl, rfl⟩
    · refine ⟨handles l.sessions, hi.nodup, by simpa using h70, ?_⟩
      intro h hh
      obtain ⟨s, hm, rfl⟩ := List.mem_map.mp hh
      exact (ref_open hi hb).mpr ((isOpen_iff hi).mpr ⟨hb, s, (getSession_iff hi).mpr ⟨hm, rfl, hall s hm⟩⟩)
  · rw [if_neg (show ¬ (rw' = false ∧ (l.ref e).who = .so) from h1), if_neg]
    · refine ⟨by rw [hr], k, by rw [hr], ref_modes_none.mpr h3, ?_⟩
      have hm : ((step e l (openCall rw')).1.ref e).modes =
          fun j => if j = k then some rw' else (l.ref e).modes j := by
        funext j
        by_cases hj : j = k
        · subst hj
          rw [ref_modes_some h4, h5]
          exact (if_pos rfl).symm
        · rw [if_neg hj]
          simp only [Lib.ref, h6 j hj]
      rw [← hm]
      unfold Lib.ref
      rw [h7, h8]
    · rintro ⟨hs, hn, hl, ho⟩
      have h1 := open_count (e := e) hi hs hn (fun h hm => (ref_open hi hb).mp (ho h hm))
      have h2 : l.sessions.length ≤ 70 := by
        rcases hi.shape with ⟨_, h⟩ | ⟨_, n, _, h70, hh⟩
        · simp [h]
        · rw [show l.sessions.length = n by rw [← length_down n, ← hh]; simp]
          exact h70
      have h3 := List.length_filter_le (fun s : Session => s.use != .no) l.sessions
      refine hnot ⟨by omega, ?_⟩
      intro s hm hu
      have h4 : (l.sessions.filter fun s => s.use != .no).length = l.sessions.length := by omega
      have := List.length_filter_eq_length_iff.mp h4 s hm
      simp [hu] at this

theorem ref_closeAll (hi : SInv l) (hc : 0 < l.count) :
    ({ l with sessions := closeAll l.sessions } : Lib).ref e =
      { l.ref e with modes := fun k => if k = Ref.lowest then (l.ref e).modes k else none } := by
  obtain ⟨n, h2, h70, hh⟩ : ∃ n, 2 ≤ n ∧ n ≤ 70 ∧ handles l.sessions = down n := by
    rcases hi.shape with ⟨h1, _⟩ | ⟨_, h2⟩
    · omega
    · exact h2
  obtain ⟨s2, s1, m2, m1, e2, e1, hcl⟩ := closeAll_spec h2 h70 hh
  have hm : (({ l with sessions := closeAll l.sessions } : Lib).ref e).modes =
      fun k => if k = Ref.lowest then (l.ref e).modes k else none := by
    funext k
    show (getSession _ k).map _ = if k = 65537 then (getSession l k).map _ else none
    by_cases hk : k = 65537
    · subst hk
      rw [if_pos rfl]
      congr 1
      unfold getSession
      dsimp only
      rw [hcl, (find_iff hi.nodup).mpr ⟨m1, e1⟩]
      have : (sessFinal s2).handle = 65538 := e2
      simp [List.find?_cons, this, e1]
    · rw [if_neg hk]
      unfold getSession
      dsimp only
      rw [hcl]
      have h1 : (sessFinal s2).handle = 65538 := e2
      have h3 : (s1.handle == k) = false := by rw [e1]; simp; omega
      have hu : (sessFinal s2).use = .no := sessFinal_use s2
      simp only [List.find?_cons, h3, List.find?_nil]
      by_cases hk2 : k = 65538
      · subst hk2; simp [h1, hu]
      · have : ((sessFinal s2).handle == k) = false := by rw [h1]; simp; omega
        simp [this]
  rw [← hm]
  rfl

open Classical in
theorem ref_close (hi : SInv l) (hb : l.bad = false) {h : Nat} {s : Session} (hs : getSession l h = some s) :
    Ref.SessStep (SameHash e) (l.ref e) h (s.use == .rw) .close (step e l (closeCall h)).2
      ((step e l (closeCall h)).1.ref e) := by
  have ho : IsOpen e l h := (isOpen_iff hi).mpr ⟨hb, s, hs⟩
  obtain ⟨_, hr, hnone, hother, hlast, hpub, hcnt⟩ := close_spec hi ho
  obtain ⟨hsh, _, _⟩ := getSession_handle hs
  have hc := count_pos_of_open hi hs
  have hc' : ¬ l.count ≤ 0 := by omega
  have hbody : callBody e l (closeCall h) = closeSession e l h := by
    simp only [callBody, closeCall, hc', if_false, hs, sessCall, hsh]
  have hst : step e l (closeCall h) = closeSession e l h := by
    rw [step_eq hb, hbody]
    rw [hbody]; simp [closeSession]
  have hacct : (step e l (closeCall h)).1.token.init = l.token.init ∧ (step e l (closeCall h)).1.token.so = l.token.so ∧
      (step e l (closeCall h)).1.token.user = l.token.user := by
    rw [hst]
    unfold closeSession
    dsimp only
    split <;> exact ⟨rfl, rfl, rfl⟩
  refine ⟨by rw [hr], ?_⟩
  have hm : ((step e l (closeCall h)).1.ref e).modes = fun k => if k = h then none else (l.ref e).modes k := by
    funext k
    by_cases hk : k = h
    · subst hk; rw [if_pos rfl]; exact ref_modes_none.mpr hnone
    · rw [if_neg hk]
      simp only [Lib.ref, hother k hk]
  have hw : (step e l (closeCall h)).1.token.login =
      if ∃ k, k ≠ h ∧ (l.ref e).modes k ≠ none then l.token.login else .pub := by
    split
    · rename_i hx
      obtain ⟨k, hk, ho⟩ := hx
      rw [hlast ⟨k, hk, (ref_open hi hb).mp ho⟩]
    · rename_i hx
      exact hpub fun k hk ho => hx ⟨k, hk, (ref_open hi hb).mpr ho⟩
  rw [← hm]
  unfold Lib.ref
  rw [hcnt, hacct.1, hacct.2.1, hacct.2.2]
  exact congrArg (fun w => Ref.mk l.count _ w l.token.init (l.token.so.ref e) (l.token.user.ref e)) hw

theorem ref_sess (hh : HashLen e) (hi : SInv l) (hb : l.bad = false) {h : Nat} {s : Session}
    (hs : getSession l h = some s) (c : SessCall) (hu : (sessCall e l s c).2.rv ≠ .ub) :
    Ref.SessStep (SameHash e) (l.ref e) h (s.use == .rw) c (sessCall e l s c).2 ((sessCall e l s c).1.ref e) := by
  by_cases hc : c.isAccount = false
  · have hr := ref_sessCall (e := e) hs hc
    cases c with
    | info ptr =>
      refine ⟨hr, ?_⟩
      cases ptr with
      | false => exact rfl
      | true =>
        refine ⟨rfl, ?_⟩
        show some (sessState l s, s.use == .rw) = some (Ref.state l.token.login (s.use == .rw), s.use == .rw)
        unfold sessState Ref.state
        cases l.token.login <;> cases s.use <;> rfl
    | close | login _ _ _ | logout | initPin _ | setPin _ _ => cases hc
    | _ => exact hr
  · cases c with
    | close =>
      have hc' : ¬ l.count ≤ 0 := by have := count_pos_of_open hi hs; omega
      have hbody : callBody e l (closeCall h) = sessCall e l s .close := by
        simp only [callBody, closeCall, hc', if_false, hs]
      have hst : step e l (closeCall h) = sessCall e l s .close := by
        rw [step_eq hb (by rw [hbody]; exact hu), hbody]
      rw [← hst]
      exact ref_close hi hb hs
    | login u pin now =>
      dsimp only [Ref.SessStep, sessCall] at hu ⊢
      cases pin with
      | none => exact ⟨rfl, rfl⟩
      | some pin =>
        dsimp only [login] at hu ⊢
        by_cases h1 : pinLenOk pin = true
        · have hl : ¬ (!pinLenOk pin) = true := by simp [h1]
          rw [if_neg hl] at hu
          rw [if_neg hl, if_neg (show ¬ ¬ Ref.Length pin from fun h => h (length_iff.mp h1))]
          cases u with
          | so => exact ref_soLogin hi pin now
          | user => exact ref_userLogin pin now hu
          | contextSpecific => exact ⟨rfl, rfl⟩
          | other => exact ⟨rfl, rfl⟩
        · rw [if_pos (show (!pinLenOk pin) = true by simp [h1]),
            if_pos (show ¬ Ref.Length pin from fun h => h1 (length_iff.mpr h))]
          exact ⟨rfl, rfl⟩
    | logout => exact ⟨rfl, rfl⟩
    | initPin pin => exact ref_initPin hh h pin
    | setPin old new => exact ref_setPin hh h old new
    | _ => exact absurd rfl hc

/-- Every call is a step of the machine. -/
theorem ref_step (hh : HashLen e) (hi : SInv l) (c : Call) (hg : (step e l c).1.bad = false) :
    Ref.Step (SameHash e) (l.ref e) c (answer e l c) ((step e l c).1.ref e) := by
  obtain ⟨hb, hu, hst⟩ := step_good hg
  unfold answer
  cases c with
  | cInit =>
    rw [hst]
    refine ⟨rfl, ?_⟩
    dsimp only [callBody, cInitialize]
    by_cases hc : l.count = 0
    · rw [if_pos (show (l.ref e).inits = 0 from hc), if_pos hc]
      refine ⟨?_, ?_, ?_⟩
      · show l.count + 1 = 1; omega
      · funext k
        rw [ref_modes_none]
        unfold getSession
        split
        · rfl
        · dsimp only [addSession]
          simp only [List.find?_cons, List.find?_nil]
          repeat' split
          all_goals simp_all
      · exact loadToken_login _ _ _
    · rw [if_neg (show ¬ (l.ref e).inits = 0 from hc), if_neg hc]
      rfl
  | cFinal =>
    rw [hst]
    refine ⟨rfl, ?_⟩
    dsimp only [callBody, cFinalize]
    by_cases hc : l.count = 1
    · rw [if_pos (show (l.ref e).inits = 1 from hc), if_pos (by omega)]
      unfold Lib.ref Ref.down
      have hm : (fun h => (getSession { (Lib.store e { l with count := l.count - 1 }).1 with sessions := [], token := {} } h).map
          fun s => s.use == Use.rw) = fun _ => none := by
        funext k
        unfold getSession
        split <;> rfl
      have ha : ({} : Account).ref e = RefAcct.unset := by
        unfold Account.ref RefAcct.unset
        congr 1
        funext p
        exact propext ⟨fun h => h.1 rfl, False.elim⟩
      rw [hm]
      show Ref.mk (l.count - 1) _ _ _ (({} : Account).ref e) (({} : Account).ref e) = _
      rw [ha, show l.count - 1 = 0 by omega]
    · rw [if_neg (show ¬ (l.ref e).inits = 1 from hc), if_neg (by omega)]
      rfl
  | slot id c =>
    dsimp only [Ref.Step]
    by_cases hc : l.count ≤ 0
    · rw [if_pos (show (l.ref e).inits ≤ 0 from hc), hst]
      dsimp only [callBody]
      rw [if_pos hc]
      exact ⟨rfl, rfl⟩
    rw [if_neg (show ¬ (l.ref e).inits ≤ 0 from hc)]
    by_cases h1 : id ≠ 1
    · rw [if_pos h1, hst]
      dsimp only [callBody]
      rw [if_neg hc, if_pos h1]
      exact ⟨rfl, rfl⟩
    rw [if_neg h1]
    have h1 : id = 1 := by omega
    subst h1
    have hcb : callBody e l (.slot 1 c) = slotCall e l c := by
      dsimp only [callBody]; rw [if_neg hc, if_neg (by simp)]
    cases c with
    | tokenInfo ptr now =>
      rw [hst, hcb]
      cases ptr with
      | false => exact ⟨rfl, rfl⟩
      | true =>
        refine ⟨rfl, rfl, _, rfl, rfl, rfl, ?_⟩
        refine ⟨decide_eq_true_iff, decide_eq_true_iff, decide_eq_true_iff, decide_eq_true_iff, decide_eq_true_iff,
          decide_eq_true_iff⟩
    | initToken pin label => rw [hst, hcb]; exact ref_initToken hh hi pin label
    | openSession rw' serial ptr =>
      cases serial with
      | false => rw [hst, hcb]; exact ⟨rfl, rfl⟩
      | true =>
        cases ptr with
        | false => rw [hst, hcb]; exact ⟨rfl, rfl⟩
        | true => exact ref_openSession hi hb (by omega) rw'
    | closeAll =>
      rw [hst, hcb]
      exact ⟨rfl, ref_closeAll hi (by omega)⟩
  | sess h c =>
    dsimp only [Ref.Step]
    by_cases hc : l.count ≤ 0
    · rw [if_pos (show (l.ref e).inits ≤ 0 from hc), hst]
      dsimp only [callBody]
      rw [if_pos hc]
      exact ⟨rfl, rfl⟩
    rw [if_neg (show ¬ (l.ref e).inits ≤ 0 from hc)]
    cases hs : getSession l h with
    | none =>
      have hcb : callBody e l (.sess h c) = (l, { rv := .sessionHandleInvalid }) := by
        dsimp only [callBody]; rw [if_neg hc, hs]
      rw [ref_modes_none.mpr hs, hst, hcb]
      exact ⟨rfl, rfl⟩
    | some s =>
      have hcb : callBody e l (.sess h c) = sessCall e l s c := by
        dsimp only [callBody]; rw [if_neg hc, hs]
      rw [hcb] at hu
      rw [ref_modes_some hs, hst, hcb]
      exact ref_sess hh hi hb hs c hu

/-- **C124.** Every history of calls, from a process in which the library has not been
initialised, with any token in the directory, is a history of the small machine, and at its end
the machine is in the state one sees: as many initialisations, the same sessions open in the same
modes, the same login, the same PINs accepted, the same wrong tries counted. -/
theorem c124_machine (hh : HashLen e) {l₀ : Lib} (h₀ : Start l₀) (cs : List Call) (hb : (run e l₀ cs).bad = false) :
    Ref.Run (SameHash e) .down (history e l₀ cs) ((run e l₀ cs).ref e) := by
  have hstart : l₀.ref e = Ref.down := by
    unfold Lib.ref Ref.down
    have ha : ({} : Account).ref e = RefAcct.unset := by
      unfold Account.ref RefAcct.unset
      congr 1
      funext p
      exact propext ⟨fun h => h.1 rfl, False.elim⟩
    rw [h₀.count, h₀.token]
    have hm : (fun h => (getSession l₀ h).map fun s => s.use == Use.rw) = fun _ => none := by
      funext k
      unfold getSession
      rw [h₀.sessions]
      split <;> rfl
    rw [hm]
    show Ref.mk 0 _ _ _ (({} : Account).ref e) (({} : Account).ref e) = _
    rw [ha]
  rw [← hstart]
  have hi := h₀.sinv
  generalize l₀ = l at hi hb
  induction cs generalizing l with
  | nil => exact .nil _
  | cons c cs ih =>
    exact .cons (ref_step hh hi c (run_good (cs := cs) hb)) (ih _ (hi.step e c) hb)

/-- What the machine sees of the sessions is what `C_GetSessionInfo` shows. -/
theorem c124_seen {l₀ : Lib} (h₀ : Start l₀) (cs : List Call) (hb : (run e l₀ cs).bad = false) (h : Nat) (rw' : Bool) :
    ((run e l₀ cs).ref e).modes h = some rw' ↔ OpenAs e (run e l₀ cs) h rw' := by
  have hi := h₀.sinv.run e cs
  rw [openAs_iff hi]
  simp [Lib.ref, hb]

theorem ref_foreseen {same : Bytes → Bytes → Prop} {r r₁ r₂ : Ref} {c : Call} {a b : Resp} (hc : Foreseen c)
    (h1 : Ref.Step same r c a r₁) (h2 : Ref.Step same r c b r₂) : a.rv = b.rv := by
  cases c with
  | cInit => exact h1.1.trans h2.1.symm
  | cFinal => exact h1.1.trans h2.1.symm
  | slot id c =>
    dsimp only [Ref.Step] at h1 h2
    by_cases hi : r.inits ≤ 0
    · rw [if_pos hi] at h1 h2; exact h1.1.trans h2.1.symm
    rw [if_neg hi] at h1 h2
    by_cases hid : id ≠ 1
    · rw [if_pos hid] at h1 h2; exact h1.1.trans h2.1.symm
    rw [if_neg hid] at h1 h2
    cases c with
    | tokenInfo ptr now =>
      dsimp only [Ref.SlotStep] at h1 h2
      split at h1
      · rename_i h; rw [if_pos h] at h2; exact h1.2.trans h2.2.symm
      · rename_i h; rw [if_neg h] at h2; exact h1.2.1.trans h2.2.1.symm
    | initToken pin label =>
      dsimp only [Ref.SlotStep] at h1 h2
      cases pin with
      | none => exact h1.1.trans h2.1.symm
      | some pin =>
      cases label with
      | none => exact h1.1.trans h2.1.symm
      | some label =>
        dsimp only at h1 h2
        split at h1 <;> rename_i x1
        · rw [if_pos x1] at h2; exact h1.1.trans h2.1.symm
        rw [if_neg x1] at h2
        split at h1 <;> rename_i x2
        · rw [if_pos x2] at h2; exact h1.1.trans h2.1.symm
        rw [if_neg x2] at h2
        split at h1 <;> rename_i x3
        · rw [if_pos x3] at h2; exact h1.1.trans h2.1.symm
        rw [if_neg x3] at h2; exact h1.1.trans h2.1.symm
    | openSession rw' serial ptr =>
      dsimp only [Ref.SlotStep] at h1 h2
      split at h1 <;> rename_i x1
      · rw [if_pos x1] at h2; exact h1.1.trans h2.1.symm
      rw [if_neg x1] at h2
      split at h1 <;> rename_i x2
      · rw [if_pos x2] at h2; exact h1.1.trans h2.1.symm
      rw [if_neg x2] at h2
      split at h1 <;> rename_i x3
      · rw [if_pos x3] at h2; exact h1.1.trans h2.1.symm
      rw [if_neg x3] at h2
      split at h1 <;> rename_i x4
      · rw [if_pos x4] at h2; exact h1.1.trans h2.1.symm
      rw [if_neg x4] at h2; exact h1.1.trans h2.1.symm
    | closeAll => exact h1.1.trans h2.1.symm
  | sess h c =>
    dsimp only [Ref.Step] at h1 h2
    by_cases hi : r.inits ≤ 0
    · rw [if_pos hi] at h1 h2; exact h1.1.trans h2.1.symm
    rw [if_neg hi] at h1 h2
    cases hm : r.modes h with
    | none => rw [hm] at h1 h2; exact h1.1.trans h2.1.symm
    | some rw' =>
      rw [hm] at h1 h2
      cases c with
      | close => exact h1.1.trans h2.1.symm
      | logout => exact h1.1.trans h2.1.symm
      | info ptr =>
        dsimp only [Ref.SessStep] at h1 h2
        split at h1
        · rename_i h; rw [if_pos h] at h2; exact h1.2.trans h2.2.symm
        · rename_i h; rw [if_neg h] at h2; exact h1.2.1.trans h2.2.1.symm
      | login u pin now =>
        dsimp only [Ref.SessStep] at h1 h2
        cases pin with
        | none => exact h1.1.trans h2.1.symm
        | some pin =>
          dsimp only at h1 h2
          split at h1 <;> rename_i x1
          · rw [if_pos x1] at h2; exact h1.1.trans h2.1.symm
          rw [if_neg x1] at h2
          cases u with
          | user => exact absurd rfl hc
          | contextSpecific => exact h1.1.trans h2.1.symm
          | other => exact h1.1.trans h2.1.symm
          | so =>
            dsimp only [Ref.Login] at h1 h2
            split at h1 <;> rename_i y1
            · rw [if_pos y1] at h2; exact h1.1.trans h2.1.symm
            rw [if_neg y1] at h2
            split at h1 <;> rename_i y2
            · rw [if_pos y2] at h2; exact h1.1.trans h2.1.symm
            rw [if_neg y2] at h2
            split at h1 <;> rename_i y3
            · rw [if_pos y3] at h2; exact h1.1.trans h2.1.symm
            rw [if_neg y3] at h2
            split at h1 <;> rename_i y4
            · rw [if_pos y4] at h2; exact h1.1.trans h2.1.symm
            rw [if_neg y4] at h2
            split at h1 <;> rename_i y5
            · rw [if_pos y5] at h2; exact h1.1.trans h2.1.symm
            rw [if_neg y5] at h2
            rcases h1 with h1 | h1
            · rcases h2 with h2 | h2
              · exact h1.1.trans h2.1.symm
              · exact Who.noConfusion h2.1
            · exact Who.noConfusion h1.1
      | _ => exact hc.elim

/-- **C124**, foreseen: two histories, of two processes even, that leave the machine in the same
state are answered the same status by every call on the slot, every `C_CloseSession`,
`C_GetSessionInfo`, `C_Logout` and every `C_Login` but the user's, whatever objects, searches and
operations they have in addition. -/
theorem c124_foreseen (hh : HashLen e) {l₁ l₂ : Lib} (h₁ : Start l₁) (h₂ : Start l₂) (cs ds : List Call) (c : Call)
    (hb₁ : (run e l₁ (cs ++ [c])).bad = false) (hb₂ : (run e l₂ (ds ++ [c])).bad = false) (hc : Foreseen c)
    (heq : (run e l₁ cs).ref e = (run e l₂ ds).ref e) :
    (answer e (run e l₁ cs) c).rv = (answer e (run e l₂ ds) c).rv := by
  rw [run_append] at hb₁ hb₂
  have s₁ := ref_step hh (h₁.sinv.run e cs) c hb₁
  have s₂ := ref_step hh (h₂.sinv.run e ds) c hb₂
  rw [heq] at s₁
  exact ref_foreseen hc s₁ s₂

/-- **C124**, the rest: a call on a session other than `C_CloseSession`, `C_Login`, `C_Logout`,
`C_InitPIN` and `C_SetPIN` leaves all of this as it is. -/
theorem c124_rest (h : Nat) (c : SessCall) (hc : c.isAccount = false) : (step e l (.sess h c)).1.ref e = l.ref e := by
  cases hb : l.bad with
  | true => rw [step_bad hb]
  | false =>
    have hcb : (callBody e l (.sess h c)).1.ref e = l.ref e := by
      dsimp only [callBody]
      split
      · rfl
      · cases hs : getSession l h with
        | none => rfl
        | some s => exact ref_sessCall hs hc
    obtain ⟨h1, h2, h3, _⟩ := step_sessions hb (e := e) (.sess h c)
    rw [← hcb]
    unfold Lib.ref getSession
    rw [h1, h2, h3]

/-- Non-vacuity: the machine on a history with a token being set up, wrong PINs and sessions; and a
history it does not have: a login with a PIN of three bytes is never successful. -/
example : (run Demo.env Demo.fresh Demo.setup).bad = false ∧
    ((run Demo.env Demo.fresh Demo.setup).ref Demo.env).inits = 1 ∧
    ((run Demo.env Demo.fresh Demo.setup).ref Demo.env).modes 65538 = some true ∧
    ((run Demo.env Demo.fresh Demo.setup).ref Demo.env).user.set = true := by decide +kernel

example : Ref.Run (SameHash Demo.env) .down (history Demo.env Demo.fresh Demo.setup)
    ((run Demo.env Demo.fresh Demo.setup).ref Demo.env) :=
  c124_machine (fun p s => by simp [Demo.env, Demo.store]) Demo.fresh_start Demo.setup (by decide +kernel)

example : (run Demo.env Demo.fresh (Demo.setup ++ [createCall 65538 (Demo.openTmpl false 7)] ++ [openCall false])).bad = false ∧
    (run Demo.env Demo.fresh (Demo.setup ++ [openCall false])).bad = false ∧ Foreseen (openCall false) ∧
    (run Demo.env Demo.fresh (Demo.setup ++ [createCall 65538 (Demo.openTmpl false 7)])).ref Demo.env =
      (run Demo.env Demo.fresh Demo.setup).ref Demo.env := by
  refine ⟨by decide +kernel, by decide +kernel, trivial, ?_⟩
  rw [run_append]
  exact c124_rest 65538 _ rfl

example (same : Bytes → Bytes → Prop) (r r' : Ref) (a : Resp) :
    Ref.Step same r (.sess 65538 (.login .so (some [1, 2, 3]) 0)) a r' → a.rv ≠ .ok := by
  intro h hok
  dsimp only [Ref.Step] at h
  split at h
  · rw [h.1] at hok; cases hok
  · split at h
    · rw [h.1] at hok; cases hok
    · dsimp only [Ref.SessStep] at h
      rw [if_pos (by simp [Ref.Length])] at h
      rw [h.1] at hok; cases hok

end Verif
