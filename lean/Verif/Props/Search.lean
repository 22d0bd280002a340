import Verif.Spec.Search
import Verif.Props.Begun
import Verif.Props.Find
import Verif.Props.Trace

/-!
# C117: one search at a time
-/

namespace Verif

variable {e : Env}

/-- No session that is closed has a search in progress. -/
def Ended (l : Lib) : Prop := ∀ s ∈ l.sessions, s.use = .no → s.find.active = false

theorem Ended.same {l l' : Lib} (h : Ended l) (hs : SameAt Session.fnd l l') : Ended l' := by
  intro s hm hu
  have h1 : s.fnd ∈ l'.sessions.map Session.fnd := List.mem_map.mpr ⟨s, hm, rfl⟩
  rw [show l'.sessions.map Session.fnd = l.sessions.map Session.fnd from hs] at h1
  obtain ⟨t, ht, he⟩ := List.mem_map.mp h1
  have hu' : t.use = s.use := congrArg (·.2.1) he
  have hf : t.find = s.find := congrArg (·.2.2) he
  rw [← hf]
  exact h t ht (by rw [hu', hu])

/-- A change of the search of an open session. -/
theorem Ended.find {l : Lib} (hi : SInv l) (h : Ended l) {s : Session} (hm : s ∈ l.sessions) (hu : s.use ≠ .no) (g : Session → FindSt) :
    Ended (l.upd s.handle fun u => { u with find := g u }) := by
  intro t ht hn
  obtain ⟨u, hum, rfl⟩ := List.mem_map.mp ht
  by_cases heq : u.handle = s.handle
  · exfalso
    rw [if_pos heq] at hn
    have h1 := (find_iff hi.nodup).mpr ⟨hum, heq⟩
    rw [(find_iff hi.nodup).mpr ⟨hm, rfl⟩] at h1
    cases h1
    exact hu hn
  · rw [if_neg heq] at hn ⊢
    exact h u hum hn

/-- What a call of a session other than a search and `C_CloseSession` keeps. -/
theorem fnd_sessCall {l : Lib} (s : Session) {c : SessCall} (hcl : c ≠ .close) (h1 : ∀ t, c ≠ .findInit t)
    (h2 : ∀ p n, c ≠ .findNext p n) (h3 : c ≠ .findFinal) : SameAt Session.fnd l (sessCall e l s c).1 := by
  have no : NoObjs Session.fnd := fun _ _ => rfl
  have nc : NoCrypt Session.fnd := fun _ _ _ => rfl
  cases c with
  | cryptInit a b d => exact same_cryptInit nc ..
  | crypt d => exact same_crypt nc ..
  | wrap a b d f => exact same_wrap nc ..
  | unwrap a b d f g => exact same_unwrap nc no ..
  | findNext p m => exact absurd rfl (h2 p m)
  | findInit t => exact absurd rfl (h1 t)
  | findFinal => exact absurd rfl h3
  | close => exact absurd rfl hcl
  | _ => exact same_objs no _ _ (by simp) (by simp) (by simp) (by simp) (by simp) (by simp) (by simp) (by simp)

theorem Ended.callBody {l : Lib} (hi : SInv l) (h : Ended l) (c : Call) : Ended (callBody e l c).1 := by
  cases c with
  | cInit =>
    simp only [Verif.callBody, cInitialize]
    split
    · intro s hs _
      simp only [addSession, List.mem_cons, List.not_mem_nil, or_false] at hs
      rcases hs with rfl | rfl <;> rfl
    · exact h
  | cFinal =>
    simp only [Verif.callBody, cFinalize]
    split
    · intro s hs; cases hs
    · exact h
  | slot id c =>
    simp only [Verif.callBody]
    split
    · exact h
    split
    · exact h
    cases c with
    | tokenInfo p n => simp only [slotCall]; split <;> exact h
    | initToken p lab =>
      intro s hs
      rw [show (slotCall e l (.initToken p lab)).1.sessions = l.sessions from (initToken_sessions e l p lab).1] at hs
      exact h s hs
    | closeAll =>
      intro s hs
      simp only [slotCall] at hs
      unfold Verif.closeAll at hs
      split at hs
      · cases hs
      · rename_i a as heq
        rcases List.mem_cons.mp hs with rfl | h1
        · exact fun _ => rfl
        · exact h s (mem_closeDown (heq ▸ List.mem_cons_of_mem _ h1))
    | openSession rw' serial ptr =>
      simp only [slotCall]
      split
      · exact h
      split
      · exact h
      unfold openSession
      dsimp only
      split
      · exact h
      split
      · intro t ht hn
        obtain ⟨u, hum, rfl⟩ := List.mem_map.mp ht
        split at hn
        · exfalso; revert hn; cases rw' <;> exact fun hn => by cases hn
        · rename_i hne
          rw [if_neg hne]; exact h u hum hn
      · split
        · exact h
        · split
          · rename_i s rest hadd
            intro t ht hn
            cases hss : l.sessions with
            | nil =>
              rw [hss] at hadd
              simp only [addSession, List.cons.injEq] at hadd
              obtain ⟨rfl, rfl⟩ := hadd
              simp only [List.mem_cons, List.not_mem_nil, or_false] at ht
              subst ht; rfl
            | cons a as =>
              rw [hss] at hadd
              simp only [addSession, List.cons.injEq] at hadd
              obtain ⟨rfl, rfl⟩ := hadd
              rcases List.mem_cons.mp ht with rfl | ht
              · rfl
              · exact h t (hss ▸ ht) hn
          · exact h
  | sess k c =>
    simp only [Verif.callBody]
    split
    · exact h
    split
    · exact h
    · rename_i s hs
      obtain ⟨hsh, hsu, hsm⟩ := getSession_handle hs
      by_cases hcl : c = .close
      · subst hcl
        have hone : Ended { l with sessions := closeOne l.sessions s.handle } := by
          intro t ht
          simp only at ht ⊢
          unfold Verif.closeOne at ht
          split at ht
          · cases ht
          · rename_i heq
            split at ht
            · exact h t (heq ▸ List.mem_cons_of_mem _ (mem_dropUnused ht))
            · obtain ⟨t, htm, rfl⟩ := List.mem_map.mp ht
              split
              · exact fun _ => rfl
              · exact h t (heq ▸ htm)
        simp only [sessCall, closeSession]
        split
        · exact hone
        · exact hone
      by_cases hfd : (∃ t, c = .findInit t) ∨ (∃ p n, c = .findNext p n) ∨ c = .findFinal
      · rcases hfd with ⟨t, rfl⟩ | ⟨p, n, rfl⟩ | rfl
        · simp only [sessCall, cFindInit]
          repeat' split
          all_goals first | exact h | exact h.find hi hsm hsu _
        · simp only [sessCall, cFindNext]
          repeat' split
          all_goals first | exact h | exact h.find hi hsm hsu _
        · exact h.find hi hsm hsu _
      · exact h.same (fnd_sessCall s hcl (fun t ht => hfd (.inl ⟨t, ht⟩)) (fun p n ht => hfd (.inr (.inl ⟨p, n, ht⟩)))
          (fun ht => hfd (.inr (.inr ht))))

/-- The outcomes of `C_FindObjectsInit`. -/
theorem findInit_cases (l : Lib) (s : Session) (t : Option (List Entry)) :
    ((cFindInit e l s t).1 = l ∧ ∀ q, searchBegun q (cFindInit e l s t).2.rv = false) ∨
    ((cFindInit e l s t).1 = (l.upd s.handle fun u => { u with find := { active := true, found := [] } }) ∧
      (cFindInit e l s t).2.rv = .attributeValueInvalid) ∨
    (cFindInit e l s t).2.rv = .ub ∨
    ∃ f, (cFindInit e l s t).1 = (l.upd s.handle fun u => { u with find := { active := true, found := f } }) ∧ (cFindInit e l s t).2.rv = .ok := by
  unfold cFindInit
  split
  · exact .inl ⟨rfl, fun q => by cases q <;> rfl⟩
  split
  · exact .inl ⟨rfl, fun q => by cases q <;> rfl⟩
  dsimp only
  split
  · rename_i rv htb
    refine .inr (.inl ⟨rfl, ?_⟩)
    unfold tokenByte at htb
    repeat' split at htb
    all_goals first | (cases htb; rfl) | cases htb
  split
  · exact .inr (.inr (.inl rfl))
  split
  · exact .inr (.inr (.inl rfl))
  · exact .inr (.inr (.inr ⟨_, rfl, rfl⟩))

/-- What the answers tell about the search of session `h`. -/
def SearchKnown (l : Lib) (h : Nat) (acc : Bool) : Prop :=
  (getSession l h = none → acc = false) ∧ ∀ s, getSession l h = some s → s.find.active = acc

/-- What a call does to the search of session `h`, when it is open afterwards. -/
theorem searchStep {l : Lib} (hi : SInv l) (hn : Ended l) (c : Call) (h : Nat) (hg : (step e l c).1.bad = false)
    {q : Bool} (hbad : q = true ∨ ¬ BadSearch e l h c) {acc : Bool} (hk : SearchKnown l h acc) {s' : Session}
    (hs' : getSession (step e l c).1 h = some s') : s'.find.active = searchSeen q e h l acc c := by
  obtain ⟨hb, hub, hst⟩ := step_good hg
  have hi' : SInv (step e l c).1 := hi.step e c
  have keep : getSession (step e l c).1 h = getSession l h → searchSeen q e h l acc c = acc →
      s'.find.active = searchSeen q e h l acc c := by
    intro h1 h2
    rw [h2]
    exact hk.2 s' (h1 ▸ hs')
  have keepS : (callBody e l c).1.sessions = l.sessions → searchSeen q e h l acc c = acc →
      s'.find.active = searchSeen q e h l acc c := by
    intro h1 h2
    refine keep ?_ h2
    rw [hst]; unfold getSession; rw [h1]
  cases c with
  | cInit =>
    by_cases h0 : l.count = 0
    · exfalso
      rw [hst] at hs'
      obtain ⟨hm, _, hu⟩ := (getSession_iff (hst ▸ hi')).mp hs'
      simp only [callBody, cInitialize, h0, if_true, addSession, List.mem_cons, List.not_mem_nil, or_false] at hm
      rcases hm with rfl | rfl <;> exact hu rfl
    · exact keepS (by simp [callBody, cInitialize, h0]) rfl
  | cFinal =>
    by_cases h0 : l.count - 1 = 0
    · exfalso
      rw [hst] at hs'
      obtain ⟨hm, _, _⟩ := (getSession_iff (hst ▸ hi')).mp hs'
      simp only [callBody, cFinalize, h0, if_true] at hm
      cases hm
    · exact keepS (by simp [callBody, cFinalize, h0]) rfl
  | slot id c =>
    by_cases hc0 : l.count ≤ 0
    · exact keepS (by simp [callBody, hc0]) rfl
    by_cases hid : id = 1
    case neg => exact keepS (by simp [callBody, hc0, hid]) rfl
    subst hid
    cases c with
    | tokenInfo p n => exact keepS (by simp only [callBody, if_neg hc0, slotCall]; repeat' split
                                       all_goals first | rfl | simp_all) rfl
    | initToken p n =>
      refine keepS ?_ rfl
      simp only [callBody, if_neg hc0, slotCall, initToken]
      repeat' split
      all_goals first | rfl | simp_all
    | openSession rw' serial ptr =>
      by_cases hss : serial = true
      case neg => exact keepS (by simp [callBody, hc0, slotCall, hss]) rfl
      by_cases hpp : ptr = true
      case neg => exact keepS (by simp [callBody, hc0, slotCall, hss, hpp]) rfl
      subst hss hpp
      show _ = acc
      -- the session was open before, or it was not in use, or it is new
      cases hgs : getSession l h with
      | some s =>
        obtain ⟨hsh, hsu, hsm⟩ := getSession_handle hgs
        obtain ⟨_, hcase⟩ := openSession_spec (e := e) hi hb (by omega) rw'
        change _ ∨ _ at hcase
        have hstep : step e l (openCall rw') = step e l (.slot 1 (.openSession rw' true true)) := rfl
        rcases hcase with ⟨_, _, h3⟩ | ⟨_, _, _, h3⟩ | ⟨_, _, h', h3, h4, ⟨s, h5, _, _, h6⟩, h7, _⟩
        · rw [← hstep, h3] at hs'; exact hk.2 s' hs'
        · rw [← hstep, h3] at hs'; exact hk.2 s' hs'
        · by_cases hh : h = h'
          · subst hh; rw [hgs] at h4; cases h4
          · refine hk.2 s' ?_
            rw [← h7 h hh]; exact hs'
      | none =>
        rw [hk.1 hgs]
        have hidle : ∀ t ∈ l.sessions, t.handle = h → t.use = .no := by
          intro t ht hth
          apply Decidable.byContradiction
          intro hne
          have := (getSession_iff hi).mpr ⟨ht, hth, hne⟩
          rw [hgs] at this; cases this
        obtain ⟨hm, hsh, hsu⟩ := (getSession_iff hi').mp hs'
        rw [hst] at hm
        simp only [callBody, if_neg hc0, slotCall, openSession] at hm
        simp only [ne_eq, not_true_eq_false, if_false, Bool.not_true, Bool.false_eq_true] at hm
        have old : s' ∈ l.sessions → s'.find.active = false := fun hm => hn s' hm (hidle s' hm hsh)
        split at hm
        · exact old hm
        split at hm
        · obtain ⟨u, hum, rfl⟩ := List.mem_map.mp hm
          split at hsh
          · rename_i heq
            rw [if_pos heq]
            exact hn u hum (hidle u hum hsh)
          · rename_i heq
            rw [if_neg heq]
            exact hn u hum (hidle u hum hsh)
        · split at hm
          · exact old hm
          · split at hm
            · rename_i s rest hadd
              cases hss : l.sessions with
              | nil =>
                rw [hss] at hadd
                simp only [addSession, List.cons.injEq] at hadd
                obtain ⟨rfl, rfl⟩ := hadd
                simp only [List.mem_cons, List.not_mem_nil, or_false] at hm
                subst hm; rfl
              | cons a as =>
                rw [hss] at hadd
                simp only [addSession, List.cons.injEq] at hadd
                obtain ⟨rfl, rfl⟩ := hadd
                rcases List.mem_cons.mp hm with rfl | hm
                · rfl
                · exact old (hss ▸ hm)
            · exact old hm
    | closeAll =>
      obtain ⟨n, h2, h70, hh⟩ : ∃ n, 2 ≤ n ∧ n ≤ 70 ∧ handles l.sessions = down n := by
        rcases hi.shape with ⟨h1, _⟩ | ⟨_, h2⟩
        · exact absurd h1 hc0
        · exact h2
      obtain ⟨s2, s1, m2, m1, e2, e1, hcl⟩ := closeAll_spec h2 h70 hh
      have hl' : (step e l (.slot 1 .closeAll)).1 = { l with sessions := closeAll l.sessions } := by
        have := closeAll_step (e := e) hi hb (by omega : 0 < l.count)
        show (step e l closeAllCall).1 = _
        rw [this]
      obtain ⟨hm, he, hu⟩ := (getSession_iff hi').mp hs'
      rw [hl'] at hm
      dsimp only at hm
      rw [hcl] at hm
      simp only [List.mem_cons, List.not_mem_nil, or_false] at hm
      rcases hm with rfl | rfl
      · exact absurd (sessFinal_use s2) hu
      · exact hk.2 _ ((getSession_iff hi).mpr ⟨m1, he, hu⟩)
  | sess j c =>
    -- a call that is refused before it looks at the session
    have refused : (callBody e l (.sess j c)).1 = l → (∀ q, searchBegun q (callBody e l (.sess j c)).2.rv = false) →
        s'.find.active = searchSeen q e h l acc (.sess j c) := by
      intro h1 h2
      rw [hst, h1] at hs'
      have hans : ∀ q, searchBegun q (answer e l (.sess j c)).rv = false := by unfold answer; rw [hst]; exact h2
      have hok : (answer e l (.sess j c)).rv ≠ .ok := fun hx => by have := hans false; rw [hx] at this; cases this
      have : searchSeen q e h l acc (.sess j c) = acc := by
        cases c <;> try rfl
        case findInit t =>
          refine if_neg fun hx => ?_
          rw [hans q] at hx
          cases hx.2
        case findFinal => exact if_neg fun hx => hok hx.2
      rw [this]
      exact hk.2 s' hs'
    by_cases hc0 : l.count ≤ 0
    · exact refused (by simp only [callBody, if_pos hc0]) (fun q => by simp only [callBody, if_pos hc0]; cases q <;> rfl)
    cases hj : getSession l j with
    | none => exact refused (by simp only [callBody, if_neg hc0, hj]) (fun q => by simp only [callBody, if_neg hc0, hj]; cases q <;> rfl)
    | some s =>
      have hbody : callBody e l (.sess j c) = sessCall e l s c := by simp only [callBody, if_neg hc0, hj]
      obtain ⟨hsj, hsu, hsm⟩ := getSession_handle hj
      by_cases hhj : h = j
      case neg =>
        have hseen : searchSeen q e h l acc (.sess j c) = acc := by
          cases c <;> first
            | rfl
            | exact if_neg (fun hx => hhj hx.1.symm)
        refine keep ?_ hseen
        exact other_session (e := e) hi j h hhj c
      subst hhj
      by_cases hcl : c = .close
      · subst hcl
        have ho : IsOpen e l h := (isOpen_iff hi).mpr ⟨hb, s, hj⟩
        obtain ⟨_, _, h3, h4, _⟩ := close_spec (e := e) hi ho
        rw [show step e l (.sess h .close) = step e l (closeCall h) from rfl, h3] at hs'
        cases hs'
      have hans : answer e l (.sess h c) = (sessCall e l s c).2 := by unfold answer; rw [hst, hbody]
      have hact := hk.2 s hj
      have hup : ∀ g : Session → FindSt, getSession (l.upd s.handle fun u => { u with find := g u }) h = some { s with find := g s } := by
        intro g
        have h1 := searching_upd hj (f := fun u => { u with find := g u }) (fun _ => ⟨rfl, rfl⟩)
        rw [← hsj] at h1 ⊢
        exact h1
      by_cases hfd : (∃ t, c = .findInit t) ∨ (∃ p n, c = .findNext p n) ∨ c = .findFinal
      · rcases hfd with ⟨t, rfl⟩ | ⟨p, n, rfl⟩ | rfl
        · rw [hst, hbody] at hs'
          rw [hbody] at hub
          unfold searchSeen
          dsimp only
          unfold BadSearch at hbad
          dsimp only at hbad
          rw [hans] at hbad ⊢
          rcases findInit_cases (e := e) l s t with ⟨h1, h2⟩ | ⟨h1, h2⟩ | h1 | ⟨f, h1, h2⟩
          · rw [show (sessCall e l s (.findInit t)).1 = l from h1, hj] at hs'
            cases hs'
            rw [if_neg (fun hx => absurd (hx.2.symm.trans (h2 q)) (by decide))]
            exact hact
          · rcases hbad with rfl | hbad
            · rw [show (sessCall e l s (.findInit t)).1 = _ from h1, hup] at hs'
              cases hs'
              rw [if_pos ⟨rfl, by rw [show (sessCall e l s (.findInit t)).2.rv = _ from h2]; rfl⟩]
            · exact absurd ⟨rfl, h2⟩ hbad
          · exact absurd h1 hub
          · rw [show (sessCall e l s (.findInit t)).1 = _ from h1, hup] at hs'
            cases hs'
            rw [if_pos ⟨rfl, by rw [show (sessCall e l s (.findInit t)).2.rv = _ from h2]; rfl⟩]
        · show _ = acc
          rw [hst, hbody] at hs'
          simp only [sessCall, cFindNext] at hs'
          split at hs'
          · rw [hj] at hs'; cases hs'; exact hact
          · rw [hup] at hs'; cases hs'; exact hact
        · rw [hst, hbody] at hs'
          unfold searchSeen
          dsimp only
          rw [hans]
          simp only [sessCall] at hs' ⊢
          rw [hup] at hs'
          cases hs'
          simp
      · have hsame := fnd_sessCall (e := e) (l := l) s hcl (fun t ht => hfd (.inl ⟨t, ht⟩)) (fun p n ht => hfd (.inr (.inl ⟨p, n, ht⟩)))
          (fun ht => hfd (.inr (.inr ht)))
        have hseen : searchSeen q e h l acc (.sess h c) = acc := by
          cases c <;> first
            | rfl
            | exact absurd (.inl ⟨_, rfl⟩) hfd
            | exact absurd (.inr (.inr rfl)) hfd
        rw [hseen]
        obtain ⟨s'', h1, h2⟩ := find_of_same hsame hj
        rw [hst, hbody, h1] at hs'
        cases hs'
        rw [h2]; exact hact

theorem SearchKnown.run {q : Bool} {h : Nat} (cs : List Call) : ∀ {l : Lib} {acc : Bool}, SearchKnown l h acc → SInv l → Ended l →
    (q = true ∨ ∀ cs₁ c cs₂, cs = cs₁ ++ c :: cs₂ → ¬ BadSearch e (Verif.run e l cs₁) h c) → (Verif.run e l cs).bad = false →
    SearchKnown (Verif.run e l cs) h (searchOn q e h l cs acc) := by
  induction cs with
  | nil => intro l acc hk _ _ _ _; exact hk
  | cons c cs ih =>
    intro l acc hk hi hn hw hg
    have hg : (Verif.run e (Verif.step e l c).1 cs).bad = false := hg
    have hg1 := run_good hg
    have hi' : SInv (Verif.step e l c).1 := hi.step e c
    have hn' : Ended (Verif.step e l c).1 := by
      rw [(step_good hg1).2.2]; exact hn.callBody hi c
    refine ih ?_ hi' hn' (hw.imp id fun hw cs₁ d cs₂ hc => hw (c :: cs₁) d cs₂ (by rw [hc]; rfl)) hg
    unfold searchNoted
    refine ⟨fun hnone => if_neg fun ho => ?_, fun s' hs' => ?_⟩
    · obtain ⟨_, s, hs⟩ := (isOpen_iff hi').mp ho
      rw [hnone] at hs; cases hs
    · have ho : (sessionInfo e (Verif.step e l c).1 h).rv = .ok := (isOpen_iff hi').mpr ⟨hg1, s', hs'⟩
      rw [if_pos ho]
      exact searchStep hi hn c h hg1 (hw.imp id fun hw => hw [] c cs rfl) hk hs'

theorem search_told {l₀ : Lib} (h₀ : Start l₀) (cs : List Call) (h : Nat) {q : Bool}
    (hw : q = true ∨ ∀ cs₁ c cs₂, cs = cs₁ ++ c :: cs₂ → ¬ BadSearch e (run e l₀ cs₁) h c)
    (ho : IsOpen e (run e l₀ cs) h) (t : List Entry) :
    ((answer e (run e l₀ cs) (.sess h (.findInit (some t)))).rv = .operationActive ↔ searchOn q e h l₀ cs false = true) ∧
    (searchOn q e h l₀ cs false = true → (step e (run e l₀ cs) (.sess h (.findInit (some t)))).1 = run e l₀ cs) := by
  have hi := h₀.sinv.run e cs
  have hk0 : SearchKnown l₀ h false := by
    refine ⟨fun _ => rfl, fun s hs => ?_⟩
    have := (getSession_handle hs).2.2
    rw [h₀.sessions] at this; cases this
  have hn0 : Ended l₀ := by intro s hs; rw [h₀.sessions] at hs; cases hs
  obtain ⟨hb, s, hs⟩ := (isOpen_iff hi).mp ho
  have hk := SearchKnown.run (e := e) cs hk0 h₀.sinv hn0 hw hb
  generalize searchOn q e h l₀ cs false = acc at hk ⊢
  generalize run e l₀ cs = l at *
  have hact := hk.2 s hs
  have hc0 : ¬ l.count ≤ 0 := by have := count_pos_of_open hi hs; omega
  have hbody : callBody e l (.sess h (.findInit (some t))) = cFindInit e l s (some t) := by
    simp only [callBody, if_neg hc0, hs]; rfl
  cases acc with
  | true =>
    have h1 : cFindInit e l s (some t) = (l, { rv := .operationActive }) := by
      simp [cFindInit, hact]
    have h2 : step e l (.sess h (.findInit (some t))) = (l, { rv := .operationActive }) := by
      rw [step_eq hb (by rw [hbody, h1]; exact RV.noConfusion), hbody, h1]
    unfold answer
    rw [h2]
    exact ⟨⟨fun _ => rfl, fun _ => rfl⟩, fun _ => rfl⟩
  | false =>
    refine ⟨⟨fun hx => ?_, fun hx => by cases hx⟩, fun hx => by cases hx⟩
    exfalso
    unfold answer at hx
    rw [step_resp hb, hbody] at hx
    revert hx
    simp only [cFindInit, hact, Bool.false_eq_true, if_false]
    cases htb : tokenByte t 1 with
    | error rv =>
      unfold tokenByte at htb
      repeat' split at htb
      all_goals first | (cases htb; exact RV.noConfusion) | cases htb
    | ok on =>
      dsimp only
      repeat' split
      all_goals exact RV.noConfusion

/-- **C117** for the code as it is: whatever happened before, `C_FindObjectsInit` with a template in an open session
answers that an operation is active exactly when since it was opened a `C_FindObjectsInit` succeeded there or was
refused because of its template, and no `C_FindObjectsFinal` came after it. -/
theorem c117_exact {l₀ : Lib} (h₀ : Start l₀) (cs : List Call) (h : Nat) (ho : IsOpen e (run e l₀ cs) h) (t : List Entry) :
    ((answer e (run e l₀ cs) (.sess h (.findInit (some t)))).rv = .operationActive ↔ searchOn true e h l₀ cs false = true) ∧
    (searchOn true e h l₀ cs false = true → (step e (run e l₀ cs) (.sess h (.findInit (some t)))).1 = run e l₀ cs) :=
  search_told h₀ cs h (.inl rfl) ho t

/-- **C117** (partial): whatever happened before, `C_FindObjectsInit` with a template in an open session answers
that an operation is active exactly when a search was begun in that session since it was opened, and not ended;
and such a refused call changes nothing.
Missing: sessions in which an earlier `C_FindObjectsInit` was refused because of its template
(`Demo.c112_violated`: it is refused, and a search is in progress all the same). -/
theorem c117_partial {l₀ : Lib} (h₀ : Start l₀) (cs : List Call) (h : Nat)
    (hw : ∀ cs₁ c cs₂, cs = cs₁ ++ c :: cs₂ → ¬ BadSearch e (run e l₀ cs₁) h c)
    (ho : IsOpen e (run e l₀ cs) h) (t : List Entry) :
    ((answer e (run e l₀ cs) (.sess h (.findInit (some t)))).rv = .operationActive ↔ searchOn false e h l₀ cs false = true) ∧
    (searchOn false e h l₀ cs false = true → (step e (run e l₀ cs) (.sess h (.findInit (some t)))).1 = run e l₀ cs) :=
  search_told h₀ cs h (.inr hw) ho t

set_option maxRecDepth 20000 in
/-- Non-vacuity of `c117_partial`: a search, a second one refused; ended and begun again; and the session closed with a
search in progress and opened again under the same handle. -/
example :
    let fin : Call := .sess 65538 .findFinal
    let cs := Demo.withKey ++ [Demo.anySearch]
    let again := cs ++ [.sess 65538 .close, openCall true]
    (∀ cs₁ c cs₂, again = cs₁ ++ c :: cs₂ → ¬ BadSearch Demo.env (run Demo.env Demo.fresh cs₁) 65538 c) ∧
    searchOn false Demo.env 65538 Demo.fresh cs false = true ∧
    (answer Demo.env (run Demo.env Demo.fresh cs) Demo.anySearch).rv = .operationActive ∧
    searchOn false Demo.env 65538 Demo.fresh (cs ++ [fin]) false = false ∧
    (answer Demo.env (run Demo.env Demo.fresh (cs ++ [fin])) Demo.anySearch).rv = .ok ∧
    IsOpen Demo.env (run Demo.env Demo.fresh again) 65538 ∧
    searchOn false Demo.env 65538 Demo.fresh again false = false ∧
    (answer Demo.env (run Demo.env Demo.fresh again) Demo.anySearch).rv = .ok := by
  refine ⟨splits_of_take (by decide +kernel), ?_⟩
  unfold IsOpen
  decide

set_option maxRecDepth 20000 in
/-- Non-vacuity of `c117_exact`: after a search refused because of its template the session is open and the next one
is refused; after `C_FindObjectsFinal` it is not. -/
example :
    let cs := Demo.withKey ++ [Demo.badSearch]
    IsOpen Demo.env (run Demo.env Demo.fresh cs) 65538 ∧
    searchOn true Demo.env 65538 Demo.fresh cs false = true ∧
    (answer Demo.env (run Demo.env Demo.fresh cs) Demo.anySearch).rv = .operationActive ∧
    searchOn true Demo.env 65538 Demo.fresh (cs ++ [.sess 65538 .findFinal]) false = false ∧
    (answer Demo.env (run Demo.env Demo.fresh (cs ++ [.sess 65538 .findFinal])) Demo.anySearch).rv = .ok := by
  unfold IsOpen
  decide

end Verif
