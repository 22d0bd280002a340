import Verif.Proofs.Private
import Verif.Props.SessClose
import Verif.Props.Objs
/-!
# Objects of a session

C20: session objects belong to the session that created them.
-/
namespace Verif

variable {e : Env} {l : Lib} {h : Nat} {os : List Obj}

theorem withObjs_map (l : Lib) (h : Nat) (os : List Obj) :
    withObjs l h os = { l with sessions := l.sessions.map (repl h os) } := rfl

theorem repl_none {ss : List Session} (hn : ∀ s ∈ ss, s.handle ≠ h) : ss.map (repl h os) = ss := by
  conv => rhs; rw [← List.map_id ss]
  exact List.map_congr_left fun s hs => by unfold repl; rw [if_neg (hn s hs)]; rfl

theorem session_unique {ss : List Session} (hn : (handles ss).Nodup) {s t : Session} (hs : s ∈ ss) (ht : t ∈ ss)
    (he : s.handle = t.handle) : s = t := by
  induction ss with
  | nil => cases hs
  | cons a ss ih =>
    obtain ⟨h1, h2⟩ := List.nodup_cons.mp hn
    have key : ∀ b ∈ ss, b.handle ≠ a.handle := fun b hb hab =>
      h1 (by show a.handle ∈ _; rw [← hab]; exact List.mem_map_of_mem (f := fun x : Session => x.handle) hb)
    rcases List.mem_cons.mp hs with h3 | h3 <;> rcases List.mem_cons.mp ht with h4 | h4
    · rw [h3, h4]
    · subst h3; exact absurd he.symm (key t h4)
    · subst h4; exact absurd he (key s h3)
    · exact ih h2 h3 h4

/-- Opening a session does the same whatever the objects of an open session are. -/
theorem withObjs_open (hi : SInv l) {s₀ : Session} (ho : getSession l h = some s₀) (rw' : Bool) :
    openSession (withObjs l h os) rw' = withObjs2 h os (openSession l rw') := by
  obtain ⟨hs0, hu, hm⟩ := getSession_handle ho
  have hh : h ∈ handles l.sessions := by
    rw [← hs0]; exact List.mem_map_of_mem (f := fun x : Session => x.handle) hm
  unfold openSession
  rw [withObjs_map]
  have hf : (l.sessions.map (repl h os)).find? (fun s => s.use == .no) =
      (l.sessions.find? fun s => s.use == .no).map (repl h os) := by
    rw [List.find?_map]
    congr 2
    funext s
    simp only [Function.comp, repl_use]
  dsimp only
  split
  · rfl
  · rw [hf]
    cases hc : l.sessions.find? (fun s => s.use == .no) with
    | some s =>
      have hs : s.use = .no := by simpa using List.find?_some hc
      have hne : s.handle ≠ h := by
        intro he
        have := session_unique hi.nodup hm (List.mem_of_find?_eq_some hc) (hs0.trans he.symm)
        subst this; exact hu hs
      simp only [Option.map_some, repl_handle]
      exact withObjs2_upd l hne _ _ (by intro _; rfl)
    | none =>
      have hhd : (l.sessions.map (repl h os)).head?.any (fun s => sessId s.handle == sessMax) =
          (l.sessions.head?.any fun s => sessId s.handle == sessMax) := by
        cases l.sessions with
        | nil => rfl
        | cons s ss => simp only [List.map_cons, List.head?_cons, Option.any_some, repl_handle]
      simp only [Option.map_none, hhd]
      split
      · rfl
      · rcases hi.shape with ⟨_, h2⟩ | ⟨_, n, _, _, h2⟩
        · rw [h2] at hm; cases hm
        · cases hss : l.sessions with
          | nil => rw [hss] at hm; cases hm
          | cons s ss =>
            simp only [List.map_cons, addSession, repl_handle]
            have hb := mem_down.mp (h2 ▸ hh)
            have hhead : s.handle = 65536 + n := by
              cases n with
              | zero => rw [hss] at h2; simp [handles, down] at h2
              | succ n =>
                rw [hss] at h2
                simp only [handles, List.map_cons, down, List.cons.injEq] at h2
                exact h2.1
            unfold withObjs2
            rw [withObjs_map]
            simp only [List.map_cons]
            have : ∀ u : Use, repl h os { handle := s.handle + 1, use := u } =
                { handle := s.handle + 1, use := u } := by
              intro u
              unfold repl
              rw [if_neg (by show s.handle + 1 ≠ h; omega)]
            rw [this]

/-- Closing a session leaves nothing of its objects. -/
theorem closeOne_self {ss : List Session} (hn : (handles ss).Nodup) {s₀ : Session} (hm : s₀ ∈ ss)
    (hh : s₀.handle = h) (hu : s₀.use ≠ .no) : closeOne (ss.map (repl h os)) h = closeOne ss h := by
  cases ss with
  | nil => rfl
  | cons s ss =>
    rw [List.map_cons]
    unfold closeOne
    simp only [repl_handle]
    split
    · rename_i hc
      have : ∀ t ∈ ss, t.handle ≠ h := by
        intro t ht he
        refine (List.nodup_cons.mp hn).1 ?_
        show s.handle ∈ _
        rw [hc.1, ← he]
        exact List.mem_map_of_mem (f := fun x : Session => x.handle) ht
      rw [repl_none this]
    · rw [← List.map_cons (f := repl h os), List.map_map]
      apply List.map_congr_left
      intro t ht
      simp only [Function.comp, repl_handle]
      split
      · rename_i hth
        have := session_unique hn hm ht (hh.trans hth.symm)
        subst this
        unfold repl sessFinal
        simp [hth, hu]
      · rename_i hth
        unfold repl
        rw [if_neg hth]

/-- The libraries do not differ, are both dead, or differ in the objects of the open
session `h`. -/
def Twin (h : Nat) (l l' : Lib) : Prop :=
  l' = l ∨ (l.bad = true ∧ l'.bad = true) ∨
    (l.bad = false ∧ (getSession l h).isSome ∧ ∃ os, l' = withObjs l h os)

theorem closeAll_twin (hi : SInv l) (hb : l.bad = false) (ho : (getSession l h).isSome) :
    Twin h { l with sessions := closeAll l.sessions }
      { withObjs l h os with sessions := closeAll (withObjs l h os).sessions } := by
  obtain ⟨s₀, ho⟩ := Option.isSome_iff_exists.mp ho
  obtain ⟨hs0, hu, hm⟩ := getSession_handle ho
  rcases hi.shape with ⟨_, h2⟩ | ⟨_, n, hn2, hn70, hn⟩
  · rw [h2] at hm; cases hm
  obtain ⟨s2, s1, h2m, h1m, h2h, h1h, hca⟩ := closeAll_spec hn2 hn70 hn
  obtain ⟨t2, t1, ht2, ht1, ht2h, ht1h, htc⟩ := closeAll_spec (ss := l.sessions.map (repl h os)) hn2 hn70
    (by rw [← hn]; unfold handles; rw [List.map_map]; exact List.map_congr_left fun s _ => repl_handle s)
  obtain ⟨a2, ha2, rfl⟩ := List.mem_map.mp ht2
  obtain ⟨a1, ha1, rfl⟩ := List.mem_map.mp ht1
  rw [repl_handle] at ht2h ht1h
  have e2 := session_unique hi.nodup ha2 h2m (ht2h.trans h2h.symm)
  have e1 := session_unique hi.nodup ha1 h1m (ht1h.trans h1h.symm)
  subst e2 e1
  have hW : ({ withObjs l h os with sessions := closeAll (withObjs l h os).sessions } : Lib) =
      { l with sessions := [sessFinal (repl h os a2), repl h os a1] } := by
    rw [← htc]; rfl
  rw [hW, hca]
  by_cases h37 : h = 65537
  · right; right
    have r2 : repl h os a2 = a2 := by unfold repl; rw [if_neg (by omega)]
    have hs : s₀ = a1 := session_unique hi.nodup hm ha1 (by omega)
    subst hs
    refine ⟨hb, ?_, os, ?_⟩
    · subst h37
      simp [getSession, sessFinal_handle, h2h, hs0, hu]
    · rw [withObjs_map, r2]
      have : repl h os (sessFinal a2) = sessFinal a2 := by
        unfold repl; rw [if_neg (by rw [sessFinal_handle]; omega)]
      simp only [List.map_cons, List.map_nil, this]
  · left
    have r1 : repl h os a1 = a1 := by unfold repl; rw [if_neg (by omega)]
    have r2 : sessFinal (repl h os a2) = sessFinal a2 := by
      by_cases h38 : a2.handle = h
      · have hs : s₀ = a2 := session_unique hi.nodup hm ha2 (hs0.trans h38.symm)
        subst hs
        unfold repl sessFinal
        simp [h38, hu]
      · unfold repl; rw [if_neg h38]
    rw [r1, r2]

theorem withObjs_initToken (l : Lib) (p : Option Bytes) (lab : Option Bytes) :
    initToken e (withObjs l h os) p lab = withObjs2 h os (initToken e l p lab) := by
  have h1 : (withObjs l h os).sessions = l.sessions.map (repl h os) := rfl
  unfold initToken
  simp only [h1, anyInUse_map]
  split
  · split
    · rfl
    simp only [show (withObjs l h os).token = l.token from rfl]
    split
    · rfl
    split <;> rfl
  · rfl

/-- A call not made on `h`, or closing it, gives the same answer, and leaves at most the
same difference. -/
theorem twin_body (hi : SInv l) (hb : l.bad = false) (ho : (getSession l h).isSome) {c : Call}
    (hc : ∀ sc, c = .sess h sc → sc = .close) :
    (callBody e (withObjs l h os) c).2 = (callBody e l c).2 ∧
    (((callBody e (withObjs l h os) c).1 = withObjs (callBody e l c).1 h os ∧ c ≠ closeCall h ∧ c ≠ closeAllCall ∧
        (c = .cFinal → (callBody e l c).1.sessions = l.sessions)) ∨
     Twin h (callBody e l c).1 (callBody e (withObjs l h os) c).1) := by
  obtain ⟨s₀, ho'⟩ := Option.isSome_iff_exists.mp ho
  obtain ⟨hs0, hu, hm⟩ := getSession_handle ho'
  have hp := count_pos_of_open hi ho'
  have hp' : ¬ l.count ≤ 0 := by omega
  have hc1 : (withObjs l h os).count = l.count := rfl
  have two : ∀ {r r' : Lib × Resp}, r' = withObjs2 h os r → r'.2 = r.2 ∧ r'.1 = withObjs r.1 h os := by
    intro r r' hr; subst hr; exact ⟨rfl, rfl⟩
  cases c with
  | cInit =>
    simp only [callBody, cInitialize, hc1, show ¬ l.count = 0 by omega, if_false]
    exact ⟨trivial, .inl ⟨rfl, by simp [closeCall], by simp [closeAllCall], by simp⟩⟩
  | cFinal =>
    simp only [callBody, cFinalize, hc1]
    split
    · exact ⟨trivial, .inr (.inl rfl)⟩
    · exact ⟨trivial, .inl ⟨rfl, by simp [closeCall], by simp [closeAllCall], fun _ => rfl⟩⟩
  | slot id c =>
    simp only [callBody, hc1, hp', if_false]
    split
    · rename_i hid
      exact ⟨rfl, .inl ⟨rfl, by simp [closeCall], by simp [closeAllCall]; intro h; exact absurd h hid, by simp⟩⟩
    · cases c with
      | tokenInfo p n =>
        simp only [slotCall]
        split <;> exact ⟨rfl, .inl ⟨rfl, by simp [closeCall], by simp [closeAllCall], by simp⟩⟩
      | initToken p lab =>
        obtain ⟨h1, h2⟩ := two (withObjs_initToken (e := e) (h := h) (os := os) l p lab)
        exact ⟨h1, .inl ⟨h2, by simp [closeCall], by simp [closeAllCall], by simp⟩⟩
      | closeAll => exact ⟨rfl, .inr (closeAll_twin hi hb ho)⟩
      | openSession rw2 serial ptr =>
        simp only [slotCall]
        split; · exact ⟨rfl, .inl ⟨rfl, by simp [closeCall], by simp [closeAllCall], by simp⟩⟩
        split; · exact ⟨rfl, .inl ⟨rfl, by simp [closeCall], by simp [closeAllCall], by simp⟩⟩
        obtain ⟨h1, h2⟩ := two (withObjs_open (os := os) hi ho' rw2)
        exact ⟨h1, .inl ⟨h2, by simp [closeCall], by simp [closeAllCall], by simp⟩⟩
  | sess k c =>
    by_cases hk : k = h
    · subst hk
      obtain rfl := hc c rfl
      simp only [callBody, hc1, hp', if_false]
      have hg : getSession (withObjs l k os) k = some { s₀ with objs := os } := by
        rw [withObjs_map]
        unfold getSession at ho' ⊢
        split at ho'
        · cases ho'
        · rename_i hx
          rw [if_neg hx]
          dsimp only
          cases hf : l.sessions.find? (fun s => s.handle == k) with
          | none => rw [hf] at ho'; cases ho'
          | some t =>
            rw [hf] at ho'
            simp only [Option.bind_some] at ho'
            split at ho'
            · cases ho'
            · rename_i htu
              cases ho'
              have hff : (l.sessions.map (repl k os)).find? (fun s => s.handle == k) = some (repl k os s₀) := by
                rw [List.find?_map]
                have : ((fun s : Session => s.handle == k) ∘ repl k os) = fun s => s.handle == k := by
                  funext s; simp only [Function.comp, repl_handle]
                rw [this, hf]; rfl
              rw [hff]
              simp only [Option.bind_some, repl_use, htu, if_false]
              unfold repl
              rw [if_pos hs0]
      simp only [hg, ho', sessCall]
      have : closeSession e (withObjs l k os) s₀.handle = closeSession e l s₀.handle := by
        unfold closeSession
        rw [hs0, show (withObjs l k os).sessions = l.sessions.map (repl k os) from rfl,
          closeOne_self hi.nodup hm hs0 hu]
        rfl
      rw [this]
      exact ⟨rfl, .inr (.inl rfl)⟩
    · simp only [callBody, hc1, hp', if_false, withObjs_getSession l hk]
      have hne : (Call.sess k c) ≠ closeCall h := by
        unfold closeCall; intro hx; injection hx with h1 h2; exact hk h1
      cases hg : getSession l k with
      | none => exact ⟨rfl, .inl ⟨rfl, hne, by simp [closeAllCall], by simp⟩⟩
      | some s =>
        obtain ⟨h1, h2⟩ := two (withObjs_sessCall (e := e) (h := h) (os := os) l s (by rw [(getSession_handle hg).1]; exact hk) c)
        exact ⟨h1, .inl ⟨h2, hne, by simp [closeAllCall], by simp⟩⟩

theorem twin_step {l' : Lib} (hi : SInv l) (ht : Twin h l l') {c : Call}
    (hc : IsOpen e l h → ∀ sc, c = .sess h sc → sc = .close) :
    (step e l' c).2 = (step e l c).2 ∧ Twin h (step e l c).1 (step e l' c).1 := by
  rcases ht with rfl | ⟨h1, h2⟩ | ⟨hb, ho, os, rfl⟩
  · exact ⟨rfl, .inl rfl⟩
  · rw [step_bad h1, step_bad h2]; exact ⟨rfl, .inr (.inl ⟨h1, h2⟩)⟩
  · obtain ⟨s₀, hs₀⟩ := Option.isSome_iff_exists.mp ho
    have hop : IsOpen e l h := (isOpen_iff hi).mpr ⟨hb, s₀, hs₀⟩
    have hb' : (withObjs l h os).bad = false := hb
    obtain ⟨h1, h2⟩ := twin_body (e := e) (os := os) hi hb ho (hc hop)
    by_cases hub : (callBody e l c).2.rv = .ub
    · have e1 : step e l c = ({ (callBody e l c).1 with bad := true }, (callBody e l c).2) := by
        unfold step; simp only [hb, Bool.false_eq_true, if_false, hub, if_true]
      have e2 : step e (withObjs l h os) c = ({ (callBody e (withObjs l h os) c).1 with bad := true },
          (callBody e (withObjs l h os) c).2) := by
        unfold step; simp only [hb', h1, Bool.false_eq_true, if_false, hub, if_true]
      rw [e1, e2]
      exact ⟨h1, .inr (.inl ⟨rfl, rfl⟩)⟩
    · have e1 : step e l c = callBody e l c := by
        unfold step; simp only [hb, Bool.false_eq_true, if_false, hub]
      have e2 : step e (withObjs l h os) c = callBody e (withObjs l h os) c := by
        unfold step; simp only [hb', h1, Bool.false_eq_true, if_false, hub]
      rw [e2, e1]
      refine ⟨h1, ?_⟩
      rcases h2 with ⟨h3, h4, h5, h6⟩ | h3
      · cases hbb : (callBody e l c).1.bad with
        | true => right; left; rw [h3]; exact ⟨hbb, hbb⟩
        | false =>
          right; right
          refine ⟨hbb, ?_, os, h3⟩
          by_cases hf : c = .cFinal
          · rw [getSession_congr (h6 hf)]; exact ho
          · obtain ⟨rw', ho2⟩ : ∃ rw', OpenAs e l h rw' :=
              ⟨_, (openAs_iff hi).mpr ⟨hb, s₀, hs₀, rfl⟩⟩
            have := openAs_step hi ho2 h4 h5 hf (by rw [e1]; exact hbb)
            obtain ⟨_, t, ht, _⟩ := (openAs_iff (hi.step e c)).mp this
            rw [e1] at ht
            rw [ht]; rfl
      · exact h3

theorem answers_bad (cs : List Call) (hb : l.bad = true) : replies e l cs = cs.map fun _ => { rv := .ub } := by
  induction cs with
  | nil => rfl
  | cons c cs ih => simp only [replies, answer, step_bad hb, List.map_cons]; rw [ih]

theorem twin_answers (cs : List Call) {l l' : Lib} (hi : SInv l) (ht : Twin h l l') (hc : Outside e h l cs) :
    replies e l' cs = replies e l cs := by
  induction cs generalizing l l' with
  | nil => rfl
  | cons c cs ih =>
    rcases ht with rfl | ⟨h3, h4⟩ | ht
    · rfl
    · rw [answers_bad _ h3, answers_bad _ h4]
    · obtain ⟨h1, h2⟩ := twin_step (e := e) (c := c) hi (.inr (.inr ht)) (fun ho => (hc ho).1)
      simp only [replies, answer]
      rw [h1]
      congr 1
      refine ih (hi.step e c) h2 ?_
      obtain ⟨h3, h4, _⟩ := ht
      obtain ⟨s, hs⟩ := Option.isSome_iff_exists.mp h4
      exact (hc ((isOpen_iff hi).mpr ⟨h3, s, hs⟩)).2

/-! ## C20 -/

/-- C20: whatever objects session `h` has, no call made on another session, no call on
the slot, and no call at all after the session has been closed (however it was closed,
and also on a new session that got the same handle) gives a different answer. So none of
them can name the session's objects, find them, or read anything of them. -/
theorem c20_unreachable (e : Env) {l₀ : Lib} (h₀ : Start l₀) (cs : List Call) (h : Nat)
    (ho : IsOpen e (run e l₀ cs) h) (os : List Obj) (ds : List Call) (hd : Outside e h (run e l₀ cs) ds) :
    replies e (withObjs (run e l₀ cs) h os) ds = replies e (run e l₀ cs) ds := by
  have hi : SInv (run e l₀ cs) := h₀.sinv.run e cs
  generalize run e l₀ cs = l at *
  obtain ⟨hb, s, hs⟩ := (isOpen_iff hi).mp ho
  exact twin_answers ds hi (.inr (.inr ⟨hb, by rw [hs]; rfl, os, rfl⟩)) hd

/-- C20: a session just opened has no objects, also when it got the handle of a session
that had some: a handle names an object in it only if that is a token object. -/
theorem c20_new_session (e : Env) {l₀ : Lib} (h₀ : Start l₀) (cs : List Call) (rw : Bool) {h : Nat}
    (ha : answer e (run e l₀ cs) (openCall rw) = { rv := .ok, handle := some h }) :
    sessObjs (step e (run e l₀ cs) (openCall rw)).1 h = [] ∧
    ∀ o, Names e (step e (run e l₀ cs) (openCall rw)).1 h o →
      ∃ ob ∈ tokenObjs (run e l₀ cs), ob.handle = o := by
  have hi : SInv (run e l₀ cs) := h₀.sinv.run e cs
  generalize run e l₀ cs = l at *
  unfold answer at ha
  cases hb : l.bad with
  | true => rw [step_bad hb] at ha; cases ha
  | false =>
    have hc : 0 < l.count := by
      rw [step_resp hb] at ha
      simp only [callBody, openCall] at ha
      split at ha
      · cases ha
      · omega
    obtain ⟨_, h1⟩ := openSession_spec (e := e) hi hb hc rw
    rcases h1 with ⟨_, _, hr⟩ | ⟨_, _, _, hr⟩ | ⟨_, _, k, hr, _, ⟨s, hs, _, hos, _⟩, _, ht, _⟩
    · rw [hr] at ha; cases ha
    · rw [hr] at ha; cases ha
    · rw [hr] at ha
      cases ha
      refine ⟨by unfold sessObjs; rw [hs]; exact hos, ?_⟩
      intro o hn
      obtain ⟨_, _, ob, hl⟩ := names_iff.mp hn
      unfold look at hl
      rw [hs] at hl
      simp only [Option.map_some, Option.some.injEq, Option.map_eq_some_iff] at hl
      obtain ⟨p, hp, _⟩ := hl
      unfold findObj at hp
      split at hp
      · rw [ht] at hp
        exact ⟨p, List.mem_of_find?_eq_some hp, by simpa using List.find?_some hp⟩
      · rw [hos] at hp; cases hp

instance (e : Env) (l : Lib) (h : Nat) : Decidable (IsOpen e l h) := inferInstanceAs (Decidable (_ = _))

instance (e : Env) (l : Lib) (h o : Nat) : Decidable (Names e l h o) := inferInstanceAs (Decidable (_ = _))

/-- Non-vacuity: session 65538 has an object that its own session can name and find; a
second session is opened, looks for objects and finds none; the first session is closed
and its handle reused: nothing is found there either. With another object in place of
the first, session 65538 itself would answer differently. -/
example : let l := run Demo.env Demo.fresh (Demo.setup ++ [createCall 65538 (Demo.aesTmpl false 1)])
    let ds : List Call := [openCall false, .sess 65537 (.findInit (some [])), .sess 65537 (.findNext true 10),
      .sess 65537 (.size 1 true), closeCall 65538, openCall true, .sess 65538 (.findInit (some [])),
      .sess 65538 (.findNext true 10), .sess 65538 (.size 1 true)]
    IsOpen Demo.env l 65538 ∧ sessObjs l 65538 ≠ [] ∧ Names Demo.env l 65538 1 ∧
    (replies Demo.env l ds).map (·.rv) =
      [.ok, .ok, .ok, .objectHandleInvalid, .ok, .ok, .ok, .ok, .objectHandleInvalid] ∧
    (replies Demo.env l ds).map (·.found) = List.replicate 9 [] ∧
    (replies Demo.env l [.sess 65538 (.findInit (some [])), .sess 65538 (.findNext true 10)]).map (·.found) =
      [[], [1]] := by decide

/-- The sequence of calls just shown stays outside session 65538 until it is closed. -/
example : Outside Demo.env 65538 (run Demo.env Demo.fresh (Demo.setup ++ [createCall 65538 (Demo.aesTmpl false 1)]))
    [openCall false, .sess 65537 (.findInit (some [])), closeCall 65538, openCall true,
      .sess 65538 (.findInit (some []))] := by
  refine fun _ => ⟨by simp [openCall], fun _ => ⟨by simp, fun _ => ⟨by simp [closeCall], fun h => ?_⟩⟩⟩
  exact absurd h (by decide)

end Verif
