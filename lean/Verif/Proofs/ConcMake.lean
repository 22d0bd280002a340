import Verif.Spec.ConcMake
import Verif.Props.ConcObj
import Verif.Props.SessClose

/-!
# Objects made by several threads: what is known about a thread inside a call
-/

namespace Verif

variable {e : Env}

theorem createObject_use {s s' : Session} (h : s'.use = s.use) (t : List Entry) : createObject e s' t = createObject e s t := by
  unfold createObject newObject
  rw [h]

theorem forToken_of {t : List Entry} (h : ForToken t) : tokenByte t 0 ≠ .ok 0 := by
  obtain ⟨en, h1, h2⟩ := h
  unfold tokenByte
  rw [h1]
  dsimp only
  split; · simp
  split; · simp
  intro hx
  have hx := Except.ok.inj hx
  exact h2 (UInt8.toNat_inj.mp (by rw [hx]; rfl))

/-- The pointers that a thread holds are good, and what it has read is still so. -/
def Mc.Ok (e : Env) (l : Lib) : Mc → Prop
  | .idle => True
  | .built h on t o => tokenByte t 0 = .ok on ∧ ∃ s, getSession l h = some s ∧ s.use = .rw ∧ createObject e s t = (.ok, o)
  | .chosen h t o next => tokenByte t 0 = .ok 0 ∧ ∃ s o', getSession l h = some s ∧ s.use = .rw ∧ createObject e s t = (.ok, o') ∧
      s.objs.length < sessObjMax ∧ o = { o' with onToken := false, handle := nextHandle s.objs 0 } ∧ next = s.objs.head?.map (·.uid)
  | .linked h on k u => if on ≠ 0 then ∃ b, (k, u, b) ∈ l.token.objs.map Obj.key
      else ∃ s, getSession l h = some s ∧ ∃ o ∈ s.objs, o.uid = u

/-- The library changes without disturbing the thread. -/
theorem Mc.Ok.mono {l l' : Lib} {p : Mc} (hp : p.Ok e l)
    (h1 : ∀ h s, p.session = some h → getSession l h = some s → ∃ s', getSession l' h = some s' ∧ s'.use = s.use)
    (h2 : ∀ h, p.FillsSession h → ∀ s, getSession l h = some s → getSession l' h = some s)
    (h3 : ∀ k u b, p.fresh = some k → (k, u, b) ∈ l.token.objs.map Obj.key → (k, u, b) ∈ l'.token.objs.map Obj.key) : p.Ok e l' := by
  cases p with
  | idle => trivial
  | built h on t o =>
    obtain ⟨g1, s, g2, g3, g4⟩ := hp
    obtain ⟨s', k1, k2⟩ := h1 h s rfl g2
    exact ⟨g1, s', k1, k2.trans g3, by rw [createObject_use k2]; exact g4⟩
  | chosen h t o next =>
    obtain ⟨g1, s, o', g2, g⟩ := hp
    exact ⟨g1, s, o', h2 h rfl s g2, g⟩
  | linked h on k u =>
    dsimp only [Mc.Ok] at hp ⊢
    by_cases h0 : on ≠ 0
    · rw [if_pos h0] at hp ⊢
      obtain ⟨b, hb⟩ := hp
      exact ⟨b, h3 k u b rfl hb⟩
    · rw [if_neg h0] at hp ⊢
      obtain ⟨s, g1, g2⟩ := hp
      exact ⟨s, h2 h ⟨rfl, by simpa using h0⟩ s g1, g2⟩

theorem Mc.Ok.same {l l' : Lib} {p : Mc} (hp : p.Ok e l) (h1 : l'.sessions = l.sessions) (h2 : l'.token = l.token) : p.Ok e l' :=
  hp.mono (fun h s _ hs => ⟨s, by rw [getSession_congr h1]; exact hs, rfl⟩) (fun h _ s hs => by rw [getSession_congr h1]; exact hs)
    (fun k u b _ hm => by rw [h2]; exact hm)

theorem fills_session {p : Mc} {h : Nat} (hf : p.FillsSession h) : p.session = some h := by
  cases p with
  | idle => cases hf
  | built h' on t o => exact congrArg some hf.1
  | chosen h' t o n => exact congrArg some hf
  | linked h' on k u => exact congrArg some hf.1

theorem mc_idle_session {p : Mc} (h : p.session = none) : p = .idle := by cases p <;> first | rfl | cases h

/-- An open session is as it was after a call that is not made in it and closes no sessions. -/
theorem session_same {l : Lib} (hi : SInv l) {h : Nat} {s : Session} (hs : getSession l h = some s) {c : Call}
    (h1 : ∀ sc, c ≠ .sess h sc) (h2 : ∀ i, c ≠ .slot i .closeAll) (h3 : c ≠ .cFinal) (hb : (step e l c).1.bad = false) :
    getSession (step e l c).1 h = some s := by
  obtain ⟨hb0, _, he⟩ := step_good hb
  have hc := count_pos_of_open hi hs
  have hc' : ¬ l.count ≤ 0 := by omega
  cases c with
  | cFinal => exact absurd rfl h3
  | cInit =>
    rw [he]
    have : ¬ l.count = 0 := by omega
    simp only [callBody, cInitialize, this, if_false]
    exact hs
  | slot id c =>
    by_cases hid : id ≠ 1
    · rw [he]
      simp only [callBody, hc', if_false]
      rw [if_pos hid]
      exact hs
    · obtain rfl : id = 1 := by simpa using hid
      cases c with
      | tokenInfo p n =>
        rw [he]
        simp only [callBody, hc', if_false, slotCall, ne_eq, not_true_eq_false]
        split <;> exact hs
      | initToken p lab =>
        rw [he]
        simp only [callBody, hc', if_false, slotCall, ne_eq, not_true_eq_false]
        rw [getSession_congr (initToken_sessions e l p lab).1]; exact hs
      | closeAll => exact absurd rfl (h2 1)
      | openSession rw2 serial ptr =>
        cases serial
        · rw [he]
          simp only [callBody, hc', if_false, slotCall, ne_eq, not_true_eq_false, Bool.not_false, if_true]
          exact hs
        cases ptr
        · rw [he]
          simp only [callBody, hc', if_false, slotCall, ne_eq, not_true_eq_false, Bool.not_false, if_true,
            Bool.not_true, Bool.false_eq_true]
          exact hs
        have hsp := (openSession_spec (e := e) hi hb0 hc rw2).2
        unfold openCall at hsp
        rcases hsp with ⟨_, _, hr⟩ | ⟨_, _, _, hr⟩ | ⟨_, _, k, _, hn, _, hk, _⟩
        · rw [hr]; exact hs
        · rw [hr]; exact hs
        · rw [hk h ?_]
          · exact hs
          · rintro rfl; rw [hn] at hs; cases hs
  | sess k c => rw [other_session hi k h (fun hx => h1 c (by rw [hx])) c]; exact hs

/-- A whole call that does not disturb the thread. -/
theorem Mc.Ok.call {l : Lib} (hi : SInv l) (hc : CapInv l) {p : Mc} (hp : p.Ok e l) {c : Call}
    (hu : ∀ h, p.session = some h → p.Undisturbed h c) (hb : (step e l c).1.bad = false) : p.Ok e (step e l c).1 := by
  have hbad := (step_good hb).1
  refine hp.mono ?_ ?_ ?_
  · intro h s hps hs
    have hl := (hu h hps).1
    have ho : OpenAs e l h (s.use == .rw) := (openAs_iff hi).mpr ⟨hbad, s, hs, rfl⟩
    have := openAs_step hi ho (c := c) (by rintro rfl; exact hl rfl) (by rintro rfl; exact hl) (by rintro rfl; exact hl) hb
    obtain ⟨_, s', g1, g2⟩ := (openAs_iff (hi.step e c)).mp this
    refine ⟨s', g1, ?_⟩
    obtain ⟨_, n1, _⟩ := getSession_handle hs
    obtain ⟨_, n2, _⟩ := getSession_handle g1
    cases hx : s.use <;> cases hy : s'.use <;> simp_all
  · intro h hf s hs
    have hl := hu h (fills_session hf)
    exact session_same hi hs (hl.2 hf) (by rintro i rfl; exact hl.1) (by rintro rfl; exact hl.1) hb
  · intro k u b hk hm
    cases p with
    | linked h on k' u' =>
      cases hk
      have hl := (hu h rfl).1
      by_cases hcnt : 0 < l.count
      · refine key_step hi hc.pop.uidOk hbad hcnt (h := h) (k := k) ?_ hm
        cases c with
        | cInit => trivial
        | cFinal => exact hl
        | slot i c => cases c <;> first | trivial | exact hl
        | sess j c =>
          cases c <;> first | trivial | exact hl | skip
          rename_i i
          exact fun hx => hl (congrArg some hx.symm)
      · exfalso
        have := (hc.off (by omega)).1
        rw [this] at hm
        cases hm
    | _ => cases hk

/-- A whole `C_CreateObject` whose object is made. -/
theorem create_step {l : Lib} (hi : SInv l) (hb : l.bad = false) {h : Nat} {s : Session} {t : List Entry} {o : Obj} {on : Nat}
    (hs : getSession l h = some s) (hu : s.use = .rw) (ho : createObject e s t = (.ok, o)) (hon : tokenByte t 0 = .ok on) :
    step e l (.sess h (.create (some t) true)) =
      ((sessAddObject e l s on o).1, match (sessAddObject e l s on o).2 with
        | none => { rv := .functionFailed }
        | some k => { rv := .ok, handle := some k }) := by
  have hcnt : ¬ l.count ≤ 0 := by have := count_pos_of_open hi hs; omega
  have hcb : callBody e l (.sess h (.create (some t) true)) = ((sessAddObject e l s on o).1, match (sessAddObject e l s on o).2 with
        | none => { rv := .functionFailed }
        | some k => { rv := .ok, handle := some k }) := by
    simp only [callBody, hcnt, if_false, hs, sessCall, cCreate, Bool.not_true, Bool.false_eq_true, hu, ne_eq, not_true_eq_false, ho,
      addObject, hon]
    split <;> rename_i heq <;> rw [heq]
  rw [step_eq hb, hcb]
  rw [hcb]
  split <;> simp

/-- A `C_CreateObject` made in one go changes nothing but `bad`. -/
theorem make_refused {l : Lib} {h : Nat} {t : List Entry} (hb : l.bad = false)
    (hr : ∀ s on o, getSession l h = some s → s.use = .rw → createObject e s t = (.ok, o) → tokenByte t 0 ≠ .ok on) :
    (step e l (.sess h (.create (some t) true))).1.sessions = l.sessions ∧
    (step e l (.sess h (.create (some t) true))).1.token = l.token := by
  obtain ⟨e1, _, e3, _⟩ := step_sessions (e := e) hb (.sess h (.create (some t) true))
  rw [e1, e3]
  have : (callBody e l (.sess h (.create (some t) true))).1 = l := by
    simp only [callBody]
    split; · rfl
    split; · rfl
    rename_i s hs
    simp only [sessCall, cCreate, Bool.not_true, Bool.false_eq_true, if_false]
    split; · rfl
    rename_i hu
    split
    · rename_i o ho
      unfold addObject
      cases hon : tokenByte t 0 with
      | error rv => rfl
      | ok on => exact absurd hon (hr s on o hs (by simpa using hu) ho)
    · rfl
  rw [this]
  exact ⟨rfl, rfl⟩

theorem tailFrom_head (os : List Obj) : tailFrom os (os.head?.map (·.uid)) = some os := by
  cases os with
  | nil => rfl
  | cons o os =>
    simp [tailFrom]

end Verif
