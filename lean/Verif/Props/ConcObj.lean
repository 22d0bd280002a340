import Verif.Proofs.ConcObj
import Verif.Props.History
import Verif.Props.Restart

/-!
# Token objects used by several threads (C102)
-/

namespace Verif

variable {e : Env}

/-! ## What is known about a thread inside a call -/

/-- The pointers that a thread holds are good. -/
def OcOk (l : Lib) : Oc → Prop
  | .found h k u => handleOnToken k = true ∧ (∃ s, getSession l h = some s ∧ s.use = .rw) ∧
      (k, u, true) ∈ l.token.objs.map Obj.key
  | .reading h k u _ r => handleOnToken k = true ∧ (∃ s, getSession l h = some s) ∧
      (k, u, true) ∈ l.token.objs.map Obj.key ∧ ∀ en ∈ r, checkAttributes false [en] = .ok
  | _ => True

/-- The handles and identities of the objects are in order. -/
structure Sound (l : Lib) : Prop where
  si : SInv l
  cap : CapInv l
  hi : 0 < l.count → ∃ n, n < 2 ^ 28 ∧ HInv n l

theorem sound_run (hh : HashLen e) (hr : RandLen e) {l₀ : Lib} (h₀ : Start l₀) (hd : NoToken l₀) (cs : List Call)
    (hb : BoolToken cs) (hn : 2 * cs.length < 2 ^ 28) : Sound (run e l₀ cs) := by
  obtain ⟨h1, h2, h3⟩ := reach_inv hh hr h₀ hd cs hb hn
  refine ⟨h1, h2, fun hc => ⟨_, hn, ?_⟩⟩
  unfold HandleInv at h3
  rwa [if_pos hc] at h3

/-- The object a pointer of a thread points to. -/
theorem Sound.find {l : Lib} (hs : Sound l) {h k u : Nat} {s : Session} (hg : getSession l h = some s)
    (hk : (k, u, true) ∈ l.token.objs.map Obj.key) :
    ∃ o, o ∈ l.token.objs ∧ findObj l s k = some o ∧ o.uid = u ∧ o.onToken = true ∧
      l.token.objs.find? (fun p => p.uid == u) = some o := by
  obtain ⟨o, ho, hok⟩ := List.mem_map.mp hk
  simp only [Obj.key, Prod.mk.injEq] at hok
  obtain ⟨rfl, rfl, hot⟩ := hok
  obtain ⟨n, hn, hi⟩ := hs.hi (count_pos_of_open hs.si hg)
  refine ⟨o, ho, addressed_find hi hn hg ⟨List.mem_append_right _ ho, rfl⟩, rfl, hot, ?_⟩
  cases hf : l.token.objs.find? (fun p => p.uid == o.uid) with
  | none => exact absurd (List.find?_eq_none.mp hf o ho) (by simp)
  | some p =>
    have h1 := List.mem_of_find?_eq_some hf
    have h2 : p.uid = o.uid := by simpa using List.find?_some hf
    rw [uid_inj hs.cap.pop.uidOk.1 h1 ho h2]

/-- A call that leaves the object be leaves the pointers good. -/
theorem OcOk.step {l : Lib} (hs : Sound l) {p : Oc} (hp : OcOk l p) {c : Call} (hc : ∀ h k, p.Uses h k → LeavesBe h k c)
    (hb : (Verif.step e l c).1.bad = false) : OcOk (Verif.step e l c).1 p := by
  have hbad := (step_good hb).1
  have core : ∀ h k u, p.Uses h k → ∀ s, getSession l h = some s → (k, u, true) ∈ l.token.objs.map Obj.key →
      (∃ s', getSession (Verif.step e l c).1 h = some s' ∧ (s.use = .rw → s'.use = .rw)) ∧
      (k, u, true) ∈ (Verif.step e l c).1.token.objs.map Obj.key := by
    intro h k u hu s hg hk
    have hl := hc h k hu
    refine ⟨?_, key_step hs.si hs.cap.pop.uidOk hbad (count_pos_of_open hs.si hg) hl hk⟩
    have ho : OpenAs e l h (s.use == .rw) := (openAs_iff hs.si).mpr ⟨hbad, s, hg, rfl⟩
    have := openAs_step hs.si ho (c := c) (by rintro rfl; exact hl rfl) (by rintro rfl; exact hl) (by rintro rfl; exact hl) hb
    obtain ⟨_, s', h1, h2⟩ := (openAs_iff (hs.si.step e c)).mp this
    refine ⟨s', h1, fun h3 => ?_⟩
    rw [h3] at h2
    simpa using h2
  cases p with
  | idle => trivial
  | unlinked k u => trivial
  | found h k u =>
    obtain ⟨h1, ⟨s, h2, h3⟩, h4⟩ := hp
    obtain ⟨⟨s', g1, g2⟩, g3⟩ := core h k u ⟨rfl, rfl⟩ s h2 h4
    exact ⟨h1, ⟨s', g1, g2 h3⟩, g3⟩
  | reading h k u d r =>
    obtain ⟨h1, ⟨s, h2⟩, h3, h4⟩ := hp
    obtain ⟨⟨s', g1, _⟩, g3⟩ := core h k u ⟨rfl, rfl⟩ s h2 h3
    exact ⟨h1, ⟨s', g1⟩, g3, h4⟩

/-- The pointers of all threads are good, and what one destroys no other one uses. -/
structure Good (s : Obc) : Prop where
  ok : ∀ t, OcOk s.lib (s.oc t)
  apart : ∀ t u k, t ≠ u → (s.oc t).destroys = some k → (s.oc u).names ≠ some k

theorem obc_at_self (s : Obc) (t : Nat) (p : Oc) : (s.at t p).oc t = p := by simp [Obc.at]

theorem obc_at_ne (s : Obc) {t u : Nat} (p : Oc) (h : u ≠ t) : (s.at t p).oc u = s.oc u := by simp [Obc.at, h]

theorem uses_names {p : Oc} {h k : Nat} (hu : p.Uses h k) : p.names = some k := by
  cases p with
  | idle => cases hu
  | unlinked k u => cases hu
  | found h' k' u => exact congrArg some hu.2
  | reading h' k' u d r => exact congrArg some hu.2

theorem destroys_names {p : Oc} {k : Nat} (hd : p.destroys = some k) : p.names = some k := by
  cases p <;> first | exact hd | cases hd

/-- The place of one thread changes. -/
theorem Good.at {s : Obc} (hg : Good s) {l : Lib} {r : List Obj} {t : Nat} {p : Oc}
    (hl : ∀ u, u ≠ t → OcOk l (s.oc u)) (hp : OcOk l p)
    (h1 : ∀ k, p.destroys = some k → ∀ u, u ≠ t → (s.oc u).names ≠ some k)
    (h2 : ∀ k, p.names = some k → ∀ u, u ≠ t → (s.oc u).destroys ≠ some k) :
    Good (Obc.at { s with lib := l, removed := r } t p) := by
  refine ⟨fun u => ?_, fun a b k hab ha hb => ?_⟩
  · by_cases hu : u = t
    · subst hu; rw [obc_at_self]; exact hp
    · rw [obc_at_ne _ _ hu]; exact hl u hu
  · by_cases hat : a = t
    · subst hat
      rw [obc_at_self] at ha
      rw [obc_at_ne _ _ (Ne.symm hab)] at hb
      exact h1 k ha b (Ne.symm hab) hb
    · rw [obc_at_ne _ _ hat] at ha
      by_cases hbt : b = t
      · subst hbt
        rw [obc_at_self] at hb
        exact h2 k hb a hat ha
      · rw [obc_at_ne _ _ hbt] at hb
        exact hg.apart a b k hab ha hb

/-! ## One event -/

/-- The library and the answers of an event are those of the call that takes effect at it. -/
def Follows (e : Env) (s : Obc) (v : OEv) : Prop :=
  (s.step e v).1.lib = run e s.lib ((s.effect e v).toList.map (·.1)) ∧
  (s.effect e v).toList.map (·.2) = replies e s.lib ((s.effect e v).toList.map (·.1))

theorem follows_none {s : Obc} {v : OEv} (h1 : s.effect e v = none) (h2 : (s.step e v).1.lib = s.lib) : Follows e s v := by
  unfold Follows
  rw [h1]
  exact ⟨h2, rfl⟩

theorem follows_some {s : Obc} {v : OEv} {c : Call} {r : Resp} (h1 : s.effect e v = some (c, r))
    (h2 : (s.step e v).1.lib = (step e s.lib c).1) (h3 : r = answer e s.lib c) : Follows e s v := by
  unfold Follows
  rw [h1]
  exact ⟨h2, by rw [h3]; rfl⟩

theorem located_some {l : Lib} {h k : Nat} {s : Session} {o : Obj} (hl : located l h k = some (s, o)) :
    0 < l.count ∧ getSession l h = some s ∧ findObj l s k = some o := by
  unfold located at hl
  split at hl
  · cases hl
  · cases hg : getSession l h with
    | none => rw [hg] at hl; cases hl
    | some s' =>
      rw [hg] at hl
      simp only [Option.bind_some] at hl
      cases hf : findObj l s' k with
      | none => rw [hf] at hl; cases hl
      | some o' =>
        rw [hf] at hl
        simp only [Option.map_some, Option.some.injEq, Prod.mk.injEq] at hl
        obtain ⟨rfl, rfl⟩ := hl
        exact ⟨by omega, rfl, hf⟩

/-- The object just looked up. -/
theorem located_key {l : Lib} (hs : Sound l) {h k : Nat} {s : Session} {o : Obj} (hl : located l h k = some (s, o))
    (hon : handleOnToken k = true) : (k, o.uid, true) ∈ l.token.objs.map Obj.key := by
  obtain ⟨hc, hg, hf⟩ := located_some hl
  obtain ⟨h1, h2, _⟩ := findObj_parts hf
  obtain ⟨n, hn, hi⟩ := hs.hi hc
  have hm := h2 hon
  have hb : o.onToken = true := hi.tok.bit o.hb (List.mem_map_of_mem hm)
  exact List.mem_map.mpr ⟨o, hm, by unfold Obj.key; rw [h1, hb]⟩

theorem check_each {t : List Entry} (h : checkAttributes false t = .ok) : ∀ en ∈ t, checkAttributes false [en] = .ok := by
  induction t with
  | nil => intro en h; cases h
  | cons a t ih =>
    unfold checkAttributes at h
    split at h
    · rename_i ha
      intro en hen
      rcases List.mem_cons.mp hen with rfl | hen
      · simp only [checkAttributes, ha, if_true]
      · exact ih h en hen
    · rename_i ha; exact absurd h ha

/-- `C_DestroyObject` of a token object. -/
theorem destroy_step {l : Lib} (hb : l.bad = false) (hc : 0 < l.count) {h k : Nat} {s : Session} {o : Obj}
    (hg : getSession l h = some s) (hrw : s.use = .rw) (hf : findObj l s k = some o) (hon : handleOnToken k = true)
    (ht : o.onToken = true) : step e l (.sess h (.destroy k)) = (removeToken e l o, { rv := .ok }) := by
  have : callBody e l (.sess h (.destroy k)) = (removeToken e l o, { rv := .ok }) := by
    simp only [callBody, if_neg (show ¬ l.count ≤ 0 by omega), hg, sessCall, cDestroy, hrw, ne_eq, not_true_eq_false,
      if_false, hf, hon, ht, if_true]
  rw [step_eq hb (by rw [this]; simp), this]

/-- `C_GetAttributeValue` of one attribute. -/
theorem getOne_step {l : Lib} (hb : l.bad = false) (hc : 0 < l.count) {h k : Nat} {s : Session} {o : Obj} {en : Entry}
    (hg : getSession l h = some s) (hf : findObj l s k = some o) (hck : checkAttributes false [en] = .ok) :
    step e l (.sess h (.getAttr k (some [en]))) =
      ({ l with bad := l.bad || decide ((getEntry e.key o en).1 = .ub) },
        { rv := (getEntry e.key o en).1, tmpl := some [(getEntry e.key o en).2] }) := by
  have hcb : callBody e l (.sess h (.getAttr k (some [en]))) =
      (l, { rv := (getEntry e.key o en).1, tmpl := some [(getEntry e.key o en).2] }) := by
    simp only [callBody, if_neg (show ¬ l.count ≤ 0 by omega), hg, sessCall, cGetAttr, hf, getAttributeValue, hck,
      ne_eq, not_true_eq_false, if_false, getEntries]
    split
    · rename_i hx; rw [hx]
    · rfl
  unfold step
  simp only [hb, Bool.false_eq_true, if_false, hcb, Bool.false_or]
  split
  · rename_i hx; simp [hx]
  · rename_i hx
    simp only [hx, decide_false]
    rw [← hb]

theorem found_in {os rs : List Obj} {u : Nat} {o : Obj} (h : os.find? (fun p => p.uid == u) = some o) :
    (os ++ rs).find? (fun p => p.uid == u) = some o := by
  rw [List.find?_append, h]; rfl

/-- One event: it has the effect of the whole call, and the pointers stay good. -/
theorem obc_step {s : Obc} (hs : Sound s.lib) (hg : s.lib.bad = false → Good s) {v : OEv} (ha : s.ApartAt v) :
    Follows e s v ∧ ((s.step e v).1.lib.bad = false → Good (s.step e v).1) := by
  cases hb : s.lib.bad with
  | true =>
    cases v with
    | call c =>
      have hst : step e s.lib c = (s.lib, { rv := .ub }) := step_bad hb c
      refine ⟨follows_some (c := c) (r := { rv := .ub }) (by simp only [Obc.effect, Obc.step, hst]; rfl) rfl
        (by unfold answer; rw [hst]), ?_⟩
      intro h
      simp only [Obc.step, hst, hb] at h
      cases h
    | destroy t h k =>
      have hst : s.step e (.destroy t h k) = (s, some { rv := .ub }) := by simp only [Obc.step, hb, if_true]
      refine ⟨follows_some (c := .sess h (.destroy k)) (r := { rv := .ub }) (by simp only [Obc.effect, hst]; rfl)
        (by rw [hst, step_bad hb]) (by unfold answer; rw [step_bad hb]), ?_⟩
      rw [hst]; intro h; rw [hb] at h; cases h
    | getAttr t h k m =>
      have hst : s.step e (.getAttr t h k m) = (s, some { rv := .ub }) := by simp only [Obc.step, hb, if_true]
      refine ⟨follows_some (c := .sess h (.getAttr k (some m))) (r := { rv := .ub }) (by simp only [Obc.effect, hst]; rfl)
        (by rw [hst, step_bad hb]) (by unfold answer; rw [step_bad hb]), ?_⟩
      rw [hst]; intro h; rw [hb] at h; cases h
    | go t =>
      have hst : s.step e (.go t) = (s, none) := by simp only [Obc.step, hb, if_true]
      refine ⟨follows_none (by simp only [Obc.effect, hb, if_true]) (by rw [hst]), ?_⟩
      rw [hst]; intro h; rw [hb] at h; cases h
  | false =>
    have hg := hg hb
    have oneGo : ∀ t c, s.oc t = .idle → (∀ u h k, u ≠ t → (s.oc u).Uses h k → LeavesBe h k c) →
        (step e s.lib c).1.bad = false →
        Good (Obc.at { s with lib := (step e s.lib c).1 } t .idle) := by
      intro t c _ hc hbad
      refine hg.at (r := s.removed) (fun u hu => (hg.ok u).step hs (fun h k => hc u h k hu) hbad) trivial ?_ ?_ <;>
        (intro k h; cases h)
    cases v with
    | call c =>
      refine ⟨follows_some (c := c) (r := (step e s.lib c).2) rfl rfl rfl, ?_⟩
      intro hbad
      exact ⟨fun t => (hg.ok t).step hs (fun h k => ha t h k) hbad, hg.apart⟩
    | destroy t h k =>
      by_cases hid : s.oc t = .idle
      · have hst : s.step e (.destroy t h k) = (Obc.at { s with lib := (beginDestroy e s.lib h k).1 } t
            (beginDestroy e s.lib h k).2.1, (beginDestroy e s.lib h k).2.2) := by
          simp only [Obc.step, hb, hid, if_true, Bool.false_eq_true, if_false]
        have whole : beginDestroy e s.lib h k = inOneGo e s.lib (.sess h (.destroy k)) →
            Follows e s (.destroy t h k) ∧ ((s.step e (.destroy t h k)).1.lib.bad = false → Good (s.step e (.destroy t h k)).1) := by
          intro hw
          rw [hw] at hst
          refine ⟨follows_some (c := .sess h (.destroy k)) (r := (step e s.lib (.sess h (.destroy k))).2)
            (by simp only [Obc.effect, hst]; rfl) (by rw [hst]; rfl) rfl, ?_⟩
          rw [hst]
          intro hbad
          refine oneGo t _ hid ?_ hbad
          intro u h' k' hu huse
          show k ≠ k'
          rintro rfl
          exact ha u hu (uses_names huse)
        cases hl : located s.lib h k with
        | none => exact whole (by simp only [beginDestroy, hl])
        | some q =>
          obtain ⟨se, o⟩ := q
          by_cases hc : se.use = .rw ∧ handleOnToken k = true
          · have hbg : beginDestroy e s.lib h k = (s.lib, .found h k o.uid, none) := by
              simp only [beginDestroy, hl, if_pos hc]
            rw [hbg] at hst
            refine ⟨follows_none (by simp only [Obc.effect, hst]; rfl) (by rw [hst]; rfl), ?_⟩
            rw [hst]
            intro _
            obtain ⟨_, h2, _⟩ := located_some hl
            refine hg.at (l := s.lib) (r := s.removed) (fun u _ => hg.ok u) ⟨hc.2, ⟨se, h2, hc.1⟩, located_key hs hl hc.2⟩ ?_ ?_
            · intro k' hk' u hu
              cases hk'
              exact ha u hu
            · intro k' hk' u hu hd
              cases hk'
              exact ha u hu (destroys_names hd)
          · exact whole (by simp only [beginDestroy, hl, if_neg hc])
      · have hst : s.step e (.destroy t h k) = (s, none) := by
          simp only [Obc.step, hb, hid, Bool.false_eq_true, if_false]
        refine ⟨follows_none (by simp only [Obc.effect, hst]; rfl) (by rw [hst]), ?_⟩
        rw [hst]; intro _; exact hg
    | getAttr t h k m =>
      by_cases hid : s.oc t = .idle
      · have hst : s.step e (.getAttr t h k m) = (Obc.at { s with lib := (beginGet e s.lib h k m).1 } t
            (beginGet e s.lib h k m).2.1, (beginGet e s.lib h k m).2.2) := by
          simp only [Obc.step, hb, hid, if_true, Bool.false_eq_true, if_false]
        have whole : beginGet e s.lib h k m = inOneGo e s.lib (.sess h (.getAttr k (some m))) →
            Follows e s (.getAttr t h k m) ∧ ((s.step e (.getAttr t h k m)).1.lib.bad = false → Good (s.step e (.getAttr t h k m)).1) := by
          intro hw
          rw [hw] at hst
          refine ⟨follows_some (c := .sess h (.getAttr k (some m))) (r := (step e s.lib (.sess h (.getAttr k (some m)))).2)
            (by simp only [Obc.effect, hst]; rfl) (by rw [hst]; rfl) rfl, ?_⟩
          rw [hst]
          intro hbad
          exact oneGo t _ hid (fun _ _ _ _ _ => trivial) hbad
        cases hl : located s.lib h k with
        | none => exact whole (by simp only [beginGet, hl])
        | some q =>
          obtain ⟨se, o⟩ := q
          by_cases hc : handleOnToken k = true ∧ checkAttributes false m = .ok ∧ m ≠ []
          · have hbg : beginGet e s.lib h k m = (s.lib, .reading h k o.uid [] m, none) := by
              simp only [beginGet, hl, if_pos hc]
            rw [hbg] at hst
            refine ⟨follows_none (by simp only [Obc.effect, hst]; rfl) (by rw [hst]; rfl), ?_⟩
            rw [hst]
            intro _
            obtain ⟨_, h2, _⟩ := located_some hl
            refine hg.at (l := s.lib) (r := s.removed) (fun u _ => hg.ok u)
              ⟨hc.1, ⟨se, h2⟩, located_key hs hl hc.1, check_each hc.2.1⟩ ?_ ?_
            · intro k' hk'; cases hk'
            · intro k' hk' u hu
              cases hk'
              exact ha u hu
          · exact whole (by simp only [beginGet, hl, if_neg hc])
      · have hst : s.step e (.getAttr t h k m) = (s, none) := by
          simp only [Obc.step, hb, hid, Bool.false_eq_true, if_false]
        refine ⟨follows_none (by simp only [Obc.effect, hst]; rfl) (by rw [hst]), ?_⟩
        rw [hst]; intro _; exact hg
    | go t =>
      have hst : s.step e (.go t) = (Obc.at
          { s with lib := (proceed e s.lib s.removed (s.oc t)).1, removed := (proceed e s.lib s.removed (s.oc t)).2.1 } t
          (proceed e s.lib s.removed (s.oc t)).2.2.1, (proceed e s.lib s.removed (s.oc t)).2.2.2) := by
        simp only [Obc.step, hb, Bool.false_eq_true, if_false]
      have hok := hg.ok t
      cases hp : s.oc t with
      | idle =>
        have hef : s.effect e (.go t) = none := by simp only [Obc.effect, hb, hp, Bool.false_eq_true, if_false]
        rw [hp] at hst
        refine ⟨follows_none hef (by rw [hst]; rfl), ?_⟩
        rw [hst]; intro _
        refine hg.at (fun u _ => hg.ok u) trivial ?_ ?_ <;> (intro k h; cases h)
      | unlinked k u =>
        have hef : s.effect e (.go t) = none := by simp only [Obc.effect, hb, hp, Bool.false_eq_true, if_false]
        rw [hp] at hst
        refine ⟨follows_none hef (by rw [hst]; rfl), ?_⟩
        rw [hst]; intro _
        refine hg.at (fun u _ => hg.ok u) trivial ?_ ?_ <;> (intro k h; cases h)
      | found h k u =>
        have hef : s.effect e (.go t) = some (.sess h (.destroy k), { rv := .ok }) := by
          simp only [Obc.effect, hb, hp, Bool.false_eq_true, if_false]
        rw [hp] at hst hok
        obtain ⟨h1, ⟨se, h2, h3⟩, h4⟩ := hok
        obtain ⟨o, g1, g2, g3, g4, g5⟩ := hs.find h2 h4
        obtain ⟨q1, q2, q3⟩ := getSession_handle h2
        have hd := destroy_step (e := e) hb (count_pos_of_open hs.si h2) h2 h3 g2 h1 g4
        have hpr : proceed e s.lib s.removed (.found h k u) = (removeToken e s.lib o, o :: s.removed, .unlinked k u, none) := by
          have hf : s.lib.sessions.find? (fun x => x.handle == h) = some se := (find_iff hs.si.nodup).mpr ⟨q3, q1⟩
          simp only [proceed, hf, g5, g4, if_true]
        rw [hpr] at hst
        refine ⟨follows_some hef (by rw [hst, hd]; rfl) (by unfold answer; rw [hd]), ?_⟩
        rw [hst]
        intro hbad
        refine hg.at ?_ trivial ?_ ?_
        · intro w hw
          have := (hg.ok w).step (e := e) hs (c := .sess h (.destroy k)) (fun h' k' huse => by
            show k ≠ k'
            rintro rfl
            exact hg.apart t w k (Ne.symm hw) (by rw [hp]; rfl) (uses_names huse)) (by rw [hd]; exact hbad)
          rw [hd] at this
          exact this
        · intro k' hk' w hw
          cases hk'
          exact hg.apart t w k (Ne.symm hw) (by rw [hp]; rfl)
        · intro k' hk' w hw hdw
          cases hk'
          exact hg.apart w t k hw hdw (by rw [hp]; rfl)
      | reading h k u d r =>
        cases r with
        | nil =>
          have hef : s.effect e (.go t) = none := by simp only [Obc.effect, hb, hp, Bool.false_eq_true, if_false]
          rw [hp] at hst
          refine ⟨follows_none hef (by rw [hst]; rfl), ?_⟩
          rw [hst]; intro _
          refine hg.at (fun u _ => hg.ok u) trivial ?_ ?_ <;> (intro k h; cases h)
        | cons en r =>
          have hok' := hok
          rw [hp] at hst hok
          obtain ⟨h1, ⟨se, h2⟩, h3, h4⟩ := hok
          obtain ⟨o, g1, g2, g3, g4, g5⟩ := hs.find h2 h3
          have hone := getOne_step (e := e) hb (count_pos_of_open hs.si h2) h2 g2 (h4 en (List.mem_cons_self ..))
          have hrd : readPart e s.lib s.removed u en = some (getEntry e.key o en) := by
            simp only [readPart, found_in g5, Option.map_some]
          have hef' : s.effect e (.go t) = some (.sess h (.getAttr k (some [en])),
              { rv := (getEntry e.key o en).1, tmpl := some [(getEntry e.key o en).2] }) := by
            simp only [Obc.effect, hb, hp, Bool.false_eq_true, if_false, hrd, Option.map_some]
          rcases hge : getEntry e.key o en with ⟨rv, x⟩
          rw [hge] at hone hrd hef'
          by_cases hrv : rv = .ok
          · subst hrv
            have hsame : (step e s.lib (.sess h (.getAttr k (some [en])))).1 = s.lib := by
              rw [hone]; simp only [decide_false, Bool.or_false, reduceCtorEq]
            have hlib : (s.step e (.go t)).1.lib = s.lib := by
              rw [hst]
              simp only [proceed, hrd]
              split <;> rfl
            refine ⟨follows_some hef' (by rw [hlib, hsame]) (by unfold answer; rw [hone]), ?_⟩
            intro _
            rw [hst]
            simp only [proceed, hrd]
            split
            · refine hg.at (fun u _ => hg.ok u) trivial ?_ ?_ <;> (intro k h; cases h)
            · refine hg.at (fun u _ => hg.ok u) ⟨h1, ⟨se, h2⟩, h3, fun q hq => h4 q (List.mem_cons_of_mem _ hq)⟩ ?_ ?_
              · intro k' hk'; cases hk'
              · intro k' hk' w hw hdw
                cases hk'
                exact hg.apart w t k hw hdw (by rw [hp]; rfl)
          · have hpr : proceed e s.lib s.removed (.reading h k u d (en :: r)) =
                ({ s.lib with bad := s.lib.bad || decide (rv = .ub) }, s.removed, .idle,
                  some { rv := rv, tmpl := some (d ++ x :: r) }) := by
              simp only [proceed, hrd]
            rw [hpr] at hst
            refine ⟨follows_some hef' (by rw [hst, hone]; rfl) (by unfold answer; rw [hone]), ?_⟩
            rw [hst]
            intro hbad
            have hbad' : (s.lib.bad || decide (rv = .ub)) = false := hbad
            have hle : ({ s.lib with bad := s.lib.bad || decide (rv = .ub) } : Lib) = s.lib := by
              rw [hbad', ← hb]
            rw [hle]
            refine hg.at (fun u _ => hg.ok u) trivial ?_ ?_ <;> (intro k h; cases h)

/-! ## Schedules -/

theorem effect_bool {s : Obc} {v : OEv} (hv : BoolToken v.whole.toList) : BoolToken ((s.effect e v).toList.map (·.1)) := by
  have other : ∀ h c, c.creates = [] → ∀ x : Option (Call × Resp), (∀ q, x = some q → q.1 = .sess h c) →
      BoolToken (x.toList.map (·.1)) := by
    intro h c hc x hx d hd
    cases x with
    | none => cases hd
    | some q =>
      simp only [Option.toList_some, List.map_cons, List.map_nil, List.mem_cons, List.not_mem_nil, or_false] at hd
      rw [hd, hx q rfl]
      intro t ht
      simp only [Call.creates, hc] at ht
      cases ht
  cases v with
  | call c => exact hv
  | destroy t h k =>
    refine other h (.destroy k) rfl _ ?_
    intro q hq
    obtain ⟨r, _, rfl⟩ := Option.map_eq_some_iff.mp hq
    rfl
  | getAttr t h k m =>
    refine other h (.getAttr k (some m)) rfl _ ?_
    intro q hq
    obtain ⟨r, _, rfl⟩ := Option.map_eq_some_iff.mp hq
    rfl
  | go t =>
    simp only [Obc.effect]
    split
    · intro d hd; cases hd
    · split
      · exact other _ (.destroy _) rfl _ (by intro q hq; cases hq; rfl)
      · rename_i h k _ _ en _ _
        refine other h (.getAttr k (some [en])) rfl _ ?_
        intro q hq
        obtain ⟨r, _, rfl⟩ := Option.map_eq_some_iff.mp hq
        rfl
      · intro d hd; cases hd

theorem effect_len {s : Obc} {v : OEv} : ((s.effect e v).toList.map (·.1)).length ≤ 1 := by
  cases s.effect e v <;> simp

theorem replies_append (l : Lib) (as bs : List Call) :
    replies e l (as ++ bs) = replies e l as ++ replies e (run e l as) bs := by
  induction as generalizing l with
  | nil => rfl
  | cons a as ih => simp only [List.cons_append, replies, run, ih]

theorem obc_inv (hh : HashLen e) (hr : RandLen e) {l₀ : Lib} (h₀ : Start l₀) (hd : NoToken l₀) :
    ∀ (vs : List OEv) (s : Obc) (cs : List Call), s.lib = run e l₀ cs → (s.lib.bad = false → Good s) →
      BoolToken (cs ++ vs.filterMap OEv.whole) → 2 * (cs.length + vs.length) < 2 ^ 28 → s.Apart e vs →
      (s.run e vs).lib = run e s.lib ((s.history e vs).map (·.1)) ∧
      (s.history e vs).map (·.2) = replies e s.lib ((s.history e vs).map (·.1)) ∧
      ((s.run e vs).lib.bad = false → Good (s.run e vs)) ∧ BoolToken (cs ++ (s.history e vs).map (·.1)) ∧
      (s.history e vs).length ≤ vs.length := by
  intro vs
  induction vs with
  | nil =>
    intro s cs _ hg hb _ _
    exact ⟨rfl, rfl, hg, hb, Nat.le_refl _⟩
  | cons v vs ih =>
    intro s cs hl hg hb hn ha
    have hb1 : BoolToken cs := fun d hd => hb d (List.mem_append_left _ hd)
    have hbv : BoolToken v.whole.toList := by
      intro d hd
      refine hb d (List.mem_append_right _ ?_)
      cases hw : v.whole with
      | none => rw [hw] at hd; cases hd
      | some c =>
        rw [hw] at hd
        simp only [Option.toList_some, List.mem_cons, List.not_mem_nil, or_false] at hd
        subst hd
        exact List.mem_filterMap.mpr ⟨v, List.mem_cons_self .., hw⟩
    have hb2 : BoolToken (vs.filterMap OEv.whole) := by
      intro d hd
      refine hb d (List.mem_append_right _ ?_)
      obtain ⟨w, hw1, hw2⟩ := List.mem_filterMap.mp hd
      exact List.mem_filterMap.mpr ⟨w, List.mem_cons_of_mem _ hw1, hw2⟩
    simp only [List.length_cons] at hn
    have hs : Sound s.lib := by rw [hl]; exact sound_run hh hr h₀ hd cs hb1 (by omega)
    obtain ⟨⟨f1, f2⟩, hg'⟩ := obc_step (e := e) hs hg ha.1
    have hlen := effect_len (e := e) (s := s) (v := v)
    obtain ⟨i1, i2, i3, i4, i5⟩ := ih (s.step e v).1 (cs ++ (s.effect e v).toList.map (·.1)) (by rw [f1, hl, run_append]) hg'
      (by
        intro d hd
        rcases List.mem_append.mp hd with h | h
        · rcases List.mem_append.mp h with h | h
          · exact hb1 d h
          · exact effect_bool hbv d h
        · exact hb2 d h)
      (by rw [List.length_append]; omega) ha.2
    simp only [Obc.run, Obc.history, List.map_append, run_append, replies_append]
    rw [← f1, ← f2, i1, i2]
    refine ⟨rfl, rfl, ?_, ?_, ?_⟩
    · rw [← i1]; exact i3
    · rw [← List.append_assoc]; exact i4
    · simp only [List.length_append, List.length_cons]
      rw [List.length_map] at hlen
      omega

theorem Obc.Quiet.good {s : Obc} (hq : s.Quiet) : s.lib.bad = false → Good s := by
  refine fun _ => ⟨fun t => ?_, fun t u k _ h => ?_⟩
  · rw [hq.2 t]; trivial
  · rw [hq.2 t] at h; cases h

/-- **C102** (partial): several threads destroy token objects and read their attributes, while
others make any calls.  If no object is taken away, and no session closed, that another thread
is just using, then every call behaves as a whole call: the library ends up as after the whole
calls made one after the other in the order in which they take effect, with their answers
— in particular nothing is freed twice or used after it is freed — except that each attribute
that `C_GetAttributeValue` reads counts as a call.  Missing: when one thread destroys what
another one uses, there is undefined behaviour (`c102_violated`), and the attributes read by
one call may never have been the object's at one moment (`c102_torn`). -/
theorem c102_partial (hh : HashLen e) (hr : RandLen e) {l₀ : Lib} (h₀ : Start l₀) (hd : NoToken l₀) (cs : List Call)
    (s : Obc) (hl : s.lib = run e l₀ cs) (hq : s.Quiet) (vs : List OEv) (hb : BoolToken (cs ++ vs.filterMap OEv.whole))
    (hn : 2 * (cs.length + vs.length) < 2 ^ 28) (ha : s.Apart e vs) :
    (s.run e vs).lib = run e s.lib ((s.history e vs).map (·.1)) ∧
    (s.history e vs).map (·.2) = replies e s.lib ((s.history e vs).map (·.1)) := by
  obtain ⟨h1, h2, _⟩ := obc_inv hh hr h₀ hd vs s cs hl hq.good hb hn ha
  exact ⟨h1, h2⟩

/-! ## Calls without interruption -/

theorem obc_run_append (s : Obc) (as bs : List OEv) : s.run e (as ++ bs) = (s.run e as).run e bs := by
  induction as generalizing s with
  | nil => rfl
  | cons a as ih => exact ih _

theorem obc_returns_append (s : Obc) (as bs : List OEv) :
    s.returns e (as ++ bs) = s.returns e as ++ (s.run e as).returns e bs := by
  induction as generalizing s with
  | nil => rfl
  | cons a as ih => simp only [List.cons_append, Obc.returns, Obc.run, ih, List.append_assoc]

theorem obc_idle_go {s : Obc} {t : Nat} (h : s.oc t = .idle) : (s.step e (.go t)).1.lib = s.lib ∧
    (s.step e (.go t)).2 = none ∧ (s.step e (.go t)).1.oc t = .idle := by
  simp only [Obc.step, h, proceed]
  split
  · exact ⟨rfl, rfl, h⟩
  · exact ⟨rfl, rfl, by simp [Obc.at]⟩

theorem obc_idle_goes {s : Obc} {t : Nat} (h : s.oc t = .idle) (n : Nat) :
    (s.run e (List.replicate n (.go t))).lib = s.lib ∧ s.returns e (List.replicate n (.go t)) = [] ∧
    (s.run e (List.replicate n (.go t))).oc t = .idle := by
  induction n generalizing s with
  | zero => exact ⟨rfl, rfl, h⟩
  | succ n ih =>
    obtain ⟨h1, h2, h3⟩ := obc_idle_go (e := e) h
    obtain ⟨i1, i2, i3⟩ := ih h3
    simp only [List.replicate_succ, Obc.run, Obc.returns, h2, i2]
    exact ⟨i1.trans h1, rfl, i3⟩

/-- A `C_DestroyObject` whose parts are not interrupted is the whole call. -/
theorem destroy_alone {s : Obc} (hs : Sound s.lib) (hb : s.lib.bad = false) {t : Nat} (hid : s.oc t = .idle) (h k : Nat) :
    (s.run e [.destroy t h k, .go t, .go t]).lib = (step e s.lib (.sess h (.destroy k))).1 ∧
    s.returns e [.destroy t h k, .go t, .go t] = [answer e s.lib (.sess h (.destroy k))] ∧
    (s.run e [.destroy t h k, .go t, .go t]).oc t = .idle := by
  have hst : s.step e (.destroy t h k) = (Obc.at { s with lib := (beginDestroy e s.lib h k).1 } t
      (beginDestroy e s.lib h k).2.1, (beginDestroy e s.lib h k).2.2) := by
    simp only [Obc.step, hb, hid, if_true, Bool.false_eq_true, if_false]
  have whole : beginDestroy e s.lib h k = inOneGo e s.lib (.sess h (.destroy k)) →
      (s.run e [.destroy t h k, .go t, .go t]).lib = (step e s.lib (.sess h (.destroy k))).1 ∧
      s.returns e [.destroy t h k, .go t, .go t] = [answer e s.lib (.sess h (.destroy k))] ∧
      (s.run e [.destroy t h k, .go t, .go t]).oc t = .idle := by
    intro hw
    rw [hw] at hst
    obtain ⟨h1, h2, h3⟩ := obc_idle_goes (e := e) (s := Obc.at { s with lib := (step e s.lib (.sess h (.destroy k))).1 } t .idle)
      (t := t) (obc_at_self ..) 2
    refine ⟨?_, ?_, ?_⟩
    · rw [Obc.run, hst]; exact h1
    · rw [Obc.returns, hst]; exact congrArg _ h2
    · rw [Obc.run, hst]; exact h3
  cases hl : located s.lib h k with
  | none => exact whole (by simp only [beginDestroy, hl])
  | some q =>
    obtain ⟨se, o⟩ := q
    by_cases hc : se.use = .rw ∧ handleOnToken k = true
    · have hbg : beginDestroy e s.lib h k = (s.lib, .found h k o.uid, none) := by
        simp only [beginDestroy, hl, if_pos hc]
      rw [hbg] at hst
      obtain ⟨hcnt, h2, _⟩ := located_some hl
      obtain ⟨o, g1, g2, g3, g4, g5⟩ := hs.find h2 (located_key hs hl hc.2)
      rw [← g3] at g5 hst
      obtain ⟨q1, q2, q3⟩ := getSession_handle h2
      have hd := destroy_step (e := e) hb hcnt h2 hc.1 g2 hc.2 g4
      have hf : s.lib.sessions.find? (fun x => x.handle == h) = some se := (find_iff hs.si.nodup).mpr ⟨q3, q1⟩
      have hpr : proceed e s.lib s.removed (.found h k o.uid) = (removeToken e s.lib o, o :: s.removed, .unlinked k o.uid, none) := by
        simp only [proceed, hf, g5, g4, if_true]
      have h2' : (s.step e (.destroy t h k)).1.step e (.go t) = (Obc.at { (s.step e (.destroy t h k)).1 with
          lib := removeToken e s.lib o, removed := o :: s.removed } t (.unlinked k o.uid), none) := by
        rw [hst]
        simp only [Obc.step, obc_at_self]
        rw [if_neg (by simp [Obc.at, hb]), show (Obc.at { s with lib := s.lib } t (.found h k o.uid)).lib = s.lib from rfl,
          show (Obc.at { s with lib := s.lib } t (.found h k o.uid)).removed = s.removed from rfl, hpr]
      have hbr : (removeToken e s.lib o).bad = false := hb
      simp only [Obc.run, Obc.returns, h2']
      rw [hst]
      simp only [Obc.step, obc_at_self, proceed]
      rw [if_neg (by simp [Obc.at, hbr])]
      unfold answer
      rw [hd]
      exact ⟨rfl, rfl, obc_at_self ..⟩
    · exact whole (by simp only [beginDestroy, hl, if_neg hc])

/-- The rest of a `C_GetAttributeValue` without interruption. -/
theorem reading_goes {t h k : Nat} (o : Obj) (r : List Entry) : ∀ {s : Obc} {d : List Entry}, s.lib.bad = false →
    s.oc t = .reading h k o.uid d r → s.lib.token.objs.find? (fun p => p.uid == o.uid) = some o →
    (s.run e (List.replicate (r.length + 1) (.go t))).lib =
      { s.lib with bad := s.lib.bad || decide ((getEntries e.key o r).1 = .ub) } ∧
    s.returns e (List.replicate (r.length + 1) (.go t)) =
      [{ rv := (getEntries e.key o r).1, tmpl := some (d ++ (getEntries e.key o r).2) }] ∧
    (s.run e (List.replicate (r.length + 1) (.go t))).oc t = .idle := by
  induction r with
  | nil =>
    intro s d hb hp _
    have hst : s.step e (.go t) = (Obc.at { s with lib := s.lib } t .idle, some { rv := .ok, tmpl := some d }) := by
      simp only [Obc.step, hb, hp, proceed, Bool.false_eq_true, if_false]
    simp only [List.length_nil, Nat.zero_add, List.replicate_one, Obc.run, Obc.returns, hst, getEntries, List.append_nil]
    exact ⟨by simp [Obc.at], rfl, obc_at_self ..⟩
  | cons en r ih =>
    intro s d hb hp hf
    have hrd : readPart e s.lib s.removed o.uid en = some (getEntry e.key o en) := by
      simp only [readPart, found_in hf, Option.map_some]
    rcases hge : getEntry e.key o en with ⟨rv, x⟩
    rw [hge] at hrd
    by_cases hrv : rv = .ok
    · subst hrv
      by_cases hr : r = []
      · subst hr
        have hst : s.step e (.go t) = (Obc.at { s with lib := s.lib } t .idle, some { rv := .ok, tmpl := some (d ++ [x]) }) := by
          simp only [Obc.step, hb, hp, proceed, hrd, Bool.false_eq_true, if_false, if_true]
        obtain ⟨h1, h2, h3⟩ := obc_idle_goes (e := e) (s := Obc.at { s with lib := s.lib } t .idle) (t := t) (obc_at_self ..) 1
        have hge2 : getEntries e.key o [en] = (.ok, [x]) := by simp only [getEntries, hge, if_true]
        rw [show List.replicate ([en].length + 1) (OEv.go t) = .go t :: List.replicate 1 (.go t) from rfl]
        simp only [Obc.run, Obc.returns, hst, hge2, h1, h2, h3]
        exact ⟨by simp [Obc.at], rfl, trivial⟩
      · have hst : s.step e (.go t) = (Obc.at { s with lib := s.lib } t (.reading h k o.uid (d ++ [x]) r), none) := by
          simp only [Obc.step, hb, hp, proceed, hrd, Bool.false_eq_true, if_false, if_neg hr]
        have hge2 : getEntries e.key o (en :: r) = ((getEntries e.key o r).1, x :: (getEntries e.key o r).2) := by
          rw [getEntries]; simp only [hge, if_true]
        obtain ⟨h1, h2, h3⟩ := ih (s := Obc.at { s with lib := s.lib } t (.reading h k o.uid (d ++ [x]) r)) (d := d ++ [x]) hb
          (obc_at_self ..) hf
        rw [List.length_cons, List.replicate_succ]
        simp only [Obc.run, Obc.returns, hst, hge2]
        refine ⟨h1, ?_, h3⟩
        rw [h2]
        simp
    · have hpr : proceed e s.lib s.removed (.reading h k o.uid d (en :: r)) =
          ({ s.lib with bad := s.lib.bad || decide (rv = .ub) }, s.removed, .idle,
            some { rv := rv, tmpl := some (d ++ x :: r) }) := by
        simp only [proceed, hrd]
      have hst : s.step e (.go t) = (Obc.at { s with lib := { s.lib with bad := s.lib.bad || decide (rv = .ub) } } t .idle,
          some { rv := rv, tmpl := some (d ++ x :: r) }) := by
        simp only [Obc.step, hb, hp, hpr, Bool.false_eq_true, if_false]
      have hge2 : getEntries e.key o (en :: r) = (rv, x :: r) := by
        rw [getEntries]; simp only [hge, if_neg hrv]
      obtain ⟨h1, h2, h3⟩ := obc_idle_goes (e := e)
        (s := Obc.at { s with lib := { s.lib with bad := s.lib.bad || decide (rv = .ub) } } t .idle) (t := t) (obc_at_self ..)
        (r.length + 1)
      rw [List.length_cons, List.replicate_succ]
      simp only [Obc.run, Obc.returns, hst, hge2, h1, h2, h3]
      exact ⟨rfl, rfl, trivial⟩

/-- `C_GetAttributeValue` of an object that is there. -/
theorem getAll_step {l : Lib} (hb : l.bad = false) (hc : 0 < l.count) {h k : Nat} {s : Session} {o : Obj} {m : List Entry}
    (hg : getSession l h = some s) (hf : findObj l s k = some o) (hck : checkAttributes false m = .ok) :
    step e l (.sess h (.getAttr k (some m))) =
      ({ l with bad := l.bad || decide ((getEntries e.key o m).1 = .ub) },
        { rv := (getEntries e.key o m).1, tmpl := some (getEntries e.key o m).2 }) := by
  have hcb : callBody e l (.sess h (.getAttr k (some m))) =
      (l, { rv := (getEntries e.key o m).1, tmpl := some (getEntries e.key o m).2 }) := by
    simp only [callBody, if_neg (show ¬ l.count ≤ 0 by omega), hg, sessCall, cGetAttr, hf, getAttributeValue, hck,
      ne_eq, not_true_eq_false, if_false]
  unfold step
  simp only [hb, Bool.false_eq_true, if_false, hcb, Bool.false_or]
  split
  · rename_i hx; simp [hx]
  · rename_i hx
    simp only [hx, decide_false]
    rw [← hb]

/-- A `C_GetAttributeValue` whose parts are not interrupted is the whole call. -/
theorem getAttr_alone {s : Obc} (hs : Sound s.lib) (hb : s.lib.bad = false) {t : Nat} (hid : s.oc t = .idle) (h k : Nat)
    (m : List Entry) :
    (s.run e (.getAttr t h k m :: List.replicate (m.length + 1) (.go t))).lib = (step e s.lib (.sess h (.getAttr k (some m)))).1 ∧
    s.returns e (.getAttr t h k m :: List.replicate (m.length + 1) (.go t)) = [answer e s.lib (.sess h (.getAttr k (some m)))] ∧
    (s.run e (.getAttr t h k m :: List.replicate (m.length + 1) (.go t))).oc t = .idle := by
  have hst : s.step e (.getAttr t h k m) = (Obc.at { s with lib := (beginGet e s.lib h k m).1 } t
      (beginGet e s.lib h k m).2.1, (beginGet e s.lib h k m).2.2) := by
    simp only [Obc.step, hb, hid, if_true, Bool.false_eq_true, if_false]
  simp only [Obc.run, Obc.returns]
  have whole : beginGet e s.lib h k m = inOneGo e s.lib (.sess h (.getAttr k (some m))) →
      ((s.step e (.getAttr t h k m)).1.run e (List.replicate (m.length + 1) (.go t))).lib =
        (step e s.lib (.sess h (.getAttr k (some m)))).1 ∧
      (s.step e (.getAttr t h k m)).2.toList ++ (s.step e (.getAttr t h k m)).1.returns e (List.replicate (m.length + 1) (.go t)) =
        [answer e s.lib (.sess h (.getAttr k (some m)))] ∧
      ((s.step e (.getAttr t h k m)).1.run e (List.replicate (m.length + 1) (.go t))).oc t = .idle := by
    intro hw
    rw [hw] at hst
    obtain ⟨h1, h2, h3⟩ := obc_idle_goes (e := e)
      (s := Obc.at { s with lib := (step e s.lib (.sess h (.getAttr k (some m)))).1 } t .idle)
      (t := t) (obc_at_self ..) (m.length + 1)
    rw [hst]
    exact ⟨h1, congrArg _ h2, h3⟩
  cases hl : located s.lib h k with
  | none => exact whole (by simp only [beginGet, hl])
  | some q =>
    obtain ⟨se, o⟩ := q
    by_cases hc : handleOnToken k = true ∧ checkAttributes false m = .ok ∧ m ≠ []
    · have hbg : beginGet e s.lib h k m = (s.lib, .reading h k o.uid [] m, none) := by
        simp only [beginGet, hl, if_pos hc]
      rw [hbg] at hst
      obtain ⟨hcnt, h2, _⟩ := located_some hl
      obtain ⟨o, g1, g2, g3, g4, g5⟩ := hs.find h2 (located_key hs hl hc.1)
      rw [← g3] at g5 hst
      have hall := getAll_step (e := e) hb hcnt h2 g2 hc.2.1
      obtain ⟨i1, i2, i3⟩ := reading_goes (e := e) (h := h) (k := k) o m
        (s := Obc.at { s with lib := s.lib } t (.reading h k o.uid [] m)) (d := []) hb (obc_at_self ..) g5
      unfold answer
      rw [hst, hall]
      exact ⟨i1, i2, i3⟩
    · exact whole (by simp only [beginGet, hl, if_neg hc])

/-! ## What a read that takes its time answers -/

theorem obc_bad {s : Obc} (h : s.lib.bad = true) (vs : List OEv) : (s.run e vs).lib.bad = true := by
  induction vs generalizing s with
  | nil => exact h
  | cons v vs ih =>
    refine ih ?_
    cases v with
    | call c => simp only [Obc.step, step_bad h]; exact h
    | destroy t a k => simp only [Obc.step, h, if_true]
    | getAttr t a k m => simp only [Obc.step, h, if_true]
    | go t => simp only [Obc.step, h, if_true]

theorem obc_good {s : Obc} {vs : List OEv} (h : (s.run e vs).lib.bad = false) : s.lib.bad = false := by
  cases hb : s.lib.bad with
  | false => rfl
  | true => rw [obc_bad hb] at h; cases h

/-- Only its own events move a thread. -/
theorem obc_other {s : Obc} {t : Nat} {v : OEv} (hbusy : s.oc t ≠ .idle) (hv : v ≠ .go t) : (s.step e v).1.oc t = s.oc t := by
  cases v with
  | call c => rfl
  | destroy u h k =>
    simp only [Obc.step]
    split
    · rfl
    split
    · rename_i hu
      exact obc_at_ne _ _ (by rintro rfl; exact hbusy hu)
    · rfl
  | getAttr u h k m =>
    simp only [Obc.step]
    split
    · rfl
    split
    · rename_i hu
      exact obc_at_ne _ _ (by rintro rfl; exact hbusy hu)
    · rfl
  | go u =>
    simp only [Obc.step]
    split
    · rfl
    · exact obc_at_ne _ _ (by rintro rfl; exact hv rfl)

theorem view_getEntry (x : KeyExt) (o : Obj) (en : Entry) : getEntry x o.view en = getEntry x o en := rfl

theorem getEntries_cons (x : KeyExt) (o : Obj) (en : Entry) (r : List Entry) :
    getEntries x o (en :: r) = if (getEntry x o en).1 = .ok then
      ((getEntries x o r).1, (getEntry x o en).2 :: (getEntries x o r).2) else ((getEntry x o en).1, (getEntry x o en).2 :: r) := rfl

/-- The call that takes effect while a thread is inside a read spares its object. -/
theorem effect_spares {s : Obc} (hb : s.lib.bad = false) (hg : Good s) {t h k : Nat} {u : Nat} {d r : List Entry} (hp : s.oc t = .reading h k u d r)
    {v : OEv} (ha : s.ApartAt v) (hv : v ≠ .go t) (hc : ∀ c, v = .call c → Spares h k c) :
    ∀ c ∈ (s.effect e v).toList.map (·.1), Spares h k c := by
  intro c hmem
  obtain ⟨q, hq, rfl⟩ := List.mem_map.mp hmem
  have hq : s.effect e v = some q := by simpa using hq
  cases v with
  | call c =>
    simp only [Obc.effect, Obc.step, Option.map_some, Option.some.injEq] at hq
    rw [← hq]
    exact hc c rfl
  | destroy w h' k' =>
    obtain ⟨rr, hrr, rfl⟩ := Option.map_eq_some_iff.mp hq
    show k' ≠ k
    rintro rfl
    by_cases hwt : t = w
    · subst hwt
      simp only [Obc.step, hp, hb, Bool.false_eq_true, if_false, reduceCtorEq] at hrr
    · exact ha t hwt (by rw [hp]; rfl)
  | getAttr w h' k' m =>
    obtain ⟨rr, hrr, rfl⟩ := Option.map_eq_some_iff.mp hq
    trivial
  | go w =>
    have hwt : w ≠ t := fun h => hv (by rw [h])
    simp only [Obc.effect] at hq
    split at hq
    · cases hq
    split at hq
    · rename_i h' k' u' hw
      cases hq
      show k' ≠ k
      rintro rfl
      exact hg.apart w t k' hwt (by rw [hw]; rfl) (by rw [hp]; rfl)
    · obtain ⟨rr, _, rfl⟩ := Option.map_eq_some_iff.mp hq
      trivial
    · cases hq

theorem read_rest (hh : HashLen e) (hr : RandLen e) {l₀ : Lib} (h₀ : Start l₀) (hd : NoToken l₀) {t h k : Nat} {ov : Obj}
    (hk : ov.handle = k) (hon : handleOnToken k = true) {resp : Resp} :
    ∀ (ws : List OEv) (s : Obc) (cs : List Call) (d r : List Entry), s.lib = run e l₀ cs → (s.lib.bad = false → Good s) →
      BoolToken (cs ++ ws.filterMap OEv.whole) → 2 * (cs.length + ws.length) < 2 ^ 28 → s.Apart e ws →
      (∀ c, .call c ∈ ws → Spares h k c) → (∀ a b, ws = a ++ b → (s.run e a).oc t ≠ .idle) →
      s.oc t = .reading h k ov.uid d r → Stays s.lib h ov → (s.run e ws).lib.bad = false →
      ((s.run e ws).step e (.go t)).2 = some resp →
      resp = { rv := (getEntries e.key ov r).1, tmpl := some (d ++ (getEntries e.key ov r).2) } := by
  have obj : ∀ (s : Obc) (cs : List Call), s.lib = run e l₀ cs → Sound s.lib → Stays s.lib h ov →
      ∃ o, s.lib.token.objs.find? (fun p => p.uid == ov.uid) = some o ∧ o.view = ov := by
    intro s cs _ hs hst
    obtain ⟨se, hg, o, ho, hv⟩ := stays_iff.mp hst
    rw [hk, hon, if_pos rfl] at ho
    refine ⟨o, ?_, hv⟩
    have hu : ov.uid = o.uid := by rw [← hv]; rfl
    rw [hu]
    cases hf : s.lib.token.objs.find? (fun p => p.uid == o.uid) with
    | none => exact absurd (List.find?_eq_none.mp hf o ho) (by simp)
    | some p =>
      have h1 := List.mem_of_find?_eq_some hf
      have h2 : p.uid = o.uid := by simpa using List.find?_some hf
      rw [uid_inj hs.cap.pop.uidOk.1 h1 ho h2]
  intro ws
  induction ws with
  | nil =>
    intro s cs d r hl _ hb hn _ _ _ hp hst hbad hret
    have hs : Sound s.lib := by rw [hl]; exact sound_run hh hr h₀ hd cs (by simpa using hb) (by simpa using hn)
    have hbad : s.lib.bad = false := hbad
    obtain ⟨o, ho, hv⟩ := obj s cs hl hs hst
    simp only [Obc.run, Obc.step, hbad, hp, Bool.false_eq_true, if_false] at hret
    cases r with
    | nil =>
      simp only [proceed, Option.some.injEq] at hret
      rw [← hret]
      simp [getEntries]
    | cons en r =>
      have hrd : readPart e s.lib s.removed ov.uid en = some (getEntry e.key ov en) := by
        simp only [readPart, found_in ho, Option.map_some]
        rw [← hv]; rfl
      rw [getEntries_cons]
      rcases hge : getEntry e.key ov en with ⟨rv, x⟩
      rw [hge] at hrd
      by_cases hrv : rv = .ok
      · subst hrv
        simp only [proceed, hrd] at hret
        split at hret
        · rename_i hre
          subst hre
          simp only [Option.some.injEq] at hret
          rw [← hret]
          simp [getEntries]
        · cases hret
      · simp only [proceed, hrd, Option.some.injEq] at hret
        rw [← hret, if_neg hrv]
  | cons v ws ih =>
    intro s cs d r hl hg hb hn ha hsp hin hp hst hbad hret
    have hb1 : BoolToken cs := fun d hd => hb d (List.mem_append_left _ hd)
    have hbv : BoolToken v.whole.toList := by
      intro d hd
      refine hb d (List.mem_append_right _ ?_)
      cases hw : v.whole with
      | none => rw [hw] at hd; cases hd
      | some c =>
        rw [hw] at hd
        simp only [Option.toList_some, List.mem_cons, List.not_mem_nil, or_false] at hd
        subst hd
        exact List.mem_filterMap.mpr ⟨v, List.mem_cons_self .., hw⟩
    have hb2 : BoolToken (ws.filterMap OEv.whole) := by
      intro d hd
      refine hb d (List.mem_append_right _ ?_)
      obtain ⟨w, hw1, hw2⟩ := List.mem_filterMap.mp hd
      exact List.mem_filterMap.mpr ⟨w, List.mem_cons_of_mem _ hw1, hw2⟩
    simp only [List.length_cons] at hn
    have hs : Sound s.lib := by rw [hl]; exact sound_run hh hr h₀ hd cs hb1 (by omega)
    obtain ⟨⟨f1, f2⟩, hg'⟩ := obc_step (e := e) hs hg ha.1
    have hlen := effect_len (e := e) (s := s) (v := v)
    have hbad1 : (s.step e v).1.lib.bad = false := obc_good hbad
    have hbad0 : s.lib.bad = false := obc_good (vs := v :: ws) hbad
    have next := fun d r => ih (s.step e v).1 (cs ++ (s.effect e v).toList.map (·.1)) d r (by rw [f1, hl, run_append]) hg'
      (by
        intro d hd
        rcases List.mem_append.mp hd with h | h
        · rcases List.mem_append.mp h with h | h
          · exact hb1 d h
          · exact effect_bool hbv d h
        · exact hb2 d h)
      (by rw [List.length_append]; omega) ha.2 (fun c hc => hsp c (List.mem_cons_of_mem _ hc))
      (fun a b hab => hin (v :: a) b (by rw [hab]; rfl))
    by_cases hv : v = .go t
    · subst hv
      obtain ⟨o, ho, hov⟩ := obj s cs hl hs hst
      have hne : (s.step e (.go t)).1.oc t ≠ .idle := hin [.go t] ws rfl
      have hst1 : s.step e (.go t) = (Obc.at
          { s with lib := (proceed e s.lib s.removed (s.oc t)).1, removed := (proceed e s.lib s.removed (s.oc t)).2.1 } t
          (proceed e s.lib s.removed (s.oc t)).2.2.1, (proceed e s.lib s.removed (s.oc t)).2.2.2) := by
        simp only [Obc.step, hbad0, Bool.false_eq_true, if_false]
      rw [hp] at hst1
      cases r with
      | nil => exact absurd (by rw [hst1]; exact obc_at_self ..) hne
      | cons en r =>
        have hrd : readPart e s.lib s.removed ov.uid en = some (getEntry e.key ov en) := by
          simp only [readPart, found_in ho, Option.map_some]
          rw [← hov]; rfl
        rw [getEntries_cons]
        rcases hge : getEntry e.key ov en with ⟨rv, x⟩
        rw [hge] at hrd
        by_cases hrv : rv = .ok
        · subst hrv
          by_cases hre : r = []
          · exact absurd (by rw [hst1]; simp only [proceed, hrd, if_pos hre]; exact obc_at_self ..) hne
          · have hpr : proceed e s.lib s.removed (.reading h k ov.uid d (en :: r)) =
                (s.lib, s.removed, .reading h k ov.uid (d ++ [x]) r, none) := by
              simp only [proceed, hrd, if_neg hre]
            rw [hpr] at hst1
            have := next (d ++ [x]) r (by rw [hst1]; exact obc_at_self ..) (by rw [hst1]; exact hst) hbad hret
            rw [this]
            simp
        · exact absurd (by rw [hst1]; simp only [proceed, hrd]; exact obc_at_self ..) hne
    · have hbusy : s.oc t ≠ .idle := by rw [hp]; simp
      refine next d r ((obc_other hbusy hv).trans hp) ?_ hbad hret
      rw [f1]
      have hcnt : 0 < s.lib.count := by
        obtain ⟨se, hse, _⟩ := hst
        exact count_pos_of_open hs.si hse
      refine (hst.run hh hr _ ?_ hs.cap hs.si hcnt (by rw [← f1]; exact hbad1)).1
      rw [hk]
      exact effect_spares hbad0 (hg hbad0) hp ha.1 hv (fun c hc => hsp c (by rw [hc]; exact List.mem_cons_self ..))

theorem apart_append {s : Obc} {as bs : List OEv} (h : s.Apart e (as ++ bs)) : s.Apart e as ∧ (s.run e as).Apart e bs := by
  induction as generalizing s with
  | nil => exact ⟨trivial, h⟩
  | cons a as ih =>
    obtain ⟨h1, h2⟩ := ih h.2
    exact ⟨⟨h.1, h1⟩, h2⟩

/-- **C102** (reads): a thread's `C_GetAttributeValue` for any number of attributes of a token
object, during which other threads destroy and read other objects and make calls that do not
concern this object, answers what a whole call at its beginning would have answered. -/
theorem c102_read (hh : HashLen e) (hr : RandLen e) {l₀ : Lib} (h₀ : Start l₀) (hd : NoToken l₀) (cs : List Call)
    (s : Obc) (hl : s.lib = run e l₀ cs) (hq : s.Quiet) (pre ws : List OEv) (t h k : Nat) (m : List Entry) (resp : Resp)
    (hb : BoolToken (cs ++ (pre ++ .getAttr t h k m :: ws).filterMap OEv.whole))
    (hn : 2 * (cs.length + (pre ++ .getAttr t h k m :: ws).length) < 2 ^ 28)
    (ha : s.Apart e (pre ++ .getAttr t h k m :: ws)) (hsp : ∀ c, .call c ∈ ws → Spares h k c)
    (hfree : (s.run e pre).oc t = .idle)
    (hin : ∀ a b, ws = a ++ b → (s.run e (pre ++ .getAttr t h k m :: a)).oc t ≠ .idle)
    (hbad : (s.run e (pre ++ .getAttr t h k m :: ws)).lib.bad = false)
    (hret : ((s.run e (pre ++ .getAttr t h k m :: ws)).step e (.go t)).2 = some resp) :
    resp = answer e (s.run e pre).lib (readCall h k m) := by
  have hb1 : BoolToken (cs ++ pre.filterMap OEv.whole) := by
    intro d hd
    refine hb d ?_
    rw [List.filterMap_append, ← List.append_assoc]
    exact List.mem_append_left _ hd
  have hb2 : BoolToken (ws.filterMap OEv.whole) := by
    intro d hd
    refine hb d ?_
    rw [List.filterMap_append]
    exact List.mem_append_right _ (List.mem_append_right _ (by simpa [OEv.whole] using hd))
  rw [List.length_append, List.length_cons] at hn
  obtain ⟨ha1, ha2, ha3⟩ := apart_append ha
  obtain ⟨i1, _, i3, i4, i5⟩ := obc_inv hh hr h₀ hd pre s cs hl hq.good hb1 (by omega) ha1
  rw [obc_run_append] at hbad hret
  have hin' : ∀ a b, ws = a ++ b → (((s.run e pre).step e (.getAttr t h k m)).1.run e a).oc t ≠ .idle := by
    intro a b hab
    have := hin a b hab
    rw [obc_run_append] at this
    exact this
  generalize hcs : cs ++ (s.history e pre).map (·.1) = cs' at i4
  have hl' : (s.run e pre).lib = run e l₀ cs' := by rw [i1, hl, ← hcs, run_append]
  have hlen : cs'.length ≤ cs.length + pre.length := by
    rw [← hcs, List.length_append, List.length_map]; omega
  generalize s.run e pre = s at *
  have hs : Sound s.lib := by rw [hl']; exact sound_run hh hr h₀ hd cs' i4 (by omega)
  have hbad0 : s.lib.bad = false := obc_good hbad
  have hst : s.step e (.getAttr t h k m) = (Obc.at { s with lib := (beginGet e s.lib h k m).1 } t
      (beginGet e s.lib h k m).2.1, (beginGet e s.lib h k m).2.2) := by
    simp only [Obc.step, hbad0, hfree, if_true, Bool.false_eq_true, if_false]
  have hnot : beginGet e s.lib h k m ≠ inOneGo e s.lib (.sess h (.getAttr k (some m))) := by
    intro hw
    refine hin' [] ws rfl ?_
    show (s.step e (.getAttr t h k m)).1.oc t = .idle
    rw [hst, hw]
    exact obc_at_self ..
  cases hloc : located s.lib h k with
  | none => exact absurd (by simp only [beginGet, hloc]) hnot
  | some q =>
    obtain ⟨se, o⟩ := q
    by_cases hc : handleOnToken k = true ∧ checkAttributes false m = .ok ∧ m ≠ []
    · have hbg : beginGet e s.lib h k m = (s.lib, .reading h k o.uid [] m, none) := by
        simp only [beginGet, hloc, if_pos hc]
      rw [hbg] at hst
      obtain ⟨hcnt, h2, h3⟩ := located_some hloc
      obtain ⟨p1, p2, _⟩ := findObj_parts h3
      have hstays : Stays s.lib h o.view := by
        refine ⟨se, h2, ?_⟩
        show Has o.view (if handleOnToken o.handle then _ else _)
        rw [p1, hc.1]
        exact List.mem_map_of_mem (p2 hc.1)
      have hlib : (s.step e (.getAttr t h k m)).1.lib = s.lib := by rw [hst]; rfl
      obtain ⟨⟨_, _⟩, hg'⟩ := obc_step (e := e) hs i3 ha2
      have := read_rest hh hr h₀ hd (t := t) (h := h) (k := k) (ov := o.view) (resp := resp) p1 hc.1 ws
        (s.step e (.getAttr t h k m)).1 cs' [] m (hlib.trans hl') hg'
        (by
          intro d hd
          rcases List.mem_append.mp hd with h | h
          · exact i4 d h
          · exact hb2 d h) (by omega) ha3 hsp hin' (by rw [hst]; exact obc_at_self ..) (by rw [hlib]; exact hstays) hbad hret
      rw [this]
      unfold answer readCall
      rw [getAll_step hbad0 hcnt h2 h3 hc.2.1, List.nil_append]
      have hv := view_getAttributeValue e.key o m
      simp only [getAttributeValue, hc.2.1, ne_eq, not_true_eq_false, if_false] at hv
      rw [hv]
    · exact absurd (by simp only [beginGet, hloc, if_neg hc]) hnot

/-! ## Cases -/

namespace Demo

/-- Handle of the second key. -/
def tok2 : Nat := 2 ^ 28 + 2

/-- Label and identifier are read. -/
def readBoth : List Entry := [.of .label [0], .of .id [0]]

/-- Label and identifier are set. -/
def setBoth (v : UInt8) : Call := .sess 65538 (.setAttr tok1 (some [.of .label [v], .of .id [v]]))

/-- What the calls return: the statuses and the values. -/
def shown (rs : List Resp) : List (RV × Option (List (Option Bytes))) :=
  rs.map fun r => (r.rv, r.tmpl.map fun t => t.map (·.mem))

/-- One thread destroys the second key while another one reads the first. -/
def apartTurns : List OEv :=
  [.getAttr 1 65538 tok1 readBoth, .destroy 2 65538 tok2, .go 1, .go 2, .go 1, .go 2]

def objCalls : List Call :=
  setup ++ [createCall 65538 (openTmpl true 7), createCall 65538 (openTmpl true 9), setBoth 3]

/-- Only threads 1 and 2 do anything. -/
def Two (s : Obc) : Prop := ∀ u, u ≠ 1 → u ≠ 2 → s.oc u = .idle

theorem Two.step {s : Obc} (h : Two s) {v : OEv} (hv : ∀ u, u ≠ 1 → u ≠ 2 → v ≠ .go u ∧ (∀ a k, v ≠ .destroy u a k) ∧
    ∀ a k m, v ≠ .getAttr u a k m) : Two (s.step env v).1 := by
  intro u h1 h2
  have hu := h u h1 h2
  obtain ⟨v1, v2, v3⟩ := hv u h1 h2
  cases v with
  | call c => exact hu
  | destroy t a k =>
    have ht : u ≠ t := by rintro rfl; exact v2 a k rfl
    simp only [Obc.step]
    repeat' split
    all_goals first | exact hu | exact (obc_at_ne _ _ ht).trans hu
  | getAttr t a k m =>
    have ht : u ≠ t := by rintro rfl; exact v3 a k m rfl
    simp only [Obc.step]
    repeat' split
    all_goals first | exact hu | exact (obc_at_ne _ _ ht).trans hu
  | go t =>
    have ht : u ≠ t := by rintro rfl; exact v1 rfl
    simp only [Obc.step]
    repeat' split
    all_goals first | exact hu | exact (obc_at_ne _ _ ht).trans hu

def objThreads : Obc := { lib := run env fresh objCalls }

set_option maxRecDepth 20000 in
/-- The hypotheses of `c102_partial` are met by this schedule. -/
theorem apartTurns_apart : objThreads.Apart env apartTurns := by
  have t0 : Two objThreads := fun _ _ _ => rfl
  have t1 := t0.step (v := .getAttr 1 65538 tok1 readBoth) (fun u h1 _ =>
    ⟨by simp, by simp, fun a k m => by simp; intro h; exact absurd h.symm h1⟩)
  refine ⟨fun u hu h => ?_, fun u hu h => ?_, trivial, trivial, trivial, trivial, trivial⟩
  · cases h
  · by_cases hu1 : u = 1
    · subst hu1
      exact absurd h (by decide)
    · rw [t1 u hu1 hu] at h
      cases h

set_option maxRecDepth 20000 in
example : BoolToken (objCalls ++ apartTurns.filterMap OEv.whole) ∧ 2 * (objCalls.length + apartTurns.length) < 2 ^ 28 ∧
    objThreads.Quiet ∧ Start fresh ∧ NoToken fresh := by
  refine ⟨by unfold BoolToken; decide, by decide, ⟨rfl, fun _ => rfl⟩, fresh_start, noToken⟩

set_option maxRecDepth 20000 in
example : shown (objThreads.returns env apartTurns) = [(.ok, some [some [3], some [3]]), (.ok, none)] := by decide

set_option maxRecDepth 20000 in
example : ((objThreads.history env apartTurns).map (·.1)).length = 3 := by decide

set_option maxRecDepth 20000 in
/-- The same calls one after the other. -/
example : (objThreads.run env apartTurns).lib.bad = false ∧
    rvs env (objThreads.run env apartTurns).lib [.sess 65538 (.size tok1 true), .sess 65538 (.size tok2 true)] =
      [.ok, .objectHandleInvalid] := by decide

set_option maxRecDepth 20000 in
/-- The hypotheses of `c102_read` are met. -/
example : some (answer env objThreads.lib (readCall 65538 tok1 readBoth)) =
    ((objThreads.run env [.getAttr 1 65538 tok1 readBoth, .destroy 2 65538 tok2, .go 1, .go 2]).step env (.go 1)).2 := by
  have hr : ((objThreads.run env [.getAttr 1 65538 tok1 readBoth, .destroy 2 65538 tok2, .go 1, .go 2]).step env (.go 1)).2.isSome = true := by
    decide
  obtain ⟨resp, hresp⟩ := Option.isSome_iff_exists.mp hr
  have hin : ∀ n, n ≤ 3 → (objThreads.run env
      ([] ++ .getAttr 1 65538 tok1 readBoth :: [OEv.destroy 2 65538 tok2, .go 1, .go 2].take n)).oc 1 ≠ .idle := by decide
  have := c102_read hashLen randLen fresh_start noToken objCalls objThreads rfl ⟨rfl, fun _ => rfl⟩ []
    [.destroy 2 65538 tok2, .go 1, .go 2] 1 65538 tok1 readBoth resp (by unfold BoolToken; decide) (by decide)
    ⟨apartTurns_apart.1, apartTurns_apart.2.1, trivial, trivial, trivial⟩ (by intro c hc; simp at hc) rfl
    (by
      intro a b hab
      have h1 : a = [OEv.destroy 2 65538 tok2, .go 1, .go 2].take a.length := by rw [hab]; simp
      have h2 : a.length ≤ 3 := by
        have := congrArg List.length hab
        simp at this
        omega
      rw [h1]
      exact hin _ h2)
    (by decide) hresp
  rw [hresp, this]
  rfl

/-! ## What goes wrong -/

set_option maxRecDepth 20000 in
/-- **C102** does not hold when two threads destroy the same object at once: both find it, the
first one takes it from the list, the second one goes on with an object that is not there. -/
theorem c102_violated : (objThreads.run env [.destroy 1 65538 tok1, .destroy 2 65538 tok1, .go 1, .go 2]).lib.bad = true ∧
    (run env objThreads.lib [.sess 65538 (.destroy tok1), .sess 65538 (.destroy tok1)]).bad = false := by
  decide

set_option maxRecDepth 20000 in
/-- **C102** does not hold when an object is destroyed while its attributes are read: the read
goes on with freed memory. -/
theorem c102_freed :
    (objThreads.run env [.getAttr 1 65538 tok1 readBoth, .destroy 2 65538 tok1, .go 2, .go 2, .go 1]).lib.bad = true ∧
    (run env objThreads.lib [.sess 65538 (.destroy tok1), readCall 65538 tok1 readBoth]).bad = false ∧
    (run env objThreads.lib [readCall 65538 tok1 readBoth, .sess 65538 (.destroy tok1)]).bad = false := by
  decide

set_option maxRecDepth 20000 in
/-- **C102** does not hold for several attributes read while they are set: the object has had the
label and the identifier 3, then the label and the identifier 4; the read answers 3 and 4, which
no whole read would have answered before or after. -/
theorem c102_torn :
    shown (objThreads.returns env [.getAttr 1 65538 tok1 readBoth, .go 1, .call (setBoth 4), .go 1]) =
      [(.ok, none), (.ok, some [some [3], some [4]])] ∧
    shown [answer env objThreads.lib (readCall 65538 tok1 readBoth)] = [(.ok, some [some [3], some [3]])] ∧
    shown [answer env (run env objThreads.lib [setBoth 4]) (readCall 65538 tok1 readBoth)] =
      [(.ok, some [some [4], some [4]])] :=
  ⟨by decide, by decide, by decide⟩

end Demo

end Verif
