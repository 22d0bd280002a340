import Verif.Proofs.ConcSet

/-!
# Attributes changed while other threads look (C134)
-/

namespace Verif

variable {e : Env}

/-! ## The library stays in order -/

theorem stc_at_self (s : Stc) (t : Nat) (p : Sa) : (s.at t p).sa t = p := by simp [Stc.at]

theorem stc_at_ne (s : Stc) {t u : Nat} (p : Sa) (h : u ≠ t) : (s.at t p).sa u = s.sa u := by simp [Stc.at, h]

theorem onward_intact {n : Nat} {l : Lib} (h : Intact n l) (p : Sa) : Intact n (onward e l p).1 := by
  cases p with
  | idle => exact h
  | found hs k uid t =>
    simp only [onward]
    cases hw : writePart l uid fun o => setKey e.key o (keyVals t) with
    | none => exact h.bad true
    | some q =>
      obtain ⟨r, l'⟩ := q
      have h' := writePart_intact h (plainly_setKey ..) hw
      cases r <;> dsimp only <;> first | exact h' | exact h'.bad true | (split <;> exact h')
  | setting hs k uid r =>
    cases r with
    | nil => exact h
    | cons en r =>
      simp only [onward]
      cases hw : writePart l uid fun o => setAttr o en with
      | none => exact h.bad true
      | some q =>
        obtain ⟨r, l'⟩ := q
        have h' := writePart_intact h (plainly_setAttr ..) hw
        cases r <;> dsimp only <;> first | exact h' | exact h'.bad true | (split <;> exact h')
  | reading hs k uid d r =>
    cases r with
    | nil => exact h
    | cons en r =>
      simp only [onward]
      split
      · exact h.bad true
      · split <;> exact h
      · exact h.bad _

theorem boolToken_set (h k : Nat) (t : Option (List Entry)) : BoolToken [.sess h (.setAttr k t)] := by
  intro c hc u hu
  simp only [List.mem_singleton] at hc
  subst hc
  cases hu

theorem boolToken_get (h k : Nat) (t : Option (List Entry)) : BoolToken [.sess h (.getAttr k t)] := by
  intro c hc u hu
  simp only [List.mem_singleton] at hc
  subst hc
  cases hu

theorem stc_step_intact (hh : HashLen e) (hr : RandLen e) {n : Nat} {s : Stc} (h : Intact n s.lib) (hn : n + 2 < 2 ^ 28)
    (v : TEv) (hb : BoolToken v.whole) : Intact (n + 2) (s.step e v).1.lib := by
  cases v with
  | call c => exact h.step hh hr hn c hb
  | setAttr t hs k m =>
    simp only [Stc.step]
    split
    · exact h.mono (by omega)
    split
    · show Intact (n + 2) (beginChange e s.lib hs k m).1
      have hw : Intact (n + 2) (wholly e s.lib (.sess hs (.setAttr k (some m)))).1 := h.step hh hr hn _ (boolToken_set _ _ _)
      unfold beginChange
      split
      · split
        · exact h.mono (by omega)
        · exact hw
      · exact hw
    · exact h.mono (by omega)
  | getAttr t hs k m =>
    simp only [Stc.step]
    split
    · exact h.mono (by omega)
    split
    · show Intact (n + 2) (beginLook e s.lib hs k m).1
      have hw : Intact (n + 2) (wholly e s.lib (.sess hs (.getAttr k (some m)))).1 := h.step hh hr hn _ (boolToken_get _ _ _)
      unfold beginLook
      split
      · split
        · exact h.mono (by omega)
        · exact hw
      · exact hw
    · exact h.mono (by omega)
  | go t =>
    simp only [Stc.step]
    split
    · exact h.mono (by omega)
    · exact (onward_intact h _).mono (by omega)

theorem stc_intact (hh : HashLen e) (hr : RandLen e) (vs : List TEv) : ∀ {n : Nat} {s : Stc}, Intact n s.lib →
    BoolToken (vs.flatMap TEv.whole) → n + 2 * vs.length < 2 ^ 28 → Intact (n + 2 * vs.length) (s.run e vs).lib := by
  induction vs with
  | nil => intro n s h _ _; exact h
  | cons v vs ih =>
    intro n s h hb hn
    simp only [List.length_cons] at hn
    have h1 := stc_step_intact hh hr h (by omega) v (fun c hc => hb c (by simp [hc]))
    have h2 := ih h1 (fun c hc => hb c (by
      simp only [List.flatMap_cons, List.mem_append]; exact .inr hc)) (by omega)
    exact h2.mono (by simp only [List.length_cons]; omega)

theorem stc_bad_step {s : Stc} (h : s.lib.bad = true) (v : TEv) : (s.step e v).1.lib.bad = true := by
  cases v with
  | call c => simp only [Stc.step, step_bad h]; exact h
  | setAttr t hs k m => simp only [Stc.step, h, if_true]
  | getAttr t hs k m => simp only [Stc.step, h, if_true]
  | go t => simp only [Stc.step, h, if_true]

theorem stc_bad {s : Stc} (h : s.lib.bad = true) (vs : List TEv) : (s.run e vs).lib.bad = true := by
  induction vs generalizing s with
  | nil => exact h
  | cons v vs ih => exact ih (stc_bad_step h v)

theorem stc_good {s : Stc} {vs : List TEv} (h : (s.run e vs).lib.bad = false) : s.lib.bad = false := by
  cases hb : s.lib.bad with
  | false => rfl
  | true => rw [stc_bad hb] at h; cases h

theorem stc_run_append (s : Stc) (as bs : List TEv) : s.run e (as ++ bs) = (s.run e as).run e bs := by
  induction as generalizing s with
  | nil => rfl
  | cons a as ih => exact ih _

/-- What reading the object shows. -/
theorem stays_look {n : Nat} {l : Lib} (h : Intact n l) (hn : n < 2 ^ 28) (hc : 0 < l.count) {hs : Nat} {ov : Obj}
    (hst : Stays l hs ov) : look l hs ov.handle = some (some ov) := by
  obtain ⟨o', ha, hv⟩ := stays_addressed hst
  obtain ⟨s', hs', _⟩ := hst
  have hx := h.hi
  unfold HandleInv at hx
  rw [if_pos hc] at hx
  have hf' := addressed_find hx hn hs' ha
  unfold look
  rw [hs', Option.map_some, hf', Option.map_some, hv]

/-! ## A change in parts -/

/-- The object that the thread is writing to. -/
def Sa.writes : Sa → Option Nat
  | .found _ _ u _ | .setting _ _ u _ => some u
  | _ => none

/-- Thread `t` is inside a change of object `k` that began when the object was `o`; by now it is `ov`. -/
structure Under (e : Env) (o : Obj) (m : List Entry) (h k t : Nat) (s : Stc) (ov : Obj) : Prop where
  stays : Stays s.lib h ov
  cnt : 0 < s.lib.count
  on : handleOnToken k = true
  hk : ov.handle = k
  uid : ov.uid = o.uid
  place : (s.sa t = .found h k o.uid m ∧ ov = o) ∨
    ∃ d r, m = d ++ r ∧ r ≠ [] ∧ s.sa t = .setting h k o.uid r ∧ (setKey e.key o (keyVals m)).1 = .ok ∧
      setAttrs (setKey e.key o (keyVals m)).2 d = (.ok, ov)
  others : ∀ u, u ≠ t → (s.sa u).writes ≠ some o.uid

theorem Under.busy {o : Obj} {m : List Entry} {h k t : Nat} {s : Stc} {ov : Obj} (hu : Under e o m h k t s ov) : s.sa t ≠ .idle := by
  rcases hu.place with ⟨h1, _⟩ | ⟨d, r, _, _, h1, _⟩ <;> rw [h1] <;> exact Sa.noConfusion

theorem Under.lib {o : Obj} {m : List Entry} {h k t : Nat} {s s' : Stc} {ov : Obj} (hu : Under e o m h k t s ov)
    (hst : Stays s'.lib h ov) (hc : 0 < s'.lib.count) (ht : s'.sa t = s.sa t)
    (ho : ∀ u, u ≠ t → (s'.sa u).writes ≠ some o.uid) : Under e o m h k t s' ov :=
  ⟨hst, hc, hu.on, hu.hk, hu.uid, by rw [ht]; exact hu.place, ho⟩

theorem stays_call (hh : HashLen e) (hr : RandLen e) {n : Nat} {l : Lib} (hi : Intact n l) (hc : 0 < l.count) {h : Nat} {ov : Obj}
    (hst : Stays l h ov) {c : Call} (hs : Spares h ov.handle c) (hb : (step e l c).1.bad = false) :
    Stays (step e l c).1 h ov ∧ 0 < (step e l c).1.count :=
  hst.run hh hr [c] (by intro d hd; rw [List.mem_singleton.mp hd]; exact hs) hi.cap hi.si hc hb

/-- An event of another thread. -/
theorem Under.other (hh : HashLen e) (hr : RandLen e) {o : Obj} {m : List Entry} {h k t n : Nat} {s : Stc} {ov : Obj}
    (hu : Under e o m h k t s ov) (hi : Intact n s.lib) {v : TEv} (hv : LetsBe t h k v) (hne : v ≠ .go t)
    (hb : (s.step e v).1.lib.bad = false) : Under e o m h k t (s.step e v).1 ov := by
  have hb0 : s.lib.bad = false := by
    cases hx : s.lib.bad with
    | false => rfl
    | true => rw [stc_bad_step hx] at hb; cases hb
  have hon : handleOnToken ov.handle = true := by rw [hu.hk]; exact hu.on
  obtain ⟨se, hse, hhas⟩ := hu.stays
  rw [if_pos hon] at hhas
  have mk : ∀ l' : Lib, l'.sessions = s.lib.sessions → Has ov l'.token.objs → Stays l' h ov := by
    intro l' h1 h2
    exact ⟨se, by rw [getSession_congr h1]; exact hse, by rw [if_pos hon]; exact h2⟩
  have oneGo : ∀ u c, u ≠ t → Spares h k c → (step e s.lib c).1.bad = false →
      Under e o m h k t (Stc.at { s with lib := (step e s.lib c).1 } u .idle) ov := by
    intro u c hut hc hbad
    obtain ⟨h1, h2⟩ := stays_call hh hr hi hu.cnt hu.stays (by rw [hu.hk]; exact hc) hbad
    refine hu.lib h1 h2 (stc_at_ne _ _ (Ne.symm hut)) fun w hw => ?_
    by_cases hwu : w = u
    · subst hwu; rw [stc_at_self]; exact nofun
    · rw [stc_at_ne _ _ hwu]; exact hu.others w hw
  cases v with
  | call c =>
    obtain ⟨h1, h2⟩ := stays_call hh hr hi hu.cnt hu.stays (by rw [hu.hk]; exact hv) hb
    exact hu.lib h1 h2 rfl hu.others
  | setAttr u h' k' m' =>
    simp only [Stc.step, hb0, Bool.false_eq_true, if_false] at hb ⊢
    by_cases hid : s.sa u = .idle
    · rw [if_pos hid] at hb ⊢
      have hut : u ≠ t := by rintro rfl; exact hu.busy hid
      have whole : beginChange e s.lib h' k' m' = wholly e s.lib (.sess h' (.setAttr k' (some m'))) →
          Under e o m h k t (Stc.at { s with lib := (beginChange e s.lib h' k' m').1 } u (beginChange e s.lib h' k' m').2.1) ov := by
        intro hw
        rw [hw] at hb ⊢
        exact oneGo u _ hut hv.2 hb
      cases hl : located s.lib h' k' with
      | none => exact whole (by simp only [beginChange, hl])
      | some q =>
        obtain ⟨se', o'⟩ := q
        by_cases hc : se'.use = .rw ∧ handleOnToken k' = true ∧ settable o' m' = true
        · have hbg : beginChange e s.lib h' k' m' = (s.lib, .found h' k' o'.uid m', none) := by
            simp only [beginChange, hl, if_pos hc]
          rw [hbg]
          refine hu.lib hu.stays hu.cnt (stc_at_ne _ _ (Ne.symm hut)) fun w hw => ?_
          by_cases hwu : w = u
          · subst hwu
            rw [stc_at_self]
            intro he
            have he : o'.uid = o.uid := Option.some.inj he
            obtain ⟨_, _, hf⟩ := located_some hl
            obtain ⟨p1, p2, _⟩ := findObj_parts hf
            obtain ⟨p, hp, hpv⟩ := List.mem_map.mp hhas
            have hpu : p.uid = ov.uid := by rw [← hpv]; rfl
            have := uid_inj hi.cap.pop.uidOk.1 (p2 hc.2.1) hp (by rw [he, hpu, hu.uid])
            have hph : p.handle = ov.handle := by rw [← hpv]; rfl
            exact hv.2 (by rw [← p1, this, hph, hu.hk])
          · rw [stc_at_ne _ _ hwu]; exact hu.others w hw
        · exact whole (by simp only [beginChange, hl, if_neg hc])
    · rw [if_neg hid]; exact hu
  | getAttr u h' k' m' =>
    simp only [Stc.step, hb0, Bool.false_eq_true, if_false] at hb ⊢
    by_cases hid : s.sa u = .idle
    · rw [if_pos hid] at hb ⊢
      have hut : u ≠ t := by rintro rfl; exact hu.busy hid
      have whole : beginLook e s.lib h' k' m' = wholly e s.lib (.sess h' (.getAttr k' (some m'))) →
          Under e o m h k t (Stc.at { s with lib := (beginLook e s.lib h' k' m').1 } u (beginLook e s.lib h' k' m').2.1) ov := by
        intro hw
        rw [hw] at hb ⊢
        exact oneGo u _ hut trivial hb
      cases hl : located s.lib h' k' with
      | none => exact whole (by simp only [beginLook, hl])
      | some q =>
        obtain ⟨se', o'⟩ := q
        by_cases hc : handleOnToken k' = true ∧ checkAttributes false m' = .ok ∧ m' ≠ []
        · have hbg : beginLook e s.lib h' k' m' = (s.lib, .reading h' k' o'.uid [] m', none) := by
            simp only [beginLook, hl, if_pos hc]
          rw [hbg]
          refine hu.lib hu.stays hu.cnt (stc_at_ne _ _ (Ne.symm hut)) fun w hw => ?_
          by_cases hwu : w = u
          · subst hwu; rw [stc_at_self]; exact nofun
          · rw [stc_at_ne _ _ hwu]; exact hu.others w hw
        · exact whole (by simp only [beginLook, hl, if_neg hc])
    · rw [if_neg hid]; exact hu
  | go u =>
    have hut : u ≠ t := by rintro rfl; exact hne rfl
    simp only [Stc.step, hb0, Bool.false_eq_true, if_false] at hb ⊢
    have fin : ∀ l' p, Has ov l'.token.objs → l'.sessions = s.lib.sessions → l'.count = s.lib.count →
        p.writes ≠ some o.uid → Under e o m h k t (Stc.at { s with lib := l' } u p) ov := by
      intro l' p h1 h2 h3 h4
      refine hu.lib (mk l' h2 h1) (by show 0 < l'.count; rw [h3]; exact hu.cnt) (stc_at_ne _ _ (Ne.symm hut)) fun w hw => ?_
      by_cases hwu : w = u
      · subst hwu; rw [stc_at_self]; exact h4
      · rw [stc_at_ne _ _ hwu]; exact hu.others w hw
    have hw := hu.others u hut
    cases hp : s.sa u with
    | idle => exact fin _ _ hhas rfl rfl nofun
    | found h' k' uid m' =>
      rw [hp] at hw
      have hne' : uid ≠ ov.uid := fun hx => hw (by rw [← hu.uid, ← hx]; rfl)
      simp only [onward]
      cases hwr : writePart s.lib uid fun o => setKey e.key o (keyVals m') with
      | none => exact fin _ _ hhas rfl rfl nofun
      | some q =>
        obtain ⟨r, l'⟩ := q
        obtain ⟨g1, g2, g3, _⟩ := writePart_other (plainly_setKey ..) hhas hne' hwr
        cases r <;> dsimp only <;> first | exact fin _ _ g1 g2 g3 nofun | skip
        split
        · exact fin _ _ g1 g2 g3 nofun
        · exact fin _ _ g1 g2 g3 hw
    | setting h' k' uid r =>
      rw [hp] at hw
      have hne' : uid ≠ ov.uid := fun hx => hw (by rw [← hu.uid, ← hx]; rfl)
      cases r with
      | nil => exact fin _ _ hhas rfl rfl nofun
      | cons en r =>
        simp only [onward]
        cases hwr : writePart s.lib uid fun o => setAttr o en with
        | none => exact fin _ _ hhas rfl rfl nofun
        | some q =>
          obtain ⟨r', l'⟩ := q
          obtain ⟨g1, g2, g3, _⟩ := writePart_other (plainly_setAttr ..) hhas hne' hwr
          cases r' <;> dsimp only <;> first | exact fin _ _ g1 g2 g3 nofun | skip
          split
          · exact fin _ _ g1 g2 g3 nofun
          · exact fin _ _ g1 g2 g3 hw
    | reading h' k' uid d r =>
      cases r with
      | nil => exact fin _ _ hhas rfl rfl nofun
      | cons en r =>
        simp only [onward]
        split
        · exact fin _ _ hhas rfl rfl nofun
        · split <;> exact fin _ _ hhas rfl rfl nofun
        · exact fin _ _ hhas rfl rfl nofun

/-- The change is over: it has answered `r`. -/
structure Over (e : Env) (o : Obj) (m : List Entry) (h : Nat) (s : Stc) (r : Resp) : Prop where
  stays : Stays s.lib h (setAttributeValue e.key true o m).2
  cnt : 0 < s.lib.count
  resp : r = { rv := (setAttributeValue e.key true o m).1 }
  good : (setAttributeValue e.key true o m).1 ≠ .ub

/-- The thread's own next part. -/
theorem Under.go {o : Obj} {m : List Entry} {h k t n : Nat} {s : Stc} {ov : Obj}
    (hu : Under e o m h k t s ov) (hset : settable o m = true) (hi : Intact n s.lib) (hb : (s.step e (.go t)).1.lib.bad = false) :
    (∃ ov', Under e o m h k t (s.step e (.go t)).1 ov' ∧ (s.step e (.go t)).2 = none) ∨
    ∃ r, (s.step e (.go t)).2 = some r ∧ Over e o m h (s.step e (.go t)).1 r ∧ (s.step e (.go t)).1.sa t = .idle := by
  have hb0 : s.lib.bad = false := by
    cases hx : s.lib.bad with
    | false => rfl
    | true => rw [stc_bad_step hx] at hb; cases hb
  have hon : handleOnToken ov.handle = true := by rw [hu.hk]; exact hu.on
  obtain ⟨se, hse, hhas⟩ := hu.stays
  rw [if_pos hon] at hhas
  have hwh := settable_whole (x := e.key) hset
  simp only [Stc.step, hb0, Bool.false_eq_true, if_false] at hb ⊢
  -- what holds after a write
  have next : ∀ {f : Obj → IRet × Obj} {q l'}, Plainly f → writePart s.lib o.uid f = some (q, l') →
      q = (f ov).1 ∧ Stays l' h (f ov).2 ∧ 0 < l'.count ∧ l'.bad = false ∧ (f ov).2.handle = k ∧ (f ov).2.uid = o.uid := by
    intro f q l' hf hw
    rw [← hu.uid] at hw
    obtain ⟨g1, g2, g3, g4, g5⟩ := writePart_has hi.cap.pop.uidOk hf hhas hw
    have hkey := hf.key ov
    have h1 : (f ov).2.handle = ov.handle := congrArg (·.1) hkey
    have h2 : (f ov).2.uid = ov.uid := congrArg (·.2.1) hkey
    exact ⟨g1, ⟨se, by rw [getSession_congr g3]; exact hse, by rw [h1, if_pos hon]; exact g2⟩, by rw [g4]; exact hu.cnt,
      by rw [g5]; exact hb0, by rw [h1]; exact hu.hk, by rw [h2]; exact hu.uid⟩
  have oth : ∀ l' p u, u ≠ t → ((Stc.at { s with lib := l' } t p).sa u).writes ≠ some o.uid := by
    intro l' p u hut
    rw [stc_at_ne _ _ hut]; exact hu.others u hut
  rcases hu.place with ⟨hp, hov⟩ | ⟨d, r, hm, hr, hp, hkok, hd⟩
  · rw [hp] at hb ⊢
    simp only [onward] at hb ⊢
    cases hw : writePart s.lib o.uid fun o => setKey e.key o (keyVals m) with
    | none => rw [hw] at hb; cases hb
    | some q =>
      obtain ⟨q, l'⟩ := q
      rw [hw] at hb
      obtain ⟨g1, g2, g3, g4, g5, g6⟩ := next (plainly_setKey ..) hw
      rw [hov] at g1 g2 g5 g6
      rw [← g1] at hwh
      cases q with
      | ok =>
        dsimp only at hb hwh ⊢
        by_cases hmn : m = []
        · rw [if_pos hmn]
          refine .inr ⟨_, rfl, ?_, stc_at_self ..⟩
          rw [hmn] at hwh
          have hwh : setAttributeValue e.key true o m = (.ok, (setKey e.key o (keyVals m)).2) := by rw [hmn]; exact hwh
          exact ⟨by rw [hwh]; exact g2, g3, by rw [hwh], by rw [hwh]; exact RV.noConfusion⟩
        · rw [if_neg hmn]
          exact .inl ⟨_, ⟨g2, g3, hu.on, g5, g6, .inr ⟨[], m, rfl, hmn, stc_at_self .., g1.symm, rfl⟩, oth _ _⟩, rfl⟩
      | ub => cases hb
      | _ =>
        dsimp only at hb hwh ⊢
        exact .inr ⟨_, rfl, ⟨by rw [hwh]; exact g2, g3, by rw [hwh], by rw [hwh]; exact RV.noConfusion⟩, stc_at_self ..⟩
  · rw [hp] at hb ⊢
    cases r with
    | nil => exact absurd rfl hr
    | cons en r =>
      rw [hkok] at hwh
      dsimp only at hwh
      have hrest : setAttributeValue e.key true o m = setAttrs ov (en :: r) := by
        have := setAttrs_then hd (en :: r)
        rw [← hm] at this
        rw [hwh]; exact this
      simp only [onward] at hb ⊢
      cases hw : writePart s.lib o.uid fun o => setAttr o en with
      | none => rw [hw] at hb; cases hb
      | some q =>
        obtain ⟨q, l'⟩ := q
        rw [hw] at hb
        obtain ⟨g1, g2, g3, g4, g5, g6⟩ := next (plainly_setAttr ..) hw
        simp only [setAttrs] at hrest
        rw [← g1] at hrest
        cases q with
        | ok =>
          dsimp only at hb hrest ⊢
          by_cases hrn : r = []
          · rw [if_pos hrn]
            refine .inr ⟨_, rfl, ?_, stc_at_self ..⟩
            rw [hrn] at hrest
            have hrest : setAttributeValue e.key true o m = (.ok, (setAttr ov en).2) := hrest
            exact ⟨by rw [hrest]; exact g2, g3, by rw [hrest], by rw [hrest]; exact RV.noConfusion⟩
          · rw [if_neg hrn]
            refine .inl ⟨_, ⟨g2, g3, hu.on, g5, g6, .inr ⟨d ++ [en], r, by rw [hm, List.append_assoc]; rfl, hrn, stc_at_self .., hkok, ?_⟩, oth _ _⟩, rfl⟩
            rw [setAttrs_then hd]
            simp only [setAttrs, ← g1]
        | ub => cases hb
        | _ =>
          dsimp only at hb hrest ⊢
          exact .inr ⟨_, rfl, ⟨by rw [hrest]; exact g2, g3, by rw [hrest], by rw [hrest]; exact RV.noConfusion⟩, stc_at_self ..⟩

/-- The change begins. -/
theorem begin_under {n : Nat} {s : Stc} (hi : Intact n s.lib) (hb : s.lib.bad = false) (hst : s.Still) {t h k : Nat} {m : List Entry}
    (hid : s.sa t = .idle) (hin : (s.step e (.setAttr t h k m)).1.sa t ≠ .idle) :
    ∃ se p, getSession s.lib h = some se ∧ se.use = .rw ∧ findObj s.lib se k = some p ∧ settable p m = true ∧
      handleOnToken k = true ∧ 0 < s.lib.count ∧ (s.step e (.setAttr t h k m)).1.lib = s.lib ∧
      Under e p.view m h k t (s.step e (.setAttr t h k m)).1 p.view := by
  simp only [Stc.step, hb, Bool.false_eq_true, if_false, hid, if_true] at hin ⊢
  rw [stc_at_self] at hin
  cases hl : located s.lib h k with
  | none => exact absurd (by simp only [beginChange, hl]; rfl) hin
  | some q =>
    obtain ⟨se, p⟩ := q
    by_cases hc : se.use = .rw ∧ handleOnToken k = true ∧ settable p m = true
    · have hbg : beginChange e s.lib h k m = (s.lib, .found h k p.uid m, none) := by
        simp only [beginChange, hl, if_pos hc]
      rw [hbg]
      obtain ⟨g1, g2, g3⟩ := located_some hl
      obtain ⟨p1, p2, _⟩ := findObj_parts g3
      have hstays : Stays s.lib h p.view := ⟨se, g2, by
        rw [if_pos (show handleOnToken p.view.handle = true by show handleOnToken p.handle = true; rw [p1]; exact hc.2.1)]
        exact List.mem_map_of_mem (p2 hc.2.1)⟩
      refine ⟨se, p, g2, hc.1, g3, hc.2.2, hc.2.1, g1, rfl, ⟨hstays, g1, hc.2.1, p1, rfl, .inl ⟨stc_at_self .., rfl⟩, fun u hu => ?_⟩⟩
      rw [stc_at_ne _ _ hu]
      have := hst u
      cases hp : s.sa u with
      | idle => exact nofun
      | reading a b c d f => exact nofun
      | found a b c d => rw [hp] at this; cases this
      | setting a b c d => rw [hp] at this; cases this
    · exact absurd (by simp only [beginChange, hl, if_neg hc]; rfl) hin

theorem idle_stays {s : Stc} {t h k : Nat} {v : TEv} (hid : s.sa t = .idle) (hv : LetsBe t h k v) :
    (s.step e v).1.sa t = .idle := by
  cases v with
  | call c => exact hid
  | setAttr u h' k' m =>
    simp only [Stc.step]
    split
    · exact hid
    split
    · rw [stc_at_ne _ _ (Ne.symm hv.1)]; exact hid
    · exact hid
  | getAttr u h' k' m =>
    simp only [Stc.step]
    split
    · exact hid
    split
    · rw [stc_at_ne _ _ (Ne.symm hv)]; exact hid
    · exact hid
  | go u =>
    simp only [Stc.step]
    split
    · exact hid
    · by_cases hu : t = u
      · subst hu
        rw [stc_at_self, hid]; rfl
      · rw [stc_at_ne _ _ hu]; exact hid

theorem go_idle {s : Stc} {t : Nat} (hid : s.sa t = .idle) : (s.step e (.go t)).2 = none := by
  simp only [Stc.step, hid, onward]
  split <;> rfl

theorem idle_run {t h k : Nat} (ws : List TEv) (hw : ∀ v ∈ ws, LetsBe t h k v) : ∀ {s : Stc}, s.sa t = .idle → (s.run e ws).sa t = .idle := by
  induction ws with
  | nil => intro s h; exact h
  | cons v ws ih =>
    intro s hid
    exact ih (fun w h => hw w (List.mem_cons_of_mem _ h)) (idle_stays hid (hw v List.mem_cons_self))

/-- As long as the thread is inside. -/
theorem under_run (hh : HashLen e) (hr : RandLen e) {o : Obj} {m : List Entry} {h k t : Nat} (hset : settable o m = true) (ws : List TEv) :
    ∀ {n : Nat} {s : Stc} {ov : Obj}, (∀ v ∈ ws, LetsBe t h k v) → Under e o m h k t s ov → Intact n s.lib →
      BoolToken (ws.flatMap TEv.whole) → n + 2 * ws.length < 2 ^ 28 → (s.run e ws).lib.bad = false → (s.run e ws).sa t ≠ .idle →
      ∃ ov', Under e o m h k t (s.run e ws) ov' := by
  induction ws with
  | nil => intro n s ov _ hu _ _ _ _ _; exact ⟨ov, hu⟩
  | cons v ws ih =>
    intro n s ov hw hu hi hbt hn hgood hin
    simp only [List.length_cons] at hn
    have hw' : ∀ v ∈ ws, LetsBe t h k v := fun w h => hw w (List.mem_cons_of_mem _ h)
    have hb1 : (s.step e v).1.lib.bad = false := stc_good hgood
    have hi1 := stc_step_intact hh hr hi (by omega) v (fun c hc => hbt c (by simp [hc]))
    have hbt' : BoolToken (ws.flatMap TEv.whole) := fun c hc => hbt c (by
      simp only [List.flatMap_cons, List.mem_append]; exact .inr hc)
    by_cases hv : v = .go t
    · subst hv
      rcases hu.go hset hi hb1 with ⟨ov', h1, _⟩ | ⟨r, _, _, h3⟩
      · exact ih hw' h1 hi1 hbt' (by omega) hgood hin
      · exact absurd (idle_run ws hw' h3) hin
    · exact ih hw' (hu.other hh hr hi (hw v List.mem_cons_self) hv hb1) hi1 hbt' (by omega) hgood hin

/-- The whole change. -/
theorem whole_step {n : Nat} {l : Lib} (hi : Intact n l) (hb : l.bad = false) (hc : 0 < l.count) {h k : Nat} {se : Session} {p : Obj}
    (hg : getSession l h = some se) (hrw : se.use = .rw) (hf : findObj l se k = some p) (hon : handleOnToken k = true) {as : List Entry}
    (hub : (setAttributeValue e.key true p.view as).1 ≠ .ub) :
    answer e l (setCall h k as) = { rv := (setAttributeValue e.key true p.view as).1 } ∧
    (step e l (setCall h k as)).1.bad = false ∧ 0 < (step e l (setCall h k as)).1.count ∧
    Stays (step e l (setCall h k as)).1 h (setAttributeValue e.key true p.view as).2 := by
  obtain ⟨p1, p2, _⟩ := findObj_parts hf
  have hv := setAttributeValue_view e.key true p as
  have h1 : (setAttributeValue e.key true p.view as).1 = (setAttributeValue e.key true p as).1 := by rw [hv]
  have hcb : callBody e l (setCall h k as) =
      ({ l with token := { l.token with objs := replObj (setAttributeValue e.key true p as).2 l.token.objs } },
        { rv := (setAttributeValue e.key true p as).1 }) := by
    simp only [setCall, callBody, if_neg (show ¬ l.count ≤ 0 by omega), hg, sessCall, cSetAttr, hrw, ne_eq, not_true_eq_false,
      if_false, hf, putObj, hon, if_true]
  have hst : step e l (setCall h k as) = callBody e l (setCall h k as) := step_eq hb (by rw [hcb, ← h1]; exact hub)
  have hpl : Plainly fun o => (IRet.ok, (setAttributeValue e.key true o as).2) := by
    refine ⟨fun _ => rfl, fun o => ?_, fun o => (setAttributeValue_key ..).1, fun o => (setAttributeValue_key ..).2⟩
    dsimp only; rw [setAttributeValue_view]
  have hm := p2 hon
  have hw : writePart l p.view.uid (fun o => (IRet.ok, (setAttributeValue e.key true o as).2)) =
      some (.ok, { l with token := { l.token with objs := replObj (setAttributeValue e.key true p as).2 l.token.objs } }) := by
    have hfi : l.token.objs.find? (fun o => o.uid == p.view.uid) = some p := by
      cases hq : l.token.objs.find? (fun o => o.uid == p.view.uid) with
      | none => exact absurd (List.find?_eq_none.mp hq p hm) (by simp [Obj.view])
      | some q =>
        have h2 : q.uid = p.view.uid := by simpa using List.find?_some hq
        rw [uid_inj hi.cap.pop.uidOk.1 (List.mem_of_find?_eq_some hq) hm h2]
    unfold writePart
    rw [hfi]; rfl
  obtain ⟨_, g2, g3, _, _⟩ := writePart_has hi.cap.pop.uidOk hpl (List.mem_map_of_mem hm) hw
  unfold answer
  rw [hst, hcb, h1]
  refine ⟨rfl, hb, hc, se, ((getSession_congr g3) h).trans hg, ?_⟩
  have hh : (setAttributeValue e.key true p.view as).2.handle = k := by
    have : (setAttributeValue e.key true p.view as).2.handle = p.view.handle := congrArg (·.1) (setAttributeValue_key e.key true p.view as).1
    rw [this]; exact p1
  rw [hh, if_pos hon]
  exact g2

/-- Reading is the same when the object is. -/
theorem same_read {n n' : Nat} {l l' : Lib} (hi : Intact n l) (hi' : Intact n' l') (hn : n < 2 ^ 28) (hn' : n' < 2 ^ 28) (hb : l.bad = false)
    (hb' : l'.bad = false) (hc : 0 < l.count) (hc' : 0 < l'.count) {h : Nat} {ov : Obj} (hs : Stays l h ov) (hs' : Stays l' h ov)
    (q : List Entry) : answer e l (readCall h ov.handle q) = answer e l' (readCall h ov.handle q) := by
  unfold readCall
  rw [getAttr_answer, getAttr_answer, stays_look hi hn hc hs, stays_look hi' hn' hc' hs', hb, hb']
  simp only [Bool.false_eq_true, if_false]
  rw [if_neg (by omega), if_neg (by omega)]

/-- **C134** (partial: only if no other thread changes, destroys or logs out of the object while
the call is under way): a `C_SetAttributeValue` that other threads' calls come between returns
what it returns in one go, and afterwards every attribute of the object reads as if it had been
made in one go. -/
theorem c134_change_partial (hh : HashLen e) (hr : RandLen e) {l₀ : Lib} (h₀ : Start l₀) (hd : NoToken l₀) (vs ws : List TEv)
    (t h k : Nat) (m : List Entry) (hb : BoolToken ((vs ++ ws).flatMap TEv.whole)) (hn : 2 * (vs ++ ws).length + 4 < 2 ^ 28)
    (hstill : (Stc.run e { lib := l₀ } vs).Still) (hid : (Stc.run e { lib := l₀ } vs).sa t = .idle)
    (hw : ∀ v ∈ ws, LetsBe t h k v) (r : Resp)
    (hret : ((Stc.run e { lib := l₀ } (vs ++ .setAttr t h k m :: ws)).step e (.go t)).2 = some r)
    (hgood : ((Stc.run e { lib := l₀ } (vs ++ .setAttr t h k m :: ws)).step e (.go t)).1.lib.bad = false) :
    r = answer e (Stc.run e { lib := l₀ } vs).lib (setCall h k m) ∧
    ∀ q, answer e ((Stc.run e { lib := l₀ } (vs ++ .setAttr t h k m :: ws)).step e (.go t)).1.lib (readCall h k q) =
      answer e (Verif.step e (Stc.run e { lib := l₀ } vs).lib (setCall h k m)).1 (readCall h k q) := by
  rw [List.flatMap_append] at hb
  rw [List.length_append] at hn
  have hi0 : Intact 0 l₀ := ⟨h₀.sinv, Start.capInv h₀ hd, Start.handleInv h₀ hd⟩
  have hi := stc_intact hh hr vs (s := { lib := l₀ }) hi0 (fun c hc => hb c (List.mem_append_left _ hc)) (by omega)
  rw [stc_run_append] at hret hgood ⊢
  generalize Stc.run e { lib := l₀ } vs = s at *
  simp only [Stc.run] at hret hgood ⊢
  have hg2 : ((s.step e (.setAttr t h k m)).1.run e ws).lib.bad = false := by
    cases hx : ((s.step e (.setAttr t h k m)).1.run e ws).lib.bad with
    | false => rfl
    | true => rw [stc_bad_step hx] at hgood; cases hgood
  have hg1 : s.lib.bad = false := by
    cases hx : s.lib.bad with
    | false => rfl
    | true => rw [stc_bad (stc_bad_step hx _)] at hg2; cases hg2
  have hin2 : ((s.step e (.setAttr t h k m)).1.run e ws).sa t ≠ .idle := by
    intro hx
    rw [go_idle hx] at hret
    cases hret
  have hin1 : (s.step e (.setAttr t h k m)).1.sa t ≠ .idle := fun hx => hin2 (idle_run ws hw hx)
  obtain ⟨se, p, b1, b2, b3, b4, b5, b6, b7, hu⟩ := begin_under hi hg1 hstill hid hin1
  have hi1 : Intact (0 + 2 * vs.length) (s.step e (.setAttr t h k m)).1.lib := by rw [b7]; exact hi
  obtain ⟨ov, hu2⟩ := under_run hh hr (o := p.view) b4 ws hw hu hi1 (fun c hc => hb c (List.mem_append_right _ hc)) (by omega) hg2 hin2
  have hi2 := stc_intact hh hr ws (s := (s.step e (.setAttr t h k m)).1) hi1 (fun c hc => hb c (List.mem_append_right _ hc)) (by omega)
  have hi3 := stc_step_intact hh hr hi2 (by omega) (.go t) (fun c hc => by cases hc)
  generalize (s.step e (.setAttr t h k m)).1.run e ws = s2 at *
  rcases hu2.go b4 hi2 hgood with ⟨_, _, hno⟩ | ⟨r', h1, h2, _⟩
  · rw [hno] at hret; cases hret
  · rw [h1] at hret
    cases hret
    obtain ⟨w1, w2, w3, w4⟩ := whole_step hi hg1 b6 b1 b2 b3 b5 h2.good
    refine ⟨by rw [w1]; exact h2.resp, fun q => ?_⟩
    have hk : (setAttributeValue e.key true p.view m).2.handle = k := by
      have : (setAttributeValue e.key true p.view m).2.handle = p.view.handle := congrArg (·.1) (setAttributeValue_key e.key true p.view m).1
      rw [this]; exact (findObj_parts b3).1
    have hiw := hi.step hh hr (by omega) (setCall h k m) (boolToken_set _ _ _)
    have := same_read (e := e) hi3 hiw (by omega) (by omega) hgood w2 h2.cnt w3 h2.stays w4 q
    rw [hk] at this
    exact this

/-! ## What other threads see in between -/

theorem check_mem {b : Bool} {t : List Entry} : checkAttributes b t = .ok ↔ ∀ en ∈ t, checkEntry b en = .ok := by
  induction t with
  | nil => simp [checkAttributes]
  | cons a t ih =>
    unfold checkAttributes
    by_cases ha : checkEntry b a = .ok
    · rw [if_pos ha, ih]; simp [ha]
    · rw [if_neg ha]; simp [ha]

/-- The key setters look at the key data only. -/
theorem setKey_congr {x : KeyExt} {o : Obj} {ps : List CKA} (hk : keyParams o = some ps) {v v' : CKA → Option Bytes}
    (h : ∀ a ∈ ps, v' a = v a) : setKey x o v' = setKey x o v := by
  unfold keyParams at hk
  unfold setKey
  split at hk
  · rename_i hc
    cases hk
    rw [if_pos hc, if_pos hc]
    unfold setCert
    rw [h .certificateType (by simp), h .value (by simp)]
  rename_i hc
  rw [if_neg hc, if_neg hc]
  split at hk
  · rename_i hc
    cases hk
    rw [if_pos hc, if_pos hc]
    unfold setRsaKey
    rw [h .modulus (by simp), h .privateExponent (by simp), h .prime1 (by simp), h .prime2 (by simp), h .exponent1 (by simp),
      h .exponent2 (by simp), h .coefficient (by simp), h .publicExponent (by simp), h .modulusBits (by simp)]
  rename_i hc
  rw [if_neg hc, if_neg hc]
  split at hk
  · rename_i hc
    cases hk
    rw [if_pos hc, if_pos hc]
    unfold setEcKey
    rw [h .ecParams (by simp), h .value (by simp), h .ecPoint (by simp)]
  rename_i hc
  rw [if_neg hc, if_neg hc]
  split at hk
  · rename_i hc
    cases hk
    rw [if_pos hc, if_pos hc]
    unfold setDhKey
    rw [h .prime (by simp), h .base (by simp), h .value (by simp)]
  rename_i hc
  rw [if_neg hc, if_neg hc]
  split at hk
  · cases hk
    unfold setSecretKey
    rw [h .valueLen (by simp), h .value (by simp)]
  · cases hk

/-- Key data is not set once more. -/
theorem setAttr_keyData {o o' : Obj} {ps : List CKA} (hk : keyParams o = some ps) (hc : o'.cls = o.cls) (ht : o'.typ = o.typ) {en : Entry}
    (hen : en.typ ∈ ps) : setAttr o' en = (.ok, o') := by
  unfold keyParams at hk
  unfold setAttr
  split at hk
  · rename_i h
    cases hk
    simp only [List.mem_cons, List.not_mem_nil, or_false] at hen
    rcases hen with h1 | h1 <;> simp [h1, hc, h]
  split at hk
  · rename_i h
    cases hk
    simp only [List.mem_cons, List.not_mem_nil, or_false] at hen
    rcases hen with h1 | h1 | h1 | h1 | h1 | h1 | h1 | h1 | h1 <;> simp [h1, ht, h]
  split at hk
  · rename_i h
    cases hk
    simp only [List.mem_cons, List.not_mem_nil, or_false] at hen
    rcases hen with h1 | h1 | h1 <;> simp [h1, ht, h]
  split at hk
  · rename_i h
    cases hk
    simp only [List.mem_cons, List.not_mem_nil, or_false] at hen
    rcases hen with h1 | h1 | h1 <;> simp [h1, ht, h]
  split at hk
  · rename_i h
    cases hk
    simp only [List.mem_cons, List.not_mem_nil, or_false] at hen
    rcases hen with h1 | h1 <;> rcases h with h | h <;> simp [h1, ht, h]
  · cases hk

theorem find_filter_key {ps : List CKA} {a : CKA} (ha : a ∈ ps) (m : List Entry) :
    keyAttr (m.filter fun en => decide (en.typ ∈ ps)) a = keyAttr m a := by
  unfold keyAttr
  induction m with
  | nil => rfl
  | cons en m ih =>
    by_cases h : en.typ ∈ ps
    · rw [List.filter_cons_of_pos (by simpa using h), List.find?_cons, List.find?_cons, ih]
    · rw [List.filter_cons_of_neg (by simpa using h), List.find?_cons, ih]
      have : (en.typ == a) = false := by
        cases hx : en.typ == a with
        | false => rfl
        | true => rw [eq_of_beq hx] at h; exact absurd ha h
      rw [this]

/-- The key data together with the first entries, as a template of its own. -/
theorem part_whole {x : KeyExt} {o ov : Obj} {d r : List Entry} (hset : settable o (d ++ r) = true)
    (hk : (setKey x o (keyVals (d ++ r))).1 = .ok) (hd : setAttrs (setKey x o (keyVals (d ++ r))).2 d = (.ok, ov)) :
    ∃ ks, (∀ en ∈ ks, en ∈ d ++ r) ∧ setAttributeValue x true o (ks ++ d) = (.ok, ov) := by
  unfold settable at hset
  simp only [Bool.and_eq_true, decide_eq_true_eq] at hset
  obtain ⟨h1, h2⟩ := hset
  cases hp : keyParams o with
  | none => rw [hp] at h2; cases h2
  | some ps =>
    rw [hp] at h2
    have h3 : (ps.any fun a => (keyAttr (d ++ r) a).any fun e => e.mem.isNone) = false := by simpa using h2
    let ks := (d ++ r).filter fun en => decide (en.typ ∈ ps)
    have hks : ∀ en ∈ ks, en ∈ d ++ r ∧ en.typ ∈ ps := fun en h => by
      have := List.mem_filter.mp h
      exact ⟨this.1, by simpa using this.2⟩
    have hka : ∀ a ∈ ps, keyAttr (ks ++ d) a = keyAttr (d ++ r) a := by
      intro a ha
      have hf := find_filter_key ha (d ++ r)
      unfold keyAttr at hf ⊢
      rw [List.find?_append, hf]
      cases hx : (d ++ r).find? (fun e => e.typ == a) with
      | some q => rfl
      | none =>
        have : d.find? (fun e => e.typ == a) = none := by
          rw [List.find?_append] at hx
          cases hy : d.find? (fun e => e.typ == a) with
          | none => rfl
          | some q => rw [hy] at hx; cases hx
        rw [this]; rfl
    have hsk : setKey x o (keyVals (ks ++ d)) = setKey x o (keyVals (d ++ r)) :=
      setKey_congr hp fun a ha => by unfold keyVals; rw [hka a ha]
    refine ⟨ks, fun en h => (hks en h).1, ?_⟩
    have hck : checkAttributes true (ks ++ d) = .ok := by
      rw [check_mem] at h1 ⊢
      intro en hen
      rcases List.mem_append.mp hen with h | h
      · exact h1 en (hks en h).1
      · exact h1 en (List.mem_append_left _ h)
    have hnull : (ps.any fun a => (keyAttr (ks ++ d) a).any fun e => e.mem.isNone) = false := by
      rw [← h3]
      have : ∀ qs : List CKA, (∀ a ∈ qs, a ∈ ps) → (qs.any fun a => (keyAttr (ks ++ d) a).any fun e => e.mem.isNone) =
          qs.any fun a => (keyAttr (d ++ r) a).any fun e => e.mem.isNone := by
        intro qs
        induction qs with
        | nil => intro _; rfl
        | cons a qs ih =>
          intro hq
          rw [List.any_cons, List.any_cons, hka a (hq a List.mem_cons_self), ih fun b hb => hq b (List.mem_cons_of_mem _ hb)]
      exact this ps fun _ h => h
    obtain ⟨dt, sz, hfr⟩ := setKey_frame x o (keyVals (d ++ r))
    rw [setAttributeValue_run hck hp hnull (o1 := (setKey x o (keyVals (d ++ r))).2) (by rw [hsk]; exact Prod.ext hk rfl)]
    rw [← hd]
    have hcls : (setKey x o (keyVals (d ++ r))).2.cls = o.cls := by rw [hfr]
    have htyp : (setKey x o (keyVals (d ++ r))).2.typ = o.typ := by rw [hfr]
    have : ∀ qs : List Entry, (∀ en ∈ qs, en.typ ∈ ps) → setAttrs (setKey x o (keyVals (d ++ r))).2 qs = (.ok, (setKey x o (keyVals (d ++ r))).2) := by
      intro qs
      induction qs with
      | nil => intro _; rfl
      | cons en qs ih =>
        intro hq
        simp only [setAttrs, setAttr_keyData hp hcls htyp (hq en List.mem_cons_self)]
        exact ih fun b hb => hq b (List.mem_cons_of_mem _ hb)
    exact setAttrs_then (this ks fun en h => (hks en h).2) d

/-- **C134** (partial: what other threads do see): as long as the call is under way, and under
the same rules, the object reads as it did before the call, or as after a whole and
successful `C_SetAttributeValue` with the key data in the template and its first `n` entries, for some `n`. -/
theorem c134_seen_partial (hh : HashLen e) (hr : RandLen e) {l₀ : Lib} (h₀ : Start l₀) (hd : NoToken l₀) (vs ws : List TEv)
    (t h k : Nat) (m : List Entry) (hb : BoolToken ((vs ++ ws).flatMap TEv.whole)) (hn : 2 * (vs ++ ws).length + 4 < 2 ^ 28)
    (hstill : (Stc.run e { lib := l₀ } vs).Still) (hid : (Stc.run e { lib := l₀ } vs).sa t = .idle)
    (hw : ∀ v ∈ ws, LetsBe t h k v)
    (hin : (Stc.run e { lib := l₀ } (vs ++ .setAttr t h k m :: ws)).sa t ≠ .idle)
    (hgood : (Stc.run e { lib := l₀ } (vs ++ .setAttr t h k m :: ws)).lib.bad = false) :
    (∀ q, answer e (Stc.run e { lib := l₀ } (vs ++ .setAttr t h k m :: ws)).lib (readCall h k q) =
      answer e (Stc.run e { lib := l₀ } vs).lib (readCall h k q)) ∨
    ∃ ks n, (∀ en ∈ ks, en ∈ m) ∧ (answer e (Stc.run e { lib := l₀ } vs).lib (setCall h k (ks ++ m.take n))).rv = .ok ∧
      ∀ q, answer e (Stc.run e { lib := l₀ } (vs ++ .setAttr t h k m :: ws)).lib (readCall h k q) =
        answer e (Verif.step e (Stc.run e { lib := l₀ } vs).lib (setCall h k (ks ++ m.take n))).1 (readCall h k q) := by
  rw [List.flatMap_append] at hb
  rw [List.length_append] at hn
  have hi0 : Intact 0 l₀ := ⟨h₀.sinv, Start.capInv h₀ hd, Start.handleInv h₀ hd⟩
  have hi := stc_intact hh hr vs (s := { lib := l₀ }) hi0 (fun c hc => hb c (List.mem_append_left _ hc)) (by omega)
  rw [stc_run_append] at hin hgood ⊢
  generalize Stc.run e { lib := l₀ } vs = s at *
  simp only [Stc.run] at hin hgood ⊢
  have hg1 : s.lib.bad = false := by
    cases hx : s.lib.bad with
    | false => rfl
    | true => rw [stc_bad (stc_bad_step hx _)] at hgood; cases hgood
  have hin1 : (s.step e (.setAttr t h k m)).1.sa t ≠ .idle := fun hx => hin (idle_run ws hw hx)
  obtain ⟨se, p, b1, b2, b3, b4, b5, b6, b7, hu⟩ := begin_under hi hg1 hstill hid hin1
  have hi1 : Intact (0 + 2 * vs.length) (s.step e (.setAttr t h k m)).1.lib := by rw [b7]; exact hi
  obtain ⟨ov, hu2⟩ := under_run hh hr (o := p.view) b4 ws hw hu hi1 (fun c hc => hb c (List.mem_append_right _ hc)) (by omega) hgood hin
  have hi2 := stc_intact hh hr ws (s := (s.step e (.setAttr t h k m)).1) hi1 (fun c hc => hb c (List.mem_append_right _ hc)) (by omega)
  have hst0 : Stays s.lib h p.view := by have := hu.stays; rw [b7] at this; exact this
  generalize (s.step e (.setAttr t h k m)).1.run e ws = s2 at *
  rcases hu2.place with ⟨_, hov⟩ | ⟨d, r, hm, _, _, hkok, hd⟩
  · refine .inl fun q => ?_
    have hst := hu2.stays
    have hk := hu2.hk
    rw [hov] at hst hk
    have := same_read (e := e) hi2 hi (by omega) (by omega) hgood hg1 hu2.cnt b6 hst hst0 q
    rw [hk] at this
    exact this
  · subst hm
    obtain ⟨ks, hks, hwh⟩ := part_whole (x := e.key) (o := p.view) b4 hkok hd
    refine .inr ⟨ks, d.length, hks, ?_⟩
    rw [List.take_left' (rfl : d.length = d.length)]
    obtain ⟨w1, w2, w3, w4⟩ := whole_step (e := e) hi hg1 b6 b1 b2 b3 b5 (as := ks ++ d) (by rw [hwh]; exact RV.noConfusion)
    rw [hwh] at w1 w4
    refine ⟨by rw [w1], fun q => ?_⟩
    have hiw := hi.step hh hr (by omega) (setCall h k (ks ++ d)) (boolToken_set _ _ _)
    have := same_read (e := e) hi2 hiw (by omega) (by omega) hgood w2 hu2.cnt w3 hu2.stays w4 q
    rw [hu2.hk] at this
    exact this

/-! ## Cases -/

namespace Demo

/-- The value of the key is replaced by one that must not leave the token. -/
def freshSecret : List Entry := [.of .value (List.replicate 16 5), .of .sensitive [1], .of .extractable [0]]

/-- The value is read. -/
def readKeyVal : Call := readCall 65538 tok1 [.of .value (List.replicate 16 0)]

/-- A token with two keys. -/
def pairOfKeys : List Call := setup ++ [createCall 65538 (openTmpl true 7), createCall 65538 (openTmpl true 9)]

/-- While the first key is changed, another thread reads it in parts and a third one changes the
second key. -/
def besides : List TEv :=
  [.getAttr 2 65538 tok1 readBoth, .go 1, .go 2, .setAttr 3 65538 tok2 [.of .label [8]], .go 1, .go 3, .go 2, .call (openCall true), .go 3,
   .go 1]

/-- The threads before the change begins. -/
def keyThreads : Stc := Stc.run env { lib := fresh } (pairOfKeys.map .call)

theorem calls_still (cs : List Call) : ∀ {s : Stc}, (∀ u, s.sa u = .idle) → ∀ u, (s.run env (cs.map .call)).sa u = .idle := by
  induction cs with
  | nil => intro s h; exact h
  | cons c cs ih => intro s h; exact ih (s := (s.step env (.call c)).1) h

set_option maxRecDepth 40000 in
/-- The hypotheses of `c134_change_partial` and `c134_seen_partial` are met: the change and the calls of the other threads
come between each other, and the change returns `CKR_OK`. -/
example :
    keyThreads.Still ∧ keyThreads.sa 1 = .idle ∧ (∀ v ∈ besides, LetsBe 1 65538 tok1 v) ∧
    BoolToken ((pairOfKeys.map TEv.call ++ besides).flatMap TEv.whole) ∧
    (keyThreads.run env (.setAttr 1 65538 tok1 freshSecret :: besides)).sa 1 ≠ .idle ∧
    (((keyThreads.run env (.setAttr 1 65538 tok1 freshSecret :: besides)).step env (.go 1)).2.map (·.rv)) = some .ok ∧
    ((keyThreads.run env (.setAttr 1 65538 tok1 freshSecret :: besides)).step env (.go 1)).1.lib.bad = false := by
  have hs : ∀ u, keyThreads.sa u = .idle := calls_still pairOfKeys fun _ => rfl
  refine ⟨fun u => by rw [hs u]; rfl, hs 1, ?_, by unfold BoolToken; decide, by decide +kernel, by decide +kernel, by decide +kernel⟩
  unfold besides
  intro v hv
  simp only [List.mem_cons, List.not_mem_nil, or_false] at hv
  rcases hv with rfl | rfl | rfl | rfl | rfl | rfl | rfl | rfl | rfl | rfl
  all_goals first | trivial | (show (2 : Nat) ≠ 1; decide) | exact ⟨by decide, by decide⟩

/-! ## What goes wrong -/

set_option maxRecDepth 40000 in
/-- **C134** does not hold: a value that is set together with the marks that protect it is read
by another thread before the marks are set.  Before the call the old value is read, afterwards
none. -/
theorem c134_violated :
    shown (keyThreads.returns env [.call readKeyVal, .setAttr 1 65538 tok1 freshSecret, .go 1, .call readKeyVal, .go 1, .go 1, .go 1, .call readKeyVal]) =
      [(.ok, some [some (List.replicate 16 7)]), (.ok, some [some (List.replicate 16 5)]), (.ok, none),
       (.ok, some [some (List.replicate 16 0)])] ∧
    shown (answers env keyThreads.lib [readKeyVal, setCall 65538 tok1 freshSecret, readKeyVal]) =
      [(.ok, some [some (List.replicate 16 7)]), (.ok, none), (.ok, some [some (List.replicate 16 0)])] :=
  ⟨by decide +kernel, by decide +kernel⟩

set_option maxRecDepth 40000 in
/-- **C134** does not hold: two threads set label and identifier to 4 and to 5; both are told
`CKR_OK`, and the object is left with the label of the one and the identifier of the other. -/
theorem c134_mixed :
    shown (keyThreads.returns env [.setAttr 1 65538 tok1 [.of .label [4], .of .id [4]], .setAttr 2 65538 tok1 [.of .label [5], .of .id [5]],
      .go 1, .go 2, .go 1, .go 2, .go 2, .go 1, .call (readCall 65538 tok1 readBoth)]) =
      [(.ok, none), (.ok, none), (.ok, some [some [5], some [4]])] ∧
    shown (answers env keyThreads.lib [setBoth 4, setBoth 5, readCall 65538 tok1 readBoth]) =
      [(.ok, none), (.ok, none), (.ok, some [some [5], some [5]])] ∧
    shown (answers env keyThreads.lib [setBoth 5, setBoth 4, readCall 65538 tok1 readBoth]) =
      [(.ok, none), (.ok, none), (.ok, some [some [4], some [4]])] :=
  ⟨by decide +kernel, by decide +kernel, by decide +kernel⟩

end Demo

end Verif
