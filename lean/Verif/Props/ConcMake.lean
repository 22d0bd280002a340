import Verif.Proofs.ConcMake

/-!
# Objects made by several threads (C126)
-/

namespace Verif

variable {e : Env}

/-- What is known about the threads, and no two of them make objects of the same session. -/
structure MkOk (e : Env) (s : Mkc) : Prop where
  ok : ∀ t, (s.mc t).Ok e s.lib
  apart : ∀ t u h, t ≠ u → (s.mc t).FillsSession h → ¬ (s.mc u).FillsSession h

theorem mkc_at_self (s : Mkc) (t : Nat) (p : Mc) : (s.at t p).mc t = p := by simp [Mkc.at]

theorem mkc_at_ne (s : Mkc) {t u : Nat} (p : Mc) (h : u ≠ t) : (s.at t p).mc u = s.mc u := by simp [Mkc.at, h]

theorem MkOk.at {s : Mkc} (hg : MkOk e s) {l : Lib} {t : Nat} {p : Mc} (hl : ∀ u, u ≠ t → (s.mc u).Ok e l) (hp : p.Ok e l)
    (h1 : ∀ h, p.FillsSession h → ∀ u, u ≠ t → ¬ (s.mc u).FillsSession h) : MkOk e (Mkc.at { s with lib := l } t p) := by
  refine ⟨fun u => ?_, fun a b h hab ha hb => ?_⟩
  · by_cases hu : u = t
    · subst hu; rw [mkc_at_self]; exact hp
    · rw [mkc_at_ne _ _ hu]; exact hl u hu
  · by_cases hat : a = t
    · subst hat
      rw [mkc_at_self] at ha
      rw [mkc_at_ne _ _ (Ne.symm hab)] at hb
      exact h1 h ha b (Ne.symm hab) hb
    · rw [mkc_at_ne _ _ hat] at ha
      by_cases hbt : b = t
      · subst hbt
        rw [mkc_at_self] at hb
        exact h1 h hb a hat ha
      · rw [mkc_at_ne _ _ hbt] at hb
        exact hg.apart a b h hab ha hb

/-- The library and the answers of an event are those of the call that takes effect at it. -/
def Mkc.Follows (e : Env) (s : Mkc) (v : MEv) : Prop :=
  (s.step e v).1.lib = Verif.run e s.lib ((s.effect e v).toList.map (·.1)) ∧
  (s.effect e v).toList.map (·.2) = replies e s.lib ((s.effect e v).toList.map (·.1))

theorem mk_follows_none {s : Mkc} {v : MEv} (h1 : s.effect e v = none) (h2 : (s.step e v).1.lib = s.lib) : s.Follows e v := by
  unfold Mkc.Follows
  rw [h1]
  exact ⟨h2, rfl⟩

theorem mk_follows_some {s : Mkc} {v : MEv} {c : Call} {r : Resp} (h1 : s.effect e v = some (c, r))
    (h2 : (s.step e v).1.lib = (step e s.lib c).1) (h3 : r = answer e s.lib c) : s.Follows e v := by
  unfold Mkc.Follows
  rw [h1]
  exact ⟨h2, by rw [h3]; rfl⟩

/-- The session as the threads find it. -/
theorem find_session {l : Lib} (hi : SInv l) {h : Nat} {s : Session} (hs : getSession l h = some s) :
    l.sessions.find? (fun x => x.handle == h) = some s := by
  obtain ⟨q1, _, q3⟩ := getSession_handle hs
  exact (find_iff hi.nodup).mpr ⟨q3, q1⟩

/-- An object added to the token leaves the sessions alone and is on the list. -/
theorem tokenAdd_facts {l : Lib} {s : Session} {on : Nat} (hon : on ≠ 0) (o : Obj) :
    (sessAddObject e l s on o).1.sessions = l.sessions ∧
    ∀ k, (sessAddObject e l s on o).2 = some k → ∃ b, (k, l.uid, b) ∈ (sessAddObject e l s on o).1.token.objs.map Obj.key := by
  unfold sessAddObject
  dsimp only
  rw [if_pos hon]
  split
  · exact ⟨rfl, fun k hk => by cases hk⟩
  · split
    · refine ⟨rfl, fun k hk => ?_⟩
      cases hk
      rw [store_key]
      have hu := (encodeObj_key e.store l.token.key false { o with onToken := decide (on % 2 = 1), uid := l.uid }).1
      refine ⟨(encodeObj e.store l.token.key false { o with onToken := decide (on % 2 = 1), uid := l.uid }).2.onToken, ?_⟩
      rw [List.map_cons]
      have hx : ∀ {a b : Nat × Nat × Bool} {r}, a = b → a ∈ b :: r := fun hab => hab ▸ List.mem_cons_self ..
      refine hx ?_
      simp only [Obj.key, Prod.mk.injEq, true_and, and_true]
      exact (congrArg (fun q => q.2.1) hu).symm
    · exact ⟨rfl, fun k hk => by cases hk⟩

/-- The list of a session with the new object. -/
theorem sessionAdd_eq {l : Lib} (hi : SInv l) {h : Nat} {s : Session} (hs : getSession l h = some s) (hlen : s.objs.length < sessObjMax) (o : Obj) :
    sessAddObject e l s 0 o = ({ l with uid := l.uid + 1 }.upd h (fun t => { t with objs :=
      { ({ o with onToken := false, handle := nextHandle s.objs 0 } : Obj) with uid := l.uid } :: s.objs }), some (nextHandle s.objs 0)) := by
  obtain ⟨q1, _, q3⟩ := getSession_handle hs
  unfold sessAddObject
  dsimp only
  rw [if_neg (by simp), if_neg (by omega), q1]
  simp only [Prod.mk.injEq, and_true, Lib.upd]
  congr 1
  refine List.map_congr_left fun t ht => ?_
  by_cases hth : t.handle = h
  · rw [if_pos hth, if_pos hth]
    have h1 := (find_iff hi.nodup).mpr ⟨ht, hth⟩
    have h2 := (find_iff hi.nodup).mpr ⟨q3, q1⟩
    rw [h1] at h2
    cases h2
    rfl
  · rw [if_neg hth, if_neg hth]

theorem put_objs {l : Lib} {h : Nat} {s : Session} (hs : getSession l h = some s) (os : List Obj) :
    (∀ h', h' ≠ h → getSession ({ l with uid := l.uid + 1 }.upd h fun t => { t with objs := os }) h' = getSession l h') ∧
    getSession ({ l with uid := l.uid + 1 }.upd h fun t => { t with objs := os }) h = some { s with objs := os } := by
  refine ⟨fun h' hne => ?_, ?_⟩
  · exact (getSession_upd_ne (f := fun t => { t with objs := os }) (fun _ => rfl) hne).trans (getSession_congr rfl _)
  · refine (getSession_upd_eq (f := fun t => { t with objs := os }) (fun _ => ⟨rfl, rfl⟩)).trans ?_
    rw [show getSession { l with uid := l.uid + 1 } h = getSession l h from getSession_congr rfl _, hs]
    rfl

theorem mkc_step {s : Mkc} (hi : SInv s.lib) (hc : CapInv s.lib) (hg : s.lib.bad = false → MkOk e s) {v : MEv} (ha : s.ApartAt v) :
    s.Follows e v ∧ ((s.step e v).1.lib.bad = false → MkOk e (s.step e v).1) := by
  cases hb : s.lib.bad with
  | true =>
    cases v with
    | call c =>
      have hst : step e s.lib c = (s.lib, { rv := .ub }) := step_bad hb c
      refine ⟨mk_follows_some (c := c) (r := { rv := .ub }) (by simp only [Mkc.effect, Mkc.step, hst]; rfl) rfl
        (by unfold answer; rw [hst]), ?_⟩
      intro h
      simp only [Mkc.step, hst, hb] at h
      cases h
    | create t h m =>
      have hst : s.step e (.create t h m) = (s, some { rv := .ub }) := by simp only [Mkc.step, hb]
      refine ⟨mk_follows_some (c := .sess h (.create (some m) true)) (r := { rv := .ub }) (by simp only [Mkc.effect, hst]; rfl)
        (by rw [hst, step_bad hb]) (by unfold answer; rw [step_bad hb]), ?_⟩
      rw [hst]; intro h; rw [hb] at h; cases h
    | go t =>
      have hst : s.step e (.go t) = (s, none) := by simp only [Mkc.step, hb, if_true]
      refine ⟨mk_follows_none (by simp only [Mkc.effect, hb, if_true]) (by rw [hst]), ?_⟩
      rw [hst]; intro h; rw [hb] at h; cases h
  | false =>
    have hg := hg hb
    cases v with
    | call c =>
      refine ⟨mk_follows_some (c := c) (r := (step e s.lib c).2) rfl rfl rfl, ?_⟩
      intro hbad
      exact ⟨fun t => (hg.ok t).call hi hc (fun h => ha t h) hbad, hg.apart⟩
    | create t h m =>
      by_cases hid : s.mc t = .idle
      · have hst : s.step e (.create t h m) = (Mkc.at { s with lib := (beginMake e s.lib h m).1 } t
            (beginMake e s.lib h m).2.1, (beginMake e s.lib h m).2.2) := by
          simp only [Mkc.step, hb, hid]
        have whole : beginMake e s.lib h m = ((step e s.lib (.sess h (.create (some m) true))).1, .idle,
              some (step e s.lib (.sess h (.create (some m) true))).2) →
            (∀ se on o, getSession s.lib h = some se → se.use = .rw → createObject e se m = (.ok, o) → tokenByte m 0 ≠ .ok on) →
            s.Follows e (.create t h m) ∧ ((s.step e (.create t h m)).1.lib.bad = false → MkOk e (s.step e (.create t h m)).1) := by
          intro hw hno
          rw [hw] at hst
          refine ⟨mk_follows_some (c := .sess h (.create (some m) true)) (r := (step e s.lib (.sess h (.create (some m) true))).2)
            (by simp only [Mkc.effect, hst]; rfl) (by rw [hst]; rfl) rfl, ?_⟩
          rw [hst]
          intro _
          obtain ⟨k1, k2⟩ := make_refused hb hno
          exact hg.at (fun u _ => (hg.ok u).same k1 k2) trivial (fun _ hf => absurd hf id)
        cases hs : getSession s.lib h with
        | none => exact whole (by simp only [beginMake, hs]) (by intro se on o hx; rw [hs] at hx; cases hx)
        | some se =>
          by_cases hu : se.use = .rw
          · rcases ho : createObject e se m with ⟨rv, o⟩
            by_cases hrv : rv = .ok
            · subst hrv
              cases hon : tokenByte m 0 with
              | error rv =>
                refine whole (by simp only [beginMake, hs, hu, ho, hon, ne_eq, not_true_eq_false, if_false]) ?_
                intro _ _ _ _ _ _ hx; rw [hon] at hx; cases hx
              | ok on =>
                have hbg : beginMake e s.lib h m = (s.lib, .built h on m o, none) := by
                  simp only [beginMake, hs, hu, ho, hon, ne_eq, not_true_eq_false, if_false]
                rw [hbg] at hst
                refine ⟨mk_follows_none (by simp only [Mkc.effect, hst]; rfl) (by rw [hst]; rfl), ?_⟩
                rw [hst]
                intro _
                refine hg.at (l := s.lib) (fun u _ => hg.ok u) ⟨hon, se, hs, hu, ho⟩ ?_
                rintro h' ⟨rfl, rfl⟩ u hut hf
                exact forToken_of (ha u hut hf) hon
            · refine whole ?_ ?_
              · simp only [beginMake, hs, hu, ho, ne_eq, not_true_eq_false, if_false]
                split
                · rename_i heq _
                  exact absurd (Prod.mk.inj heq).1 hrv
                · rfl
              · intro se' on o' hx _ hx2
                rw [hs] at hx
                cases hx
                rw [ho] at hx2
                exact absurd (Prod.mk.inj hx2).1 hrv
          · refine whole (by simp only [beginMake, hs, ne_eq, hu, not_false_eq_true, if_true]) ?_
            intro se' on o' hx hx2
            rw [hs] at hx
            cases hx
            exact absurd hx2 hu
      · have hst : s.step e (.create t h m) = (s, none) := by
          simp only [Mkc.step, hb]
          all_goals (split <;> first | rfl | simp_all)
        refine ⟨mk_follows_none (by simp only [Mkc.effect, hst]; rfl) (by rw [hst]), ?_⟩
        rw [hst]; intro _; exact hg
    | go t =>
      have hst : s.step e (.go t) = (Mkc.at { s with lib := (proceedMake e s.lib (s.mc t)).1 } t
          (proceedMake e s.lib (s.mc t)).2.1, (proceedMake e s.lib (s.mc t)).2.2) := by
        simp only [Mkc.step, hb, Bool.false_eq_true, if_false]
      have hok := hg.ok t
      cases hp : s.mc t with
      | idle =>
        have hef : s.effect e (.go t) = none := by simp only [Mkc.effect, hb, hp, Bool.false_eq_true, if_false]
        rw [hp] at hst
        refine ⟨mk_follows_none hef (by rw [hst]; rfl), ?_⟩
        rw [hst]; intro _
        exact hg.at (fun u _ => hg.ok u) trivial (fun _ hf => absurd hf id)
      | linked h on k u =>
        have hef : s.effect e (.go t) = none := by simp only [Mkc.effect, hb, hp, Bool.false_eq_true, if_false]
        rw [hp] at hst hok
        have hstill : stillLinked s.lib h on u = true := by
          unfold stillLinked
          dsimp only [Mc.Ok] at hok
          by_cases h0 : on ≠ 0
          · rw [if_pos h0] at hok ⊢
            obtain ⟨b, hm⟩ := hok
            obtain ⟨o, ho, hk⟩ := List.mem_map.mp hm
            simp only [Obj.key, Prod.mk.injEq] at hk
            exact List.any_eq_true.mpr ⟨o, ho, by simp [hk.2.1]⟩
          · rw [if_neg h0] at hok ⊢
            obtain ⟨se, g1, o, g2, g3⟩ := hok
            rw [find_session hi g1]
            exact List.any_eq_true.mpr ⟨o, g2, by simp [g3]⟩
        have hpr : proceedMake e s.lib (.linked h on k u) = (s.lib, .idle, some { rv := .ok, handle := some k }) := by
          simp only [proceedMake, hstill, if_true]
        rw [hpr] at hst
        refine ⟨mk_follows_none hef (by rw [hst]; rfl), ?_⟩
        rw [hst]; intro _
        exact hg.at (l := s.lib) (fun u _ => hg.ok u) trivial (fun _ hf => absurd hf id)
      | built h on m o =>
        rw [hp] at hst hok
        obtain ⟨g1, se, g2, g3, g4⟩ := hok
        have hf := find_session hi g2
        have hcs := create_step (e := e) hi hb g2 g3 g4 g1
        by_cases h0 : on ≠ 0
        · obtain ⟨f1, f2⟩ := tokenAdd_facts (e := e) (l := s.lib) (s := se) h0 o
          have hgr := grows_sessAdd (e := e) s.lib se on o
          have others : ∀ u, u ≠ t → (s.mc u).Ok e (sessAddObject e s.lib se on o).1 := fun u _ =>
            (hg.ok u).mono (fun h s _ hs => ⟨s, by rw [getSession_congr f1]; exact hs, rfl⟩)
              (fun h _ s hs => by rw [getSession_congr f1]; exact hs) (fun _ _ _ _ hm => hgr hm)
          rcases hadd : sessAddObject e s.lib se on o with ⟨l', r⟩
          rw [hadd] at f1 f2 others hcs
          cases r with
          | none =>
            have hpr : proceedMake e s.lib (.built h on m o) = (l', .idle, some { rv := .functionFailed }) := by
              simp only [proceedMake, hf, if_pos h0, hadd]
            rw [hpr] at hst
            refine ⟨mk_follows_some (c := .sess h (.create (some m) true)) (r := { rv := .functionFailed })
              (by simp only [Mkc.effect, hb, hp, Bool.false_eq_true, if_false, hst, mkc_at_self, Mc.outcome]; rfl)
              (by rw [hst, hcs]; rfl) (by unfold answer; rw [hcs]), ?_⟩
            rw [hst]; intro _
            exact hg.at others trivial (fun _ hf => absurd hf id)
          | some k =>
            have hpr : proceedMake e s.lib (.built h on m o) = (l', .linked h on k s.lib.uid, none) := by
              simp only [proceedMake, hf, if_pos h0, hadd]
            rw [hpr] at hst
            refine ⟨mk_follows_some (c := .sess h (.create (some m) true)) (r := { rv := .ok, handle := some k })
              (by simp only [Mkc.effect, hb, hp, Bool.false_eq_true, if_false, hst, mkc_at_self, Mc.outcome]; rfl)
              (by rw [hst, hcs]; rfl) (by unfold answer; rw [hcs]), ?_⟩
            rw [hst]; intro _
            refine hg.at others ?_ (fun h' hf => absurd hf.2 h0)
            dsimp only [Mc.Ok]
            rw [if_pos h0]
            exact f2 k rfl
        · obtain rfl : on = 0 := by simpa using h0
          by_cases hlen : s.lib.sessions = s.lib.sessions ∧ se.objs.length ≥ sessObjMax
          · have hadd : sessAddObject e s.lib se 0 o = (s.lib, none) := by
              unfold sessAddObject
              dsimp only
              rw [if_neg (by simp), if_pos hlen.2]
            rw [hadd] at hcs
            have hpr : proceedMake e s.lib (.built h 0 m o) = (s.lib, .idle, some { rv := .functionFailed }) := by
              simp only [proceedMake, hf, if_neg h0, if_pos hlen.2]
            rw [hpr] at hst
            refine ⟨mk_follows_some (c := .sess h (.create (some m) true)) (r := { rv := .functionFailed })
              (by simp only [Mkc.effect, hb, hp, Bool.false_eq_true, if_false, hst, mkc_at_self, Mc.outcome]; rfl)
              (by rw [hst, hcs]; rfl) (by unfold answer; rw [hcs]), ?_⟩
            rw [hst]; intro _
            exact hg.at (l := s.lib) (fun u _ => hg.ok u) trivial (fun _ hf => absurd hf id)
          · have hlen : ¬ se.objs.length ≥ sessObjMax := fun hx => hlen ⟨rfl, hx⟩
            have hpr : proceedMake e s.lib (.built h 0 m o) = (s.lib, .chosen h m { o with onToken := false, handle := nextHandle se.objs 0 }
                (se.objs.head?.map (·.uid)), none) := by
              simp only [proceedMake, hf, if_neg h0, if_neg hlen]
            rw [hpr] at hst
            refine ⟨mk_follows_none (by simp only [Mkc.effect, hb, hp, Bool.false_eq_true, if_false, hst, mkc_at_self, Mc.outcome]; rfl)
              (by rw [hst]; rfl), ?_⟩
            rw [hst]; intro _
            refine hg.at (l := s.lib) (fun u _ => hg.ok u) ⟨g1, se, o, g2, g3, g4, by omega, rfl, rfl⟩ ?_
            rintro h' rfl u hut hfu
            exact hg.apart t u _ (Ne.symm hut) (by rw [hp]; exact ⟨rfl, rfl⟩) hfu
      | chosen h m o next =>
        rw [hp] at hst hok
        obtain ⟨g1, se, o', g2, g3, g4, g5, g6, g7⟩ := hok
        have hf := find_session hi g2
        have hcs := create_step (e := e) hi hb g2 g3 g4 g1
        rw [sessionAdd_eq hi g2 g5] at hcs
        have hpr : proceedMake e s.lib (.chosen h m o next) = ({ s.lib with uid := s.lib.uid + 1 }.upd h
            (fun t => { t with objs := { o with uid := s.lib.uid } :: se.objs }), .linked h 0 o.handle s.lib.uid, none) := by
          simp only [proceedMake, hf, Option.bind_some, g7, tailFrom_head]
        rw [hpr] at hst
        subst g6
        refine ⟨mk_follows_some (c := .sess h (.create (some m) true)) (r := { rv := .ok, handle := some (nextHandle se.objs 0) })
          (by simp only [Mkc.effect, hb, hp, Bool.false_eq_true, if_false, hst, mkc_at_self, Mc.outcome]; rfl)
          (by rw [hst, hcs]; rfl) (by unfold answer; rw [hcs]), ?_⟩
        rw [hst]; intro _
        obtain ⟨p1, p2⟩ := put_objs g2 ({ ({ o' with onToken := false, handle := nextHandle se.objs 0 } : Obj) with uid := s.lib.uid } :: se.objs)
        refine hg.at ?_ ?_ ?_
        · intro u hut
          refine (hg.ok u).mono ?_ ?_ (fun _ _ _ _ hm => hm)
          · intro h' s' _ hs'
            by_cases hh : h' = h
            · subst hh
              rw [g2] at hs'
              cases hs'
              exact ⟨_, p2, rfl⟩
            · exact ⟨s', (p1 h' hh).trans hs', rfl⟩
          · intro h' hfu s' hs'
            have hh : h' ≠ h := by
              rintro rfl
              exact hg.apart t u h' (Ne.symm hut) (by rw [hp]; exact rfl) hfu
            exact (p1 h' hh).trans hs'
        · dsimp only [Mc.Ok]
          rw [if_neg (by simp)]
          exact ⟨_, p2, _, List.mem_cons_self .., rfl⟩
        · rintro h' ⟨rfl, _⟩ u hut hfu
          exact hg.apart t u _ (Ne.symm hut) (by rw [hp]; exact rfl) hfu

/-! ## Schedules -/

theorem mkc_inv (hh : HashLen e) (hr : RandLen e) {l₀ : Lib} (h₀ : Start l₀) (hd : NoToken l₀) :
    ∀ (vs : List MEv) (s : Mkc) (cs : List Call), s.lib = run e l₀ cs → (s.lib.bad = false → MkOk e s) → s.Apart e vs →
      (s.run e vs).lib = run e s.lib ((s.history e vs).map (·.1)) ∧
      (s.history e vs).map (·.2) = replies e s.lib ((s.history e vs).map (·.1)) ∧
      ((s.run e vs).lib.bad = false → MkOk e (s.run e vs)) := by
  intro vs
  induction vs with
  | nil =>
    intro s cs _ hg _
    exact ⟨rfl, rfl, hg⟩
  | cons v vs ih =>
    intro s cs hl hg ha
    have hi : SInv s.lib := by rw [hl]; exact h₀.sinv.run e cs
    have hc : CapInv s.lib := by rw [hl]; exact (Start.capInv h₀ hd).run hh hr h₀.sinv cs
    obtain ⟨⟨f1, f2⟩, hg'⟩ := mkc_step (e := e) hi hc hg ha.1
    obtain ⟨i1, i2, i3⟩ := ih (s.step e v).1 (cs ++ (s.effect e v).toList.map (·.1)) (by rw [f1, hl, run_append]) hg' ha.2
    simp only [Mkc.run, Mkc.history, List.map_append, run_append, replies_append]
    rw [← f1, ← f2, i1, i2]
    refine ⟨rfl, rfl, ?_⟩
    rw [← i1]; exact i3

theorem Mkc.Quiet.good {s : Mkc} (hq : s.Quiet) : s.lib.bad = false → MkOk e s := by
  refine fun _ => ⟨fun t => ?_, fun t u k _ h => ?_⟩
  · rw [hq t]; trivial
  · rw [hq t] at h; cases h

/-- **C126** (partial): several threads create objects while others make any calls.  If no two
threads make objects of the same session at the same time, and no other call uses that session
meanwhile, closes the session of a thread inside `C_CreateObject` or destroys an object whose
handle its maker has not been told yet, then every call behaves as a whole call: the library
ends up as after the whole calls made one after the other in the order in which they take
effect, with the answers given then.  In particular every object is made, with a handle of its
own.  Threads that make objects of the token, in the same session or in different ones, need no care. -/
theorem c126_partial (hh : HashLen e) (hr : RandLen e) {l₀ : Lib} (h₀ : Start l₀) (hd : NoToken l₀) (cs : List Call)
    (s : Mkc) (hl : s.lib = run e l₀ cs) (hq : s.Quiet) (vs : List MEv) (ha : s.Apart e vs) :
    (s.run e vs).lib = run e s.lib ((s.history e vs).map (·.1)) ∧
    (s.history e vs).map (·.2) = replies e s.lib ((s.history e vs).map (·.1)) := by
  obtain ⟨h1, h2, _⟩ := mkc_inv hh hr h₀ hd vs s cs hl hq.good ha
  exact ⟨h1, h2⟩

/-- **C126**: the answer that a thread gets at last is the one that stands in the history: success, and
the handle of the object it has made. -/
theorem c126_told (hh : HashLen e) (hr : RandLen e) {l₀ : Lib} (h₀ : Start l₀) (hd : NoToken l₀) (cs : List Call)
    (s : Mkc) (hl : s.lib = run e l₀ cs) (hq : s.Quiet) (vs : List MEv) (ha : s.Apart e vs) {t h on k u : Nat}
    (hb : (s.run e vs).lib.bad = false) (hp : (s.run e vs).mc t = .linked h on k u) :
    ((s.run e vs).step e (.go t)).2 = some { rv := .ok, handle := some k } ∧
    ((s.run e vs).step e (.go t)).1.lib = (s.run e vs).lib := by
  obtain ⟨h1, _, h3⟩ := mkc_inv hh hr h₀ hd vs s cs hl hq.good ha
  have hi : SInv (s.run e vs).lib := by rw [h1, hl, ← run_append]; exact h₀.sinv.run e _
  have hok := (h3 hb).ok t
  rw [hp] at hok
  have hstill : stillLinked (s.run e vs).lib h on u = true := by
    unfold stillLinked
    dsimp only [Mc.Ok] at hok
    by_cases h0 : on ≠ 0
    · rw [if_pos h0] at hok ⊢
      obtain ⟨b, hm⟩ := hok
      obtain ⟨o, ho, hk⟩ := List.mem_map.mp hm
      simp only [Obj.key, Prod.mk.injEq] at hk
      exact List.any_eq_true.mpr ⟨o, ho, by simp [hk.2.1]⟩
    · rw [if_neg h0] at hok ⊢
      obtain ⟨se, g1, o, g2, g3⟩ := hok
      rw [find_session hi g1]
      exact List.any_eq_true.mpr ⟨o, g2, by simp [g3]⟩
  simp only [Mkc.step, hb, hp, proceedMake, hstill, if_true, Bool.false_eq_true, if_false]
  exact ⟨trivial, rfl⟩

/-! ## A call without interruption -/

theorem mkc_idle_goes {s : Mkc} {t : Nat} (h : s.mc t = .idle) (n : Nat) :
    (s.run e (List.replicate n (.go t))).lib = s.lib ∧ s.returns e (List.replicate n (.go t)) = [] ∧
    (s.run e (List.replicate n (.go t))).mc t = .idle := by
  induction n generalizing s with
  | zero => exact ⟨rfl, rfl, h⟩
  | succ n ih =>
    have h0 : (s.step e (.go t)).1.lib = s.lib ∧ (s.step e (.go t)).2 = none ∧ (s.step e (.go t)).1.mc t = .idle := by
      simp only [Mkc.step, h, proceedMake]
      split
      · exact ⟨rfl, rfl, h⟩
      · exact ⟨rfl, rfl, by simp [Mkc.at]⟩
    obtain ⟨h1, h2, h3⟩ := h0
    obtain ⟨i1, i2, i3⟩ := ih h3
    simp only [List.replicate_succ, Mkc.run, Mkc.returns, h2, i2]
    exact ⟨i1.trans h1, rfl, i3⟩

/-- A `C_CreateObject` whose parts are not interrupted is the whole call. -/
theorem create_alone {s : Mkc} (hi : SInv s.lib) (hb : s.lib.bad = false) {t : Nat} (hid : s.mc t = .idle) (h : Nat) (m : List Entry) :
    (s.run e [.create t h m, .go t, .go t, .go t]).lib = (step e s.lib (.sess h (.create (some m) true))).1 ∧
    s.returns e [.create t h m, .go t, .go t, .go t] = [answer e s.lib (.sess h (.create (some m) true))] ∧
    (s.run e [.create t h m, .go t, .go t, .go t]).mc t = .idle := by
  have hst : s.step e (.create t h m) = (Mkc.at { s with lib := (beginMake e s.lib h m).1 } t
      (beginMake e s.lib h m).2.1, (beginMake e s.lib h m).2.2) := by
    simp only [Mkc.step, hb, hid]
  have whole : beginMake e s.lib h m = ((step e s.lib (.sess h (.create (some m) true))).1, .idle,
        some (step e s.lib (.sess h (.create (some m) true))).2) →
      (s.run e [.create t h m, .go t, .go t, .go t]).lib = (step e s.lib (.sess h (.create (some m) true))).1 ∧
      s.returns e [.create t h m, .go t, .go t, .go t] = [answer e s.lib (.sess h (.create (some m) true))] ∧
      (s.run e [.create t h m, .go t, .go t, .go t]).mc t = .idle := by
    intro hw
    rw [hw] at hst
    obtain ⟨h1, h2, h3⟩ := mkc_idle_goes (e := e) (s := Mkc.at { s with lib := (step e s.lib (.sess h (.create (some m) true))).1 } t .idle)
      (t := t) (mkc_at_self ..) 3
    refine ⟨?_, ?_, ?_⟩
    · rw [Mkc.run, hst]; exact h1
    · rw [Mkc.returns, hst]; exact congrArg _ h2
    · rw [Mkc.run, hst]; exact h3
  cases hs : getSession s.lib h with
  | none => exact whole (by simp only [beginMake, hs])
  | some se =>
    by_cases hu : se.use = .rw
    · rcases ho : createObject e se m with ⟨rv, o⟩
      by_cases hrv : rv = .ok
      · subst hrv
        cases hon : tokenByte m 0 with
        | error rv => exact whole (by simp only [beginMake, hs, hu, ho, hon, ne_eq, not_true_eq_false, if_false])
        | ok on =>
          have hbg : beginMake e s.lib h m = (s.lib, .built h on m o, none) := by
            simp only [beginMake, hs, hu, ho, hon, ne_eq, not_true_eq_false, if_false]
          rw [hbg] at hst
          have hcs := create_step (e := e) hi hb hs hu ho hon
          have hf := find_session hi hs
          have goEq : ∀ (s' : Mkc), s'.lib.bad = false → s'.step e (.go t) = (Mkc.at { s' with lib := (proceedMake e s'.lib (s'.mc t)).1 } t
              (proceedMake e s'.lib (s'.mc t)).2.1, (proceedMake e s'.lib (s'.mc t)).2.2) := by
            intro s' hb'
            simp only [Mkc.step, hb', Bool.false_eq_true, if_false]
          unfold answer
          by_cases h0 : on ≠ 0
          · obtain ⟨f1, f2⟩ := tokenAdd_facts (e := e) (l := s.lib) (s := se) h0 o
            have hbad : (sessAddObject e s.lib se on o).1.bad = false := by
              unfold sessAddObject
              dsimp only
              rw [if_pos h0]
              repeat' split
              all_goals exact hb
            rcases hadd : sessAddObject e s.lib se on o with ⟨l', r⟩
            rw [hadd] at f1 f2 hcs hbad
            cases r with
            | none =>
              have hpr : proceedMake e s.lib (.built h on m o) = (l', .idle, some { rv := .functionFailed }) := by
                simp only [proceedMake, hf, if_pos h0, hadd]
              have h2 := goEq (Mkc.at { s with lib := s.lib } t (.built h on m o)) hb
              rw [mkc_at_self, show (Mkc.at { s with lib := s.lib } t (.built h on m o)).lib = s.lib from rfl, hpr] at h2
              obtain ⟨k1, k2, k3⟩ := mkc_idle_goes (e := e) (s := Mkc.at { (Mkc.at { s with lib := s.lib } t (.built h on m o)) with lib := l' } t .idle)
                (t := t) (mkc_at_self ..) 2
              rw [Mkc.run, hst, Mkc.run, h2, Mkc.returns, hst, Mkc.returns, h2, hcs]
              exact ⟨k1, congrArg (([{ rv := .functionFailed }] : List Resp) ++ ·) k2, k3⟩
            | some k =>
              have hpr : proceedMake e s.lib (.built h on m o) = (l', .linked h on k s.lib.uid, none) := by
                simp only [proceedMake, hf, if_pos h0, hadd]
              have h2 := goEq (Mkc.at { s with lib := s.lib } t (.built h on m o)) hb
              rw [mkc_at_self, show (Mkc.at { s with lib := s.lib } t (.built h on m o)).lib = s.lib from rfl, hpr] at h2
              have hstill : stillLinked l' h on s.lib.uid = true := by
                unfold stillLinked
                rw [if_pos h0]
                obtain ⟨b, hm⟩ := f2 k rfl
                obtain ⟨o, ho, hk⟩ := List.mem_map.mp hm
                simp only [Obj.key, Prod.mk.injEq] at hk
                exact List.any_eq_true.mpr ⟨o, ho, by simp [hk.2.1]⟩
              have hpr3 : proceedMake e l' (.linked h on k s.lib.uid) = (l', .idle, some { rv := .ok, handle := some k }) := by
                simp only [proceedMake, hstill, if_true]
              have h3 := goEq (Mkc.at { (Mkc.at { s with lib := s.lib } t (.built h on m o)) with lib := l' } t (.linked h on k s.lib.uid)) hbad
              rw [mkc_at_self, show (Mkc.at { (Mkc.at { s with lib := s.lib } t (.built h on m o)) with lib := l' } t
                (.linked h on k s.lib.uid)).lib = l' from rfl, hpr3] at h3
              obtain ⟨k1, k2, k3⟩ := mkc_idle_goes (e := e) (s := Mkc.at { (Mkc.at { (Mkc.at { s with lib := s.lib } t (.built h on m o)) with
                lib := l' } t (.linked h on k s.lib.uid)) with lib := l' } t .idle) (t := t) (mkc_at_self ..) 1
              rw [Mkc.run, hst, Mkc.run, h2, Mkc.run, h3, Mkc.returns, hst, Mkc.returns, h2, Mkc.returns, h3, hcs]
              exact ⟨k1, congrArg (([{ rv := .ok, handle := some k }] : List Resp) ++ ·) k2, k3⟩
          · obtain rfl : on = 0 := by simpa using h0
            by_cases hlen : se.objs.length ≥ sessObjMax
            · have hadd : sessAddObject e s.lib se 0 o = (s.lib, none) := by
                unfold sessAddObject
                dsimp only
                rw [if_neg (by simp), if_pos hlen]
              rw [hadd] at hcs
              have hpr : proceedMake e s.lib (.built h 0 m o) = (s.lib, .idle, some { rv := .functionFailed }) := by
                simp only [proceedMake, hf, if_neg h0, if_pos hlen]
              have h2 := goEq (Mkc.at { s with lib := s.lib } t (.built h 0 m o)) hb
              rw [mkc_at_self, show (Mkc.at { s with lib := s.lib } t (.built h 0 m o)).lib = s.lib from rfl, hpr] at h2
              obtain ⟨k1, k2, k3⟩ := mkc_idle_goes (e := e) (s := Mkc.at { (Mkc.at { s with lib := s.lib } t (.built h 0 m o)) with lib := s.lib } t .idle)
                (t := t) (mkc_at_self ..) 2
              rw [Mkc.run, hst, Mkc.run, h2, Mkc.returns, hst, Mkc.returns, h2, hcs]
              exact ⟨k1, congrArg (([{ rv := .functionFailed }] : List Resp) ++ ·) k2, k3⟩
            · rw [sessionAdd_eq hi hs (by omega)] at hcs
              obtain ⟨o1, ho1⟩ : ∃ o1 : Obj, o1 = { o with onToken := false, handle := nextHandle se.objs 0 } := ⟨_, rfl⟩
              have hh1 : o1.handle = nextHandle se.objs 0 := by rw [ho1]
              rw [← ho1, ← hh1] at hcs
              have hpr : proceedMake e s.lib (.built h 0 m o) = (s.lib, .chosen h m o1 (se.objs.head?.map (·.uid)), none) := by
                simp only [proceedMake, hf, if_neg h0, if_neg hlen, ho1]
              have h2 := goEq (Mkc.at { s with lib := s.lib } t (.built h 0 m o)) hb
              rw [mkc_at_self, show (Mkc.at { s with lib := s.lib } t (.built h 0 m o)).lib = s.lib from rfl, hpr] at h2
              obtain ⟨l', hl'⟩ : ∃ l', l' = ({ s.lib with uid := s.lib.uid + 1 }.upd h
                  (fun t => { t with objs := { o1 with uid := s.lib.uid } :: se.objs })) := ⟨_, rfl⟩
              rw [← hl'] at hcs
              have hpr3 : proceedMake e s.lib (.chosen h m o1 (se.objs.head?.map (·.uid))) = (l', .linked h 0 o1.handle s.lib.uid, none) := by
                simp only [proceedMake, hf, Option.bind_some, tailFrom_head, hl']
              have h3 := goEq (Mkc.at { (Mkc.at { s with lib := s.lib } t (.built h 0 m o)) with lib := s.lib } t
                (.chosen h m o1 (se.objs.head?.map (·.uid)))) hb
              rw [mkc_at_self, show (Mkc.at { (Mkc.at { s with lib := s.lib } t (.built h 0 m o)) with lib := s.lib } t
                (.chosen h m o1 (se.objs.head?.map (·.uid)))).lib = s.lib from rfl, hpr3] at h3
              have hi' : SInv l' := by
                have := hi.step e (.sess h (.create (some m) true))
                rw [hcs] at this
                exact this
              have hstill : stillLinked l' h 0 s.lib.uid = true := by
                unfold stillLinked
                rw [if_neg h0]
                have p2 := (put_objs hs ({ o1 with uid := s.lib.uid } :: se.objs)).2
                rw [← hl'] at p2
                rw [find_session hi' p2]
                exact List.any_eq_true.mpr ⟨_, List.mem_cons_self .., by simp⟩
              have hpr4 : proceedMake e l' (.linked h 0 o1.handle s.lib.uid) = (l', .idle, some { rv := .ok, handle := some o1.handle }) := by
                simp only [proceedMake, hstill, if_true]
              have h4 := goEq (Mkc.at { (Mkc.at { (Mkc.at { s with lib := s.lib } t (.built h 0 m o)) with lib := s.lib } t
                (.chosen h m o1 (se.objs.head?.map (·.uid)))) with lib := l' } t (.linked h 0 o1.handle s.lib.uid)) (by rw [hl']; exact hb)
              rw [mkc_at_self, show (Mkc.at { (Mkc.at { (Mkc.at { s with lib := s.lib } t (.built h 0 m o)) with lib := s.lib } t
                (.chosen h m o1 (se.objs.head?.map (·.uid)))) with lib := l' } t (.linked h 0 o1.handle s.lib.uid)).lib = l' from rfl, hpr4] at h4
              rw [Mkc.run, hst, Mkc.run, h2, Mkc.run, h3, Mkc.run, h4, Mkc.returns, hst, Mkc.returns, h2, Mkc.returns, h3, Mkc.returns, h4, hcs]
              exact ⟨rfl, rfl, mkc_at_self ..⟩
      · refine whole ?_
        simp only [beginMake, hs, hu, ho, ne_eq, not_true_eq_false, if_false]
        split
        · rename_i heq _
          exact absurd (Prod.mk.inj heq).1 hrv
        · rfl
    · exact whole (by simp only [beginMake, hs, ne_eq, hu, not_false_eq_true, if_true])

/-! ## Cases -/

namespace Demo

/-- The library after `setup` and a second session, 65537, with no thread in a call. -/
def makers : Mkc := { lib := run env fresh (setup ++ [openCall true]) }

/-- Two threads create objects of the token in the same session; a third one an object of the
session; a fourth one closes the other session. -/
def makersTurns : List MEv :=
  [.create 1 65538 (openTmpl true 7), .create 2 65538 (openTmpl true 9), .create 3 65538 (openTmpl false 5),
    .go 3, .go 2, .go 1, .call (closeCall 65537), .go 3, .go 1, .go 2, .go 3]

/-- What the calls return: the statuses and the handles. -/
def made (rs : List Resp) : List (RV × Option Nat) := rs.map fun r => (r.rv, r.handle)

/-- Only threads 1, 2 and 3 do anything. -/
def Three (s : Mkc) : Prop := ∀ u, u ≠ 1 → u ≠ 2 → u ≠ 3 → s.mc u = .idle

theorem Three.step {s : Mkc} (h : Three s) {v : MEv} (hv : ∀ u, u ≠ 1 → u ≠ 2 → u ≠ 3 → v ≠ .go u ∧ ∀ a m, v ≠ .create u a m) :
    Three (s.step env v).1 := by
  intro u h1 h2 h3
  have hu := h u h1 h2 h3
  obtain ⟨v1, v2⟩ := hv u h1 h2 h3
  cases v with
  | call c => exact hu
  | create t a m =>
    have ht : u ≠ t := by rintro rfl; exact v2 a m rfl
    simp only [Mkc.step]
    repeat' split
    all_goals first | exact hu | exact (mkc_at_ne _ _ ht).trans hu
  | go t =>
    have ht : u ≠ t := by rintro rfl; exact v1 rfl
    simp only [Mkc.step]
    repeat' split
    all_goals first | exact hu | exact (mkc_at_ne _ _ ht).trans hu

theorem three_run {s : Mkc} (h : Three s) : ∀ (vs : List MEv), (∀ v ∈ vs, ∀ u, u ≠ 1 → u ≠ 2 → u ≠ 3 → v ≠ .go u ∧ ∀ a m, v ≠ .create u a m) →
    Three (s.run env vs) := by
  intro vs
  induction vs generalizing s with
  | nil => exact fun _ => h
  | cons v vs ih => exact fun hv => ih (h.step (hv v (List.mem_cons_self ..))) fun w hw => hv w (List.mem_cons_of_mem _ hw)

theorem makersTurns_three : ∀ v ∈ makersTurns, ∀ u, u ≠ 1 → u ≠ 2 → u ≠ 3 → v ≠ MEv.go u ∧ ∀ a m, v ≠ .create u a m := by
  intro v hv u h1 h2 h3
  simp only [makersTurns, List.mem_cons, List.not_mem_nil, or_false] at hv
  rcases hv with rfl | rfl | rfl | rfl | rfl | rfl | rfl | rfl | rfl | rfl | rfl <;>
    exact ⟨by intro h; cases h <;> contradiction, by intro a m h; cases h <;> contradiction⟩

instance (p : Mc) (h : Nat) : Decidable (p.FillsSession h) := by
  cases p <;> (unfold Mc.FillsSession; infer_instance)

set_option maxRecDepth 40000 in
/-- The hypotheses of `c126_partial` are met by this schedule. -/
theorem makersTurns_apart : makers.Apart env makersTurns := by
  have t0 : Three makers := fun _ _ _ _ => rfl
  refine ⟨fun u _ hf => ?_, fun u _ hf => ?_, fun u _ hf => ?_, trivial, trivial, trivial, fun u h hs => ?_, trivial, trivial, trivial, trivial, trivial⟩
  · cases hf
  · have t1 := three_run t0 (makersTurns.take 1) (fun v hv => makersTurns_three v (List.mem_of_mem_take hv))
    by_cases h1 : u = 1
    · subst h1; exact absurd hf (by decide)
    by_cases h2 : u = 2
    · subst h2; exact absurd hf (by decide)
    by_cases h3 : u = 3
    · subst h3; exact absurd hf (by decide)
    · have := t1 u h1 h2 h3
      change ((makers.run env (makersTurns.take 1)).mc u).FillsSession _ at hf
      rw [this] at hf
      cases hf
  · have t1 := three_run t0 (makersTurns.take 2) (fun v hv => makersTurns_three v (List.mem_of_mem_take hv))
    by_cases h1 : u = 1
    · subst h1; exact absurd hf (by decide)
    by_cases h2 : u = 2
    · subst h2; exact absurd hf (by decide)
    by_cases h3 : u = 3
    · subst h3; exact absurd hf (by decide)
    · have := t1 u h1 h2 h3
      change ((makers.run env (makersTurns.take 2)).mc u).FillsSession _ at hf
      rw [this] at hf
      cases hf
  · have t1 := three_run t0 (makersTurns.take 6) (fun v hv => makersTurns_three v (List.mem_of_mem_take hv))
    change ((makers.run env (makersTurns.take 6)).mc u).session = some h at hs
    have h65538 : h = 65538 := by
      by_cases h1 : u = 1
      · subst h1; exact Option.some.inj (hs.symm.trans (by decide))
      by_cases h2 : u = 2
      · subst h2; exact Option.some.inj (hs.symm.trans (by decide))
      by_cases h3 : u = 3
      · subst h3; exact Option.some.inj (hs.symm.trans (by decide))
      · rw [t1 u h1 h2 h3] at hs
        cases hs
    subst h65538
    exact ⟨show (65537 : Nat) ≠ 65538 by decide, fun _ sc h => by cases h⟩

example : makers.Quiet ∧ Start fresh ∧ NoToken fresh ∧ makers.lib = run env fresh (setup ++ [openCall true]) :=
  ⟨fun _ => rfl, fresh_start, noToken, rfl⟩

set_option maxRecDepth 40000 in
/-- Both objects of the token and the one of the session are made and the session is closed. -/
example : made (makers.returns env makersTurns) = [(.ok, none), (.ok, some tok2), (.ok, some tok1), (.ok, some 1)] ∧
    made ((makers.history env makersTurns).map (·.2)) = [(.ok, some tok1), (.ok, some tok2), (.ok, none), (.ok, some 1)] ∧
    (makers.run env makersTurns).lib.bad = false := ⟨by decide, by decide, by decide⟩

set_option maxRecDepth 40000 in
/-- The hypotheses of `c126_told` are met: before the last event thread 3 has yet to be told the handle. -/
example : ((makers.run env (makersTurns.take 10)).mc 3).fresh = some 1 ∧ (makers.run env (makersTurns.take 10)).lib.bad = false :=
  ⟨by decide, by decide⟩

/-! ## What goes wrong -/

/-- Two threads make an object of the same session: both read the head of the list before either
has written it. -/
def clash : List MEv :=
  [.create 1 65538 (openTmpl false 7), .create 2 65538 (openTmpl false 9), .go 1, .go 2, .go 1, .go 1, .go 2, .go 2]

set_option maxRecDepth 40000 in
/-- **C126** does not hold when two threads make objects of the same session: both are told
success and the same handle, and one of the keys is lost; of the calls made one after the other
each has its own handle. -/
theorem c126_violated :
    made (makers.returns env clash) = [(.ok, some 1), (.ok, some 1)] ∧
    rvs env (makers.run env clash).lib [.sess 65538 (.size 1 true), .sess 65538 (.size 2 true)] = [.ok, .objectHandleInvalid] ∧
    made (replies env makers.lib [createCall 65538 (openTmpl false 7), createCall 65538 (openTmpl false 9)]) = [(.ok, some 1), (.ok, some 2)] :=
  ⟨by decide, by decide, by decide⟩

set_option maxRecDepth 40000 in
/-- **C126** does not hold when a new object is destroyed, say by a thread that has found it, before its maker has
been told the handle: this is read from freed memory.  Neither order of the whole calls does that. -/
theorem c126_freed :
    (makers.run env [.create 1 65538 (openTmpl true 7), .go 1, .call (.sess 65537 (.destroy tok1)), .go 1]).lib.bad = true ∧
    (run env makers.lib [createCall 65538 (openTmpl true 7), .sess 65537 (.destroy tok1)]).bad = false ∧
    (run env makers.lib [.sess 65537 (.destroy tok1), createCall 65538 (openTmpl true 7)]).bad = false :=
  ⟨by decide, by decide, by decide⟩

end Demo

end Verif
