import Verif.Proofs.Running
import Verif.Props.SessClose
import Verif.Spec.Isolated

/-!
# A running operation and other calls
-/

namespace Verif

variable {e : Env}

/-- What is shown of an object is in a list. -/
def Has (ov : Obj) (os : List Obj) : Prop := ov ∈ os.map Obj.view

/-- An object of session `h` or of the token is left alone, and if `q` so is the session's
operation. -/
structure Leaves (q on : Bool) (h : Nat) (ov : Obj) (l l' : Lib) : Prop where
  tok : on = true → Has ov l.token.objs → Has ov l'.token.objs
  ses : ∀ s, getSession l h = some s → ∃ s', getSession l' h = some s' ∧ (q = true → s'.op = s.op ∧ s'.curr = s.curr) ∧
    (on = false → Has ov s.objs → Has ov s'.objs)

variable {q on : Bool} {h : Nat} {ov : Obj}

theorem Leaves.refl (l : Lib) : Leaves q on h ov l l := ⟨fun _ h => h, fun s hs => ⟨s, hs, fun _ => ⟨rfl, rfl⟩, fun _ h => h⟩⟩

theorem Leaves.trans {a b c : Lib} (h1 : Leaves q on h ov a b) (h2 : Leaves q on h ov b c) : Leaves q on h ov a c := by
  refine ⟨fun ho ht => h2.tok ho (h1.tok ho ht), fun s hs => ?_⟩
  obtain ⟨s', g1, g2, g4⟩ := h1.ses s hs
  obtain ⟨s'', k1, k2, k4⟩ := h2.ses s' g1
  exact ⟨s'', k1, fun hq => ⟨(k2 hq).1.trans (g2 hq).1, (k2 hq).2.trans (g2 hq).2⟩, fun ho hh => k4 ho (g4 ho hh)⟩

theorem Leaves.of {l l' : Lib} (hs : l'.sessions = l.sessions)
    (ht : on = true → Has ov l.token.objs → Has ov l'.token.objs) : Leaves q on h ov l l' :=
  ⟨ht, fun s hg => ⟨s, by rw [getSession_congr hs]; exact hg, fun _ => ⟨rfl, rfl⟩, fun _ h => h⟩⟩

theorem Leaves.same {l l' : Lib} (hs : l'.sessions = l.sessions) (ht : l'.token.objs = l.token.objs) :
    Leaves q on h ov l l' := .of hs (fun _ hx => ht ▸ hx)

theorem Leaves.store (l : Lib) : Leaves q on h ov l (Lib.store e l).1 :=
  .of rfl (fun _ hx => by unfold Has at hx ⊢; rw [store_view]; exact hx)

theorem Leaves.thenStore {l m : Lib} (hk : Leaves q on h ov l m) : Leaves q on h ov l (Lib.store e m).1 := hk.trans (.store m)

/-- Another session. -/
theorem Leaves.ne {l : Lib} {k : Nat} (hk : h ≠ k) {f : Session → Session} (hf : ∀ t, (f t).handle = t.handle) :
    Leaves q on h ov l (l.upd k f) :=
  ⟨fun _ h => h, fun s hg => ⟨s, by rw [getSession_upd_ne hf hk]; exact hg, fun _ => ⟨rfl, rfl⟩, fun _ h => h⟩⟩

/-- A session, whichever. -/
theorem Leaves.upd {l : Lib} {k : Nat} {f : Session → Session} (hf : ∀ t, (f t).handle = t.handle ∧ (f t).use = t.use)
    (ho : q = true → ∀ t, (f t).op = t.op ∧ (f t).curr = t.curr)
    (hv : on = false → ∀ t, getSession l k = some t → k = h → Has ov t.objs → Has ov (f t).objs) :
    Leaves q on h ov l (l.upd k f) := by
  by_cases hk : h = k
  · subst hk
    refine ⟨fun _ h => h, fun s hg => ⟨f s, by rw [getSession_upd_eq hf, hg]; rfl, fun hq => ho hq s, ?_⟩⟩
    exact fun hon => hv hon s hg rfl
  · exact .ne hk (fun t => (hf t).1)

theorem keeps_sessAdd (l : Lib) (s : Session) (on' : Nat) (o : Obj) : Leaves q on h ov l (sessAddObject e l s on' o).1 := by
  unfold sessAddObject
  dsimp only
  repeat' split
  all_goals first
    | exact .refl l
    | (refine Leaves.trans (b := { l with uid := l.uid + 1, token := { l.token with objs := _ :: l.token.objs } }) (.of rfl ?_) (.store _)
       intro _ hx; exact List.mem_cons_of_mem _ hx)
    | (refine Leaves.trans (b := { l with uid := l.uid + 1 }) (.same rfl rfl) (.upd (by intro _; exact ⟨rfl, rfl⟩) (by intro _ _; exact ⟨rfl, rfl⟩) ?_)
       intro _ t _ _ hx; exact List.mem_cons_of_mem _ hx)

theorem keeps_add_eq {l l' : Lib} {s : Session} {on' : Nat} {o : Obj} {r : Option Nat}
    (he : sessAddObject e l s on' o = (l', r)) : Leaves q on h ov l l' := by
  have := keeps_sessAdd (e := e) (q := q) (on := on) (h := h) (ov := ov) l s on' o
  rwa [he] at this

theorem keeps_addObject (l : Lib) (s : Session) (t : List Entry) (o : Obj) : Leaves q on h ov l (addObject e l s t o).1 := by
  unfold addObject
  split
  · exact .refl l
  · split <;> rename_i heq <;> exact keeps_add_eq heq

theorem keeps_addPair (l : Lib) (s : Session) (tp tq : List Entry) (a b : Obj) :
    Leaves q on h ov l (addPair e l s tp tq a b).1 := by
  have h1 := keeps_addObject (e := e) (q := q) (on := on) (h := h) (ov := ov) l s tp a
  unfold addPair
  dsimp only
  split
  · exact h1
  split
  · exact h1
  rename_i s1 _
  have h2 := keeps_addObject (e := e) (q := q) (on := on) (h := h) (ov := ov) (addObject e l s tp a).1 s1 tq b
  split
  · exact h1.trans (h2.trans (.same rfl rfl))
  · exact h1.trans h2

theorem has_filter {os : List Obj} {u : Nat} (hx : Has ov os) (hu : u ≠ ov.uid) :
    Has ov (os.filter fun p => p.uid != u) := by
  obtain ⟨q, hq, rfl⟩ := List.mem_map.mp hx
  refine List.mem_map.mpr ⟨q, List.mem_filter.mpr ⟨hq, ?_⟩, rfl⟩
  have : u ≠ q.uid := hu
  simp only [bne_iff_ne, ne_eq]
  exact fun h => this h.symm

theorem has_repl {os : List Obj} {o : Obj} (hx : Has ov os) (hu : o.uid ≠ ov.uid) : Has ov (replObj o os) := by
  obtain ⟨q, hq, rfl⟩ := List.mem_map.mp hx
  unfold Has replObj
  rw [List.map_map]
  refine List.mem_map.mpr ⟨q, hq, ?_⟩
  have : q.uid ≠ o.uid := fun h => hu h.symm
  simp only [Function.comp, this, if_false]

/-- The cryptographic calls in any session. -/
theorem Leaves.op {l : Lib} {k : Nat} {f : Session → Session} (hq : q = true → h ≠ k)
    (hf : ∀ t, (f t).handle = t.handle ∧ (f t).use = t.use ∧ (f t).objs = t.objs) : Leaves q on h ov l (l.upd k f) := by
  by_cases hk : h = k
  · exact .upd (fun t => ⟨(hf t).1, (hf t).2.1⟩) (fun hq' => absurd hk (hq hq')) (fun _ t _ _ hx => by rw [(hf t).2.2]; exact hx)
  · exact .ne hk (fun t => (hf t).1)

theorem keeps_unwrap (l : Lib) (s : Session) (hne : q = true → h ≠ s.handle) (m : Option (Mech × MechParam)) (wk : Nat)
    (d : Option Bytes) (t : Option (List Entry)) (p : Bool) : Leaves q on h ov l (cUnwrap e l s m wk d t p).1 := by
  have h1 : ∀ (l : Lib) (t : List Entry) (d : Bytes), Leaves q on h ov l (addRsaPrivate e l s t d).1 := by
    intro l t d
    unfold addRsaPrivate
    repeat' split
    all_goals first | exact .refl _ | exact keeps_addObject ..
  unfold cUnwrap
  dsimp only
  repeat' split
  all_goals first
    | exact .refl _
    | exact .op hne (by intro _; exact ⟨rfl, rfl, rfl⟩)
    | exact Leaves.trans (.op hne (by intro _; exact ⟨rfl, rfl, rfl⟩)) (h1 ..)

/-- An object with another handle has another identity. -/
theorem uid_ne {os : List Obj} (hn : (os.map (·.uid)).Nodup) {o : Obj} (ho : o ∈ os) (hx : Has ov os)
    (hh : o.handle ≠ ov.handle) : o.uid ≠ ov.uid := by
  obtain ⟨q, hq, rfl⟩ := List.mem_map.mp hx
  intro hu
  exact hh (congrArg (·.handle) (uid_inj hn ho hq hu))

theorem findObj_parts {l : Lib} {s : Session} {i : Nat} {o : Obj} (hf : findObj l s i = some o) :
    o.handle = i ∧ (handleOnToken i = true → o ∈ l.token.objs) ∧ (handleOnToken i = false → o ∈ s.objs) := by
  unfold findObj at hf
  have h1 : o.handle = i := by simpa using List.find?_some hf
  have h2 := List.mem_of_find?_eq_some hf
  refine ⟨h1, fun h => ?_, fun h => ?_⟩ <;> simpa only [h, if_true, Bool.false_eq_true, if_false] using h2

theorem keeps_destroy {l : Lib} (hp : l.PopA) {s : Session} {j i : Nat} (hs : getSession l j = some s)
    (hi : i ≠ ov.handle) : Leaves q on h ov l (cDestroy e l s i).1 := by
  unfold cDestroy removeToken
  split; · exact .refl l
  split; · exact .refl l
  rename_i o hf
  obtain ⟨h1, h2, h3⟩ := findObj_parts hf
  have hne : o.handle ≠ ov.handle := by rw [h1]; exact hi
  split
  · rename_i ht
    split
    · dsimp only
      refine Leaves.thenStore (.of rfl ?_)
      intro _ hx
      exact has_filter hx (uid_ne hp.uidOk.1 (h2 ht) hx hne)
    · exact .same rfl rfl
  · rename_i ht
    refine .upd (by intro _; exact ⟨rfl, rfl⟩) (by intro _ _; exact ⟨rfl, rfl⟩) ?_
    intro _ t hg _ hx
    have hjs := (getSession_handle hs).1
    rw [hjs, hs] at hg
    obtain rfl := Option.some.inj hg
    exact has_filter hx (uid_ne (hp.uidOk.2 s (getSession_handle hs).2.2) (h3 (by simpa using ht)) hx hne)

theorem keeps_setAttr {l : Lib} (hp : l.PopA) {s : Session} {j i : Nat} (hs : getSession l j = some s)
    (hi : i ≠ ov.handle) (t : Option (List Entry)) : Leaves q on h ov l (cSetAttr e l s i t).1 := by
  unfold cSetAttr putObj
  split; · exact .refl l
  rename_i t
  split; · exact .refl l
  split; · exact .refl l
  rename_i o hf
  obtain ⟨h1, h2, h3⟩ := findObj_parts hf
  have hne : o.handle ≠ ov.handle := by rw [h1]; exact hi
  have hu : (setAttributeValue e.key true o t).2.uid = o.uid :=
    congrArg (fun k : OKey => k.2.1) (setAttributeValue_key e.key true o t).1
  dsimp only
  split
  · rename_i ht
    refine .of rfl ?_
    intro _ hx
    exact has_repl hx (by rw [hu]; exact uid_ne hp.uidOk.1 (h2 ht) hx hne)
  · rename_i ht
    refine .upd (by intro _; exact ⟨rfl, rfl⟩) (by intro _ _; exact ⟨rfl, rfl⟩) ?_
    intro _ t hg _ hx
    have hjs := (getSession_handle hs).1
    rw [hjs, hs] at hg
    obtain rfl := Option.some.inj hg
    exact has_repl hx (by
      rw [hu]; exact uid_ne (hp.uidOk.2 s (getSession_handle hs).2.2) (h3 (by simpa using ht)) hx hne)

/-- A call on a session. -/
theorem keeps_sessCall {l : Lib} (hp : l.PopA) {s : Session} {j : Nat} (hs : getSession l j = some s) {c : SessCall}
    (hc : c ≠ .close) (hb : Spares h ov.handle (.sess j c)) (hq : q = true → ¬ Crypts h (.sess j c)) :
    Leaves q (handleOnToken ov.handle) h ov l (sessCall e l s c).1 := by
  have hjs := (getSession_handle hs).1
  have hpin : ∀ l' pin, l'.sessions = l.sessions → l'.token.objs = l.token.objs →
      Leaves q (handleOnToken ov.handle) h ov l (setUserPin e l' pin).1 ∧
      Leaves q (handleOnToken ov.handle) h ov l (setSoPin e l' pin).1 := by
    intro l' pin h1 h2
    unfold setUserPin setSoPin
    exact ⟨Leaves.thenStore (.same h1 h2), Leaves.thenStore (.same h1 h2)⟩
  cases c with
  | close => exact absurd rfl hc
  | info p => simp only [sessCall]; split <;> exact .refl _
  | login u p n =>
    have h1 : (sessCall e l s (.login u p n)).1.sessions = l.sessions := by
      simp only [sessCall, login, soLogin, userLogin]
      repeat' split
      all_goals rfl
    have hb : handleOnToken ov.handle = false := hb
    exact .of h1 (by rw [hb]; intro h; cases h)
  | logout =>
    have hb : handleOnToken ov.handle = false := hb
    exact .of rfl (by rw [hb]; intro h; cases h)
  | initPin p =>
    simp only [sessCall, initPin, pinSet]
    repeat' split
    all_goals first | exact .refl _ | exact (hpin _ _ rfl rfl).1
  | setPin o n =>
    simp only [sessCall, setPin, pinSet]
    repeat' split
    all_goals first | exact .refl _ | exact (hpin _ _ rfl rfl).1 | exact (hpin _ _ rfl rfl).2
  | create t p =>
    simp only [sessCall, cCreate]
    repeat' split
    all_goals first | exact .refl _ | exact keeps_addObject ..
  | copy o t p =>
    simp only [sessCall, cCopy]
    repeat' split
    all_goals first | exact .refl _ | (rename_i heq; exact keeps_add_eq heq)
  | destroy o => exact keeps_destroy hp hs hb
  | size o p =>
    simp only [sessCall]
    repeat' split
    all_goals exact .refl _
  | getAttr o t =>
    simp only [sessCall, cGetAttr]
    repeat' split
    all_goals exact .refl _
  | setAttr o t => exact keeps_setAttr hp hs hb t
  | findInit t =>
    simp only [sessCall, cFindInit]
    repeat' split
    all_goals first
      | exact .refl _
      | exact .upd (by intro _; exact ⟨rfl, rfl⟩) (by intro _ _; exact ⟨rfl, rfl⟩) (fun _ _ _ _ hx => hx)
  | findNext p n =>
    simp only [sessCall, cFindNext]
    repeat' split
    all_goals first
      | exact .refl _
      | exact .upd (by intro _; exact ⟨rfl, rfl⟩) (by intro _ _; exact ⟨rfl, rfl⟩) (fun _ _ _ _ hx => hx)
  | findFinal => exact .upd (by intro _; exact ⟨rfl, rfl⟩) (by intro _ _; exact ⟨rfl, rfl⟩) (fun _ _ _ _ hx => hx)
  | cryptInit k m key =>
    have hne : q = true → h ≠ s.handle := fun h1 h2 => hq h1 (by rw [h2]; exact hjs.symm)
    simp only [sessCall, cCryptInit]
    repeat' split
    all_goals first | exact .refl _ | exact .op hne (by intro _; exact ⟨rfl, rfl, rfl⟩)
  | crypt d =>
    have hne : q = true → h ≠ s.handle := fun h1 h2 => hq h1 (by rw [h2]; exact hjs.symm)
    simp only [sessCall, cCrypt]
    repeat' split
    all_goals first | exact .refl _ | exact .op hne (by intro _; exact ⟨rfl, rfl, rfl⟩)
  | genKey m t p =>
    simp only [sessCall, cGenKey]
    repeat' split
    all_goals first | exact .refl _ | exact Leaves.trans (b := { l with rng := l.rng + 1 }) (.same rfl rfl) (keeps_addObject ..)
  | genPair m a b p =>
    simp only [sessCall, cGenPair]
    repeat' split
    all_goals first | exact .refl _ | exact .same rfl rfl | exact Leaves.trans (b := { l with rng := l.rng + 1 }) (.same rfl rfl) (keeps_addPair ..)
  | wrap m a b o =>
    have hne : q = true → h ≠ s.handle := fun h1 h2 => hq h1 (by rw [h2]; exact hjs.symm)
    simp only [sessCall, cWrap]
    repeat' split
    all_goals first | exact .refl _ | exact .op hne (by intro _; exact ⟨rfl, rfl, rfl⟩)
  | unwrap m w d t p =>
    exact keeps_unwrap l s (fun h1 h2 => hq h1 (by rw [h2]; exact hjs.symm)) m w d t p
  | derive m b t p =>
    simp only [sessCall, cDerive]
    repeat' split
    all_goals first | exact .refl _ | exact keeps_addObject ..
  | random p n => simp only [sessCall, cRandom]; repeat' split
                  all_goals first | exact .refl _ | exact .same rfl rfl

/-- Any call that spares the object. -/
theorem keeps_step {l : Lib} (hp : l.PopA) (hi : SInv l) (hbad : l.bad = false) (hcnt : 0 < l.count) {c : Call}
    (hb : Spares h ov.handle c) (hq : q = true → ¬ Crypts h c) {s₀ : Session} (h₀ : getSession l h = some s₀) :
    Leaves q (handleOnToken ov.handle) h ov l (step e l c).1 ∧ 0 < (step e l c).1.count := by
  have hcn : ¬ l.count ≤ 0 := by omega
  obtain ⟨e1, e2, e3, _⟩ := step_sessions (e := e) hbad c
  have lift : Leaves q (handleOnToken ov.handle) h ov l (callBody e l c).1 → Leaves q (handleOnToken ov.handle) h ov l (step e l c).1 :=
    fun hk => hk.trans (.same e1 (by rw [e3]))
  cases c with
  | cInit =>
    refine ⟨lift ?_, ?_⟩
    · simp only [callBody, cInitialize]
      rw [if_neg (by omega)]
      exact .same rfl rfl
    · rw [e2]
      simp only [callBody, cInitialize]
      rw [if_neg (by omega)]
      show 0 < l.count + 1
      omega
  | cFinal => exact absurd hb (by simp [Spares])
  | slot id c =>
    have hcount : (callBody e l (.slot id c)).1.count = l.count := by
      simp only [callBody, slotCall]
      repeat' split
      all_goals first
        | rfl
        | (simp only [openSession]; repeat' split
           all_goals rfl)
        | (simp only [initToken, pinSet, setSoPin]; repeat' split
           all_goals rfl)
    refine ⟨?_, by rw [e2, hcount]; exact hcnt⟩
    cases c with
    | tokenInfo p n =>
      refine lift ?_
      simp only [callBody, slotCall]
      repeat' split
      all_goals exact .refl _
    | initToken p lb =>
      have hb : handleOnToken ov.handle = false := hb
      refine lift (.of ?_ (by rw [hb]; intro h; cases h))
      simp only [callBody, slotCall, initToken, pinSet, setSoPin]
      repeat' split
      all_goals rfl
    | openSession rw' ser ptr =>
      by_cases hid : id = 1 ∧ ser = true ∧ ptr = true
      · obtain ⟨rfl, rfl, rfl⟩ := hid
        obtain ⟨_, ⟨_, _, h1⟩ | ⟨_, _, _, h1⟩ | ⟨_, _, k, _, h1, _, h2, h3, _⟩⟩ := openSession_spec (e := e) hi hbad hcnt rw'
        · rw [show Call.slot 1 (.openSession rw' true true) = openCall rw' from rfl, h1]; exact .refl _
        · rw [show Call.slot 1 (.openSession rw' true true) = openCall rw' from rfl, h1]; exact .refl _
        · have hk : h ≠ k := by rintro rfl; rw [h₀] at h1; cases h1
          refine ⟨fun _ hx => ?_, fun s hs => ⟨s, ?_, fun _ => ⟨rfl, rfl⟩, fun _ hx => hx⟩⟩
          · exact h3 ▸ hx
          · exact (h2 h hk).trans hs
      · refine lift ?_
        simp only [callBody, if_neg hcn, slotCall]
        split; · exact .refl _
        split; · exact .refl _
        split; · exact .refl _
        rename_i h1 h2 h3
        exact absurd ⟨by simpa using h1, by simpa using h2, by simpa using h3⟩ hid
    | closeAll => exact absurd hb (by simp [Spares])
  | sess j c =>
    have hcount : (callBody e l (.sess j c)).1.count = l.count := by
      simp only [callBody, if_neg hcn]
      cases getSession l j with
      | none => rfl
      | some s =>
        by_cases hc : c = .close
        · subst hc; exact (closeSession_sessions ..).2
        · exact (frame_sessCall e l s c hc).count
    refine ⟨?_, by rw [e2, hcount]; exact hcnt⟩
    cases hg : getSession l j with
    | none =>
      refine lift ?_
      simp only [callBody, if_neg hcn, hg]
      exact .refl _
    | some s =>
      by_cases hc : c = .close
      · subst hc
        have hjh : j ≠ h := hb
        have ho : IsOpen e l j := (isOpen_iff hi).mpr ⟨hbad, s, hg⟩
        have ho' : IsOpen e l h := (isOpen_iff hi).mpr ⟨hbad, s₀, h₀⟩
        obtain ⟨_, _, _, h1, h2, _⟩ := close_spec hi ho
        have h2 := h2 ⟨h, hjh.symm, ho'⟩
        refine ⟨fun _ hx => ?_, fun s hs => ⟨s, ?_, fun _ => ⟨rfl, rfl⟩, fun _ hx => hx⟩⟩
        · exact h2 ▸ hx
        · exact (h1 h hjh.symm).trans hs
      · refine lift ?_
        simp only [callBody, if_neg hcn, hg]
        exact keeps_sessCall hp hg hc hb hq

end Verif
