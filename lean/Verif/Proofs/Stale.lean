import Verif.Proofs.Marks
import Verif.Props.Objs

/-!
# New objects get handles above those in use
-/

namespace Verif

variable {e : Env}

/-- Every object afterwards has the handle of an object that was in the same place before, or
a handle above all that were there. -/
structure Later (l l' : Lib) : Prop where
  tok : ∀ o ∈ l'.token.objs, (∃ p ∈ l.token.objs, p.handle = o.handle) ∨ ∀ p ∈ l.token.objs, p.handle < o.handle
  sess : ∀ s ∈ l'.sessions, ∀ o ∈ s.objs,
    (∃ t ∈ l.sessions, t.handle = s.handle ∧ ∃ p ∈ t.objs, p.handle = o.handle) ∨
    ∀ t ∈ l.sessions, t.handle = s.handle → ∀ p ∈ t.objs, p.handle < o.handle

/-- Every handle in use stays in use. -/
structure StillThere (l l' : Lib) : Prop where
  tok : ∀ p ∈ l.token.objs, ∃ o ∈ l'.token.objs, o.handle = p.handle
  sess : ∀ t ∈ l.sessions, ∀ p ∈ t.objs, ∃ s ∈ l'.sessions, s.handle = t.handle ∧ ∃ o ∈ s.objs, o.handle = p.handle

theorem Later.of {l l' : Lib} (h : From (fun _ => False) l l') : Later l l' := by
  refine ⟨fun o ho => .inl ?_, fun s hs o ho => .inl ?_⟩
  · rcases h.tok o.hm (List.mem_map_of_mem ho) with h | h
    · obtain ⟨p, hp, hm⟩ := List.mem_map.mp h
      exact ⟨p, hp, congrArg (·.1) hm⟩
    · cases h
  · rcases h.sess s hs o.hm (List.mem_map_of_mem ho) with ⟨t, ht, he, h⟩ | h
    · obtain ⟨p, hp, hm⟩ := List.mem_map.mp h
      exact ⟨t, ht, he, p, hp, congrArg (·.1) hm⟩
    · cases h

theorem Later.trans {a b c : Lib} (h1 : Later a b) (h2 : Later b c) (hh : StillThere a b) : Later a c := by
  refine ⟨fun o ho => ?_, fun s hs o ho => ?_⟩
  · rcases h2.tok o ho with ⟨p, hp, hm⟩ | h
    · rw [← hm]; exact h1.tok p hp
    · refine .inr fun p hp => ?_
      obtain ⟨q, hq, hm⟩ := hh.tok p hp
      rw [← hm]; exact h q hq
  · rcases h2.sess s hs o ho with ⟨t, ht, he, p, hp, hm⟩ | h
    · rw [← hm, ← he]; exact h1.sess t ht p hp
    · refine .inr fun t ht he p hp => ?_
      obtain ⟨s', hs', he', q, hq, hm⟩ := hh.sess t ht p hp
      rw [← hm]; exact h s' hs' (he'.trans he) q hq

theorem StillThere.kept {l l' : Lib} (h : Kept l l') : StillThere l l' := by
  refine ⟨fun p hp => ⟨p, by rw [h.tok]; exact hp, rfl⟩, fun t ht p hp => ?_⟩
  have : t.mine ∈ l'.sessions.map Session.mine := by rw [h.sess]; exact List.mem_map_of_mem ht
  obtain ⟨s, hs, hm⟩ := List.mem_map.mp this
  obtain ⟨m1, hm⟩ := Prod.mk.inj hm
  obtain ⟨_, m3⟩ := Prod.mk.inj hm
  exact ⟨s, hs, m1, p, by rw [m3]; exact hp, rfl⟩

/-- Adding an object. -/
theorem later_add {n : Nat} {l l' : Lib} {s s₀ : Session} {on k : Nat} {o : Obj}
    (ha : sessAddObject e l s on o = (l', some k)) (hi : HInv n l) (hon : on ≤ 1) (hnd : (handles l.sessions).Nodup)
    (hm : s₀ ∈ l.sessions) (hh : s₀.handle = s.handle) (ho : s₀.objs = s.objs) : Later l l' ∧ StillThere l l' := by
  obtain ⟨-, ⟨h0, _, hk, hv, hs⟩ | ⟨h0, _, hk, rfl⟩⟩ := sessAdd_some ha
  · have h1 : on = 1 := by omega
    subst h1
    rw [nextHandle_tok] at hk
    obtain ⟨f1, _, _⟩ := nextOf_fresh hi.tok
    rw [← hk] at f1
    refine ⟨⟨fun p hp => ?_, fun t ht p hp => .inl ⟨t, hs ▸ ht, rfl, p, hp, rfl⟩⟩,
      ⟨fun p hp => ?_, fun t ht p hp => ⟨t, hs ▸ ht, rfl, p, hp, rfl⟩⟩⟩
    · have hx : p.view ∈ l'.token.objs.map Obj.view := List.mem_map_of_mem hp
      rw [hv] at hx
      rcases List.mem_cons.mp hx with hx | hx
      · refine .inr fun q hq => ?_
        have : p.handle = k := congrArg (fun o : Obj => o.handle) hx
        rw [this]
        exact f1 q.hb (List.mem_map_of_mem hq)
      · obtain ⟨q, hq, he⟩ := List.mem_map.mp hx
        exact .inl ⟨q, hq, (congrArg (fun o : Obj => o.handle) he :)⟩
    · have hx : p.view ∈ l'.token.objs.map Obj.view := by rw [hv]; exact List.mem_cons_of_mem _ (List.mem_map_of_mem hp)
      obtain ⟨q, hq, he⟩ := List.mem_map.mp hx
      exact ⟨q, hq, (congrArg (fun o : Obj => o.handle) he :)⟩
  · subst h0
    rw [nextHandle_sess] at hk
    have hso := hi.sess s₀ hm
    rw [ho] at hso
    obtain ⟨f1, _, _⟩ := nextOf_fresh hso
    rw [← hk] at f1
    have huniq : ∀ t ∈ l.sessions, t.handle = s.handle → t.objs = s.objs := by
      intro t ht he
      have h1 : l.sessions.find? (fun x => x.handle == s.handle) = some t := (find_iff hnd).mpr ⟨ht, he⟩
      have h2 : l.sessions.find? (fun x => x.handle == s.handle) = some s₀ := (find_iff hnd).mpr ⟨hm, hh⟩
      rw [h1] at h2
      rw [Option.some.inj h2, ho]
    refine ⟨⟨fun p hp => .inl ⟨p, hp, rfl⟩, fun t' ht' p hp => ?_⟩, ⟨fun p hp => ⟨p, hp, rfl⟩, fun t ht p hp => ?_⟩⟩
    · obtain ⟨t, ht, rfl⟩ := List.mem_map.mp ht'
      dsimp only at hp ⊢
      by_cases he : t.handle = s.handle
      · rw [if_pos he] at hp ⊢
        rcases List.mem_cons.mp hp with rfl | hp
        · refine .inr fun u hu hue q hq => ?_
          rw [huniq u hu (hue.trans he)] at hq
          exact f1 q.hb (List.mem_map_of_mem hq)
        · exact .inl ⟨t, ht, rfl, p, hp, rfl⟩
      · rw [if_neg he] at hp ⊢
        exact .inl ⟨t, ht, rfl, p, hp, rfl⟩
    · refine ⟨_, List.mem_map_of_mem ht, ?_, p, ?_, rfl⟩
      · split <;> rfl
      · split
        · exact List.mem_cons_of_mem _ hp
        · exact hp

/-- The calls that create nothing. -/
theorem from_uncreating {l : Lib} (hi : SInv l) {s : Session} (hs : s ∈ l.sessions) (c : SessCall) (hc : c.creates = [])
    {N : Nat × Bool × Nat → Prop} : From N l (sessCall e l s c).1 := by
  cases c with
  | close => exact from_closeSession hi _
  | info p => simp only [sessCall]; split <;> exact .refl l
  | login u p n => exact from_login l u p n
  | logout => exact from_logout l
  | initPin p => exact from_initPin l s p
  | setPin o n => exact from_setPin l s o n
  | create t p =>
    cases t with
    | none => simp only [sessCall, cCreate]; exact .refl l
    | some t => cases hc
  | copy o t p =>
    cases t with
    | none => simp only [sessCall, cCopy]; exact .refl l
    | some t => cases hc
  | destroy o => exact from_cDestroy l s o
  | size o p => simp only [sessCall]; repeat' split
                all_goals exact .refl l
  | getAttr o t => simp only [sessCall, cGetAttr]; repeat' split
                   all_goals exact .refl l
  | setAttr o t => exact from_cSetAttr hs o t
  | findInit t => exact from_cFindInit l s t
  | findNext p n => exact from_cFindNext l s p n
  | findFinal => exact .upd (by intro _; rfl)
  | cryptInit k m key => exact from_cCryptInit l s k m key
  | crypt c => exact from_cCrypt l s c
  | genKey m t p =>
    cases t with
    | none => simp only [sessCall, cGenKey]; repeat' split
              all_goals first | exact .refl l | exact .same rfl rfl
    | some t => cases hc
  | genPair m a b p =>
    cases a with
    | none => simp only [sessCall, cGenPair]; repeat' split
              all_goals first | exact .refl l | exact .same rfl rfl
    | some a => cases hc
  | wrap m a b o => exact from_cWrap l s m a b o
  | unwrap m w d t p =>
    cases t with
    | none => simp only [sessCall, cUnwrap]; repeat' split
              all_goals first | exact .refl l | exact .same rfl rfl
    | some t => cases hc
  | derive m b t p =>
    cases t with
    | none => simp only [sessCall, cDerive]; repeat' split
              all_goals first | exact .refl l | exact .same rfl rfl
    | some t => cases hc
  | random p n => simp only [sessCall, cRandom]; repeat' split
                  all_goals exact .same rfl rfl

/-- Two objects added. -/
theorem later_two (hr : RandLen e) {n : Nat} {l l₀ l₁ l' : Lib} {s s' s₁ : Session} {on₁ on₂ k₁ k₂ : Nat} {o₁ o₂ : Obj}
    (h1 : Kept l l₀) (h2 : sessAddObject e l₀ s on₁ o₁ = (l₁, some k₁)) (h3 : on₁ ≤ 1) (i1 : o₁.iv.length = 12)
    (h4 : l₁.sessions.find? (fun t => t.handle == s.handle) = some s₁)
    (h5 : sessAddObject e l₁ s₁ on₂ o₂ = (l', some k₂)) (h6 : on₂ ≤ 1)
    (hi : HInv n l) (hs : SInv l) (hp : l.PopA) (hn : n + 2 < 2 ^ 28) (hm' : s' ∈ l₀.sessions) (hh' : s'.handle = s.handle)
    (ho' : s'.objs = s.objs) : Later l l' := by
  have hi0 := h1.hinv hi
  have hhand : handles l₀.sessions = handles l.sessions := by
    have := congrArg (List.map (·.1)) h1.sess
    simp only [List.map_map] at this
    exact this
  have hnd : (handles l₀.sessions).Nodup := by rw [hhand]; exact hs.nodup
  have hp0 : l₀.PopA := by
    unfold Lib.PopA at hp ⊢
    have : l₀.sessions.map Session.key = l.sessions.map Session.key := by
      have := congrArg (List.map fun x : Nat × Use × List Obj => (x.1, x.2.1, x.2.2.map Obj.key)) h1.sess
      simp only [List.map_map] at this
      exact this
    rw [h1.tok, this, h1.uid]; exact hp
  obtain ⟨m, hm1, heff⟩ := eff_add_eq (e := e) (ok := (· ≤ 1)) (s := s) ⟨s', hm', hh', ho'⟩ h3 i1 h2
  have hi1 := (heff.hinv hr hnd hp0 hi0 (by omega)).mono (m := n + 1) (by omega)
  have hf := frame_add_eq h2
  have hnd1 : (handles l₁.sessions).Nodup := by rw [hf.handles]; exact hnd
  obtain ⟨g1, g2⟩ := (find_iff hnd1).mp h4
  obtain ⟨a1, a2⟩ := later_add h2 hi0 h3 hnd hm' hh' ho'
  obtain ⟨b1, _⟩ := later_add h5 hi1 h6 hnd1 g1 rfl rfl
  exact (Later.of (.kept h1)).trans (a1.trans b1 a2) (.kept h1)

theorem later_sessCall (hr : RandLen e) {n : Nat} {l : Lib} {h : Nat} {s : Session} (hs : getSession l h = some s)
    (c : SessCall) (ht : ∀ t ∈ c.creates, TokOk (· ≤ 1) t) (hi : HInv n l) (hsi : SInv l) (hp : l.PopA) (hn : n + 2 < 2 ^ 28)
    (hg : (sessCall e l s c).1.bad = false) (hu : (sessCall e l s c).2.rv ≠ .ub) : Later l (sessCall e l s c).1 := by
  obtain ⟨hh, _, hmem⟩ := getSession_handle hs
  by_cases hcr : c.creates = []
  · exact .of (from_uncreating hsi hmem c hcr)
  rcases creates_made (e := e) l s c hcr ht with hm | ⟨hm, _⟩
  · generalize sessCall e l s c = r at *
    obtain ⟨l', r⟩ := r
    cases hm with
    | kept h1 _ _ => exact .of (.kept h1)
    | one h1 h2 h3 h4 h5 h6 =>
      rename_i l₀ _ _ _
      obtain ⟨s', g1, g2⟩ := h1.getSession hs
      obtain ⟨hh', _, hm'⟩ := getSession_handle g1
      have hhand : handles l₀.sessions = handles l.sessions := by
        have := congrArg (List.map (·.1)) h1.sess
        simp only [List.map_map] at this
        exact this
      exact (Later.of (.kept h1)).trans (later_add h2 (h1.hinv hi) h3 (by rw [hhand]; exact hsi.nodup) hm' (hh'.trans hh.symm) g2).1
        (.kept h1)
  · generalize sessCall e l s c = r at *
    obtain ⟨l', r⟩ := r
    cases hm with
    | kept h1 _ => exact .of (.kept h1)
    | broken h _ => rw [h] at hg; cases hg
    | ub h => exact absurd h hu
    | two h1 h2 h3 i1 h4 h5 h6 i2 h7 h8 h9 =>
      obtain ⟨s', g1, g2⟩ := h1.getSession hs
      obtain ⟨hh', _, hm'⟩ := getSession_handle g1
      exact later_two hr h1 h2 h3 i1 h4 h5 h6 hi hsi hp hn hm' (hh'.trans hh.symm) g2

/-- Any call while the library is initialised. -/
theorem later_callBody (hr : RandLen e) {n : Nat} {l : Lib} (c : Call) (hpos : 0 < l.count)
    (hb : ∀ t ∈ c.creates, TokOk (· ≤ 1) t) (hi : HInv n l) (hsi : SInv l) (hp : l.PopA) (hn : n + 2 < 2 ^ 28)
    (hg : (callBody e l c).1.bad = false) (hu : (callBody e l c).2.rv ≠ .ub) : Later l (callBody e l c).1 := by
  cases c with
  | cInit =>
    simp only [callBody, cInitialize]
    rw [if_neg (by omega)]
    exact .of (.same rfl rfl)
  | cFinal =>
    simp only [callBody, cFinalize]
    split
    · exact ⟨(fun o ho => by cases ho), (fun s hs => by cases hs)⟩
    · exact .of (.same rfl rfl)
  | slot id c =>
    simp only [callBody]
    split; · exact .of (.refl l)
    split; · exact .of (.refl l)
    cases c with
    | tokenInfo p n => simp only [slotCall]; split <;> exact .of (.refl l)
    | initToken p lab =>
      simp only [slotCall, initToken]
      repeat' split
      all_goals first | exact .of (.refl l) | skip
      exact .of ⟨(fun x hx => by rcases (from_setSoPin (e := e) (N := fun _ => False) _ _).tok x hx with h | h <;> cases h),
        fun s hs x hx => .inl ⟨s, hs, rfl, hx⟩⟩
    | closeAll =>
      refine .of (from_sub ?_)
      intro s' hs'
      dsimp only [closeAll] at hs'
      split at hs'
      · cases hs'
      · rename_i a as heq
        have hm : ∀ t ∈ a :: as, t ∈ l.sessions := fun t ht => mem_closeDown (heq ▸ ht)
        rcases List.mem_cons.mp hs' with rfl | hs'
        · exact .inl (sessFinal_objs fun hx => (hsi.idle a (hm a List.mem_cons_self) hx).1)
        · exact .inr ⟨s', hm s' (List.mem_cons_of_mem _ hs'), rfl, rfl⟩
    | openSession rw2 serial ptr =>
      simp only [slotCall, openSession]
      split; · exact .of (.refl l)
      split; · exact .of (.refl l)
      split; · exact .of (.refl l)
      split
      · refine .of ⟨fun x hx => .inl hx, fun s hs x hx => .inl ?_⟩
        obtain ⟨t, ht, rfl⟩ := List.mem_map.mp hs
        refine ⟨t, ht, ?_, ?_⟩
        · dsimp only; split <;> rfl
        · split at hx <;> exact hx
      split; · exact .of (.refl l)
      split
      · rename_i a as hadd
        have ha : a.objs = [] ∧ as = l.sessions := by
          unfold addSession at hadd
          split at hadd
          · rename_i h
            obtain ⟨rfl, rfl⟩ := List.cons.inj hadd
            exact ⟨rfl, h.symm⟩
          · obtain ⟨rfl, rfl⟩ := List.cons.inj hadd
            exact ⟨rfl, rfl⟩
        refine .of ⟨fun x hx => .inl hx, fun s hs x hx => .inl ?_⟩
        rcases List.mem_cons.mp hs with rfl | hs
        · have hx : x ∈ a.objs.map Obj.hm := hx
          rw [ha.1] at hx; cases hx
        · exact ⟨s, ha.2 ▸ hs, rfl, hx⟩
      · exact .of (.refl l)
  | sess k c =>
    simp only [callBody] at hg hu ⊢
    split
    · exact .of (.refl l)
    rename_i hn'
    rw [if_neg hn'] at hg hu
    cases hs : getSession l k with
    | none => exact .of (.refl l)
    | some s =>
      rw [hs] at hg hu
      exact later_sessCall hr hs c hb hi hsi hp hn hg hu

end Verif
