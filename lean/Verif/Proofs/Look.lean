import Verif.Proofs.Handles

/-!
# What a handle denotes
-/

namespace Verif

variable {e : Env}

/-- An object without what only concerns its storage. -/
def Obj.view (o : Obj) : Obj := { o with iv := [], keyData := none }

theorem view_getAttr (x : KeyExt) (o : Obj) (a : CKA) (b : Bool) (n : Nat) :
    getAttr x o.view a b n = getAttr x o a b n := rfl

theorem view_getAttributeValue (x : KeyExt) (o : Obj) (t : List Entry) :
    getAttributeValue x o.view t = getAttributeValue x o t := by
  have h : ∀ t, getEntries x o.view t = getEntries x o t := by
    intro t
    induction t with
    | nil => rfl
    | cons en t ih => unfold getEntries; rw [ih]; rfl
  unfold getAttributeValue
  rw [h]

theorem view_handle (o : Obj) : o.view.handle = o.handle := rfl

theorem view_hb (o : Obj) : o.view.hb = o.hb := rfl

/-- The object a handle denotes in a session; the outer option says whether the session
is open. -/
def look (l : Lib) (h k : Nat) : Option (Option Obj) :=
  (getSession l h).map fun s => (findObj l s k).map Obj.view

/-- The answer to `C_GetAttributeValue`. -/
theorem getAttr_answer (l : Lib) (h k : Nat) (t : Option (List Entry)) :
    answer e l (.sess h (.getAttr k t)) =
      if l.bad then { rv := .ub } else if l.count ≤ 0 then { rv := .cryptokiNotInitialized }
      else match look l h k with
        | none => { rv := .sessionHandleInvalid }
        | some r => match t with
          | none => { rv := .argumentsBad }
          | some t => match r with
            | none => { rv := .objectHandleInvalid }
            | some o => let g := getAttributeValue e.key o t
              { rv := g.1, tmpl := some g.2 } := by
  unfold answer
  cases hb : l.bad with
  | true => rw [step_bad hb]; rfl
  | false =>
    rw [step_resp hb]
    simp only [callBody, Bool.false_eq_true, if_false]
    split
    · rfl
    · unfold look
      cases getSession l h with
      | none => rfl
      | some s =>
        simp only [Option.map_some, sessCall, cGetAttr]
        cases t with
        | none => rfl
        | some t =>
          cases findObj l s k with
          | none => rfl
          | some o => simp only [Option.map_some, view_getAttributeValue]

theorem names_iff {l : Lib} {h k : Nat} :
    Names e l h k ↔ l.bad = false ∧ 0 < l.count ∧ ∃ o, look l h k = some (some o) := by
  unfold Names answer
  cases hb : l.bad with
  | true => rw [step_bad hb]; simp
  | false =>
    rw [step_resp hb]
    simp only [callBody]
    split
    · rename_i hc
      have : ¬ 0 < l.count := by omega
      simp [this]
    · rename_i hc
      have : 0 < l.count := by omega
      simp only [this, true_and]
      unfold look
      cases getSession l h with
      | none => simp
      | some s =>
        simp only [sessCall, Option.map_some]
        cases findObj l s k <;> simp

/-- Sessions with what matters for objects. -/
def Session.mine (s : Session) : Nat × Use × List Obj := (s.handle, s.use, s.objs)

/-- Nothing about objects has changed. -/
structure Kept (l l' : Lib) : Prop where
  tok : l'.token = l.token
  disk : l'.disk = l.disk
  uid : l'.uid = l.uid
  bad : l'.bad = l.bad
  count : l'.count = l.count
  sess : l'.sessions.map Session.mine = l.sessions.map Session.mine

theorem Kept.refl (l : Lib) : Kept l l := ⟨rfl, rfl, rfl, rfl, rfl, rfl⟩

theorem Kept.trans {a b c : Lib} (h1 : Kept a b) (h2 : Kept b c) : Kept a c :=
  ⟨h2.tok.trans h1.tok, h2.disk.trans h1.disk, h2.uid.trans h1.uid, h2.bad.trans h1.bad, h2.count.trans h1.count,
    h2.sess.trans h1.sess⟩

theorem Kept.upd (l : Lib) (h : Nat) (f : Session → Session) (hf : ∀ t, (f t).mine = t.mine) :
    Kept l (l.upd h f) := by
  refine ⟨rfl, rfl, rfl, rfl, rfl, ?_⟩
  simp only [Lib.upd, List.map_map]
  refine List.map_congr_left fun t _ => ?_
  simp only [Function.comp]
  split
  · exact hf t
  · rfl

theorem getSession_mine {l l' : Lib} (h : l'.sessions.map Session.mine = l.sessions.map Session.mine) (k : Nat) :
    (getSession l' k).map Session.mine = (getSession l k).map Session.mine := by
  unfold getSession
  split
  · rfl
  · generalize l'.sessions = ss' at h
    generalize l.sessions = ss at h
    induction ss generalizing ss' with
    | nil =>
      cases ss' with
      | nil => rfl
      | cons _ _ => simp at h
    | cons s ss ih =>
      cases ss' with
      | nil => simp at h
      | cons s' ss' =>
        obtain ⟨h1, h2⟩ := List.cons.inj h
        have hh : s'.handle = s.handle := congrArg (·.1) h1
        have hu : s'.use = s.use := congrArg (·.2.1) h1
        simp only [List.find?_cons, hh]
        cases s.handle == k with
        | true =>
          simp only [Option.bind_some, hu]
          split
          · rfl
          · simp [h1]
        | false => exact ih ss' h2

theorem Kept.look {l l' : Lib} (h : Kept l l') (k j : Nat) : look l' k j = look l k j := by
  have := getSession_mine h.sess k
  unfold Verif.look
  cases h1 : getSession l' k with
  | none =>
    cases h2 : getSession l k with
    | none => rfl
    | some s => rw [h1, h2] at this; cases this
  | some s' =>
    cases h2 : getSession l k with
    | none => rw [h1, h2] at this; cases this
    | some s =>
      rw [h1, h2] at this
      have ho : s'.objs = s.objs := congrArg (·.2.2) (Option.some.inj this)
      simp only [Option.map_some]
      unfold findObj
      rw [ho, h.tok]

/-! ## Adding an object -/

theorem storeObj_view (x : StoreExt) (k : Bytes) (r : Nat) (o : Obj) (i : Nat) :
    (storeObj x k r o i).obj.view = o.view := by
  have h1 : ∀ o : Obj, (encodeKey x k o).2.view = o.view := by
    intro o
    unfold encodeKey encodeRsa encodeEcc encodeDh encodeSymm
    dsimp only
    repeat' split
    all_goals rfl
  have h2 : (if needsIv o then { o with iv := x.rand r 12 } else o).view = o.view := by split <;> rfl
  have h3 : ∀ p : Obj, p.view = o.view →
      (if p.keyData.isNone then encodeKey x k p else (true, p)).2.view = o.view := by
    intro p hp
    split
    · exact (h1 p).trans hp
    · exact hp
  have h4 := h3 _ h2
  unfold storeObj
  dsimp only
  split
  · exact h2
  · split <;> exact h2
  · split
    · split <;> exact h4
    · exact h4

theorem storeObjs_view (x : StoreExt) (k : Bytes) (r : Nat) (os : List Obj) :
    (storeObjs x k r os).2.1.map Obj.view = os.map Obj.view := by
  induction os generalizing r with
  | nil => rfl
  | cons o os ih =>
    simp only [storeObjs]
    split
    · simp only [List.map_cons, storeObj_view, ih]
    · simp only [List.map_cons, storeObj_view]

theorem store_view (e : Env) (l : Lib) :
    (Lib.store e l).1.token.objs.map Obj.view = l.token.objs.map Obj.view := storeObjs_view ..

theorem sessAdd_none {l l' : Lib} {s : Session} {on : Nat} {o : Obj} (h : sessAddObject e l s on o = (l', none)) :
    l' = l := by
  unfold sessAddObject at h
  dsimp only at h
  repeat' split at h
  all_goals first
    | (obtain ⟨h1, h2⟩ := Prod.mk.inj h; cases h2; done)
    | (obtain ⟨h1, h2⟩ := Prod.mk.inj h; exact h1.symm)

/-- The object as it is added. -/
def Obj.added (o : Obj) (u on k : Nat) : Obj := { o with onToken := decide (on % 2 = 1), uid := u, handle := k }

/-- What adding an object does. -/
theorem sessAdd_some {l l' : Lib} {s : Session} {on k : Nat} {o : Obj}
    (h : sessAddObject e l s on o = (l', some k)) :
    (l'.bad = l.bad ∧ l'.count = l.count ∧ l'.uid = l.uid + 1) ∧
    ((on ≠ 0 ∧ l.token.objs.length < 64 ∧ k = nextHandle l.token.objs on ∧
      l'.token.objs.map Obj.view = (o.added l.uid on k).view :: l.token.objs.map Obj.view ∧
      l'.sessions = l.sessions) ∨
    (on = 0 ∧ s.objs.length < 8 ∧ k = nextHandle s.objs 0 ∧
      l' = { l with uid := l.uid + 1 }.upd s.handle fun t => { t with objs := o.added l.uid on k :: t.objs })) := by
  unfold sessAddObject at h
  dsimp only at h
  split at h
  · rename_i hon
    split at h
    · obtain ⟨_, h2⟩ := Prod.mk.inj h; cases h2
    rename_i hlen
    split at h
    · rename_i hr
      obtain ⟨h1, h2⟩ := Prod.mk.inj h
      cases h2
      subst h1
      refine ⟨⟨rfl, rfl, rfl⟩, .inl ⟨hon, by simpa [tokenObjMax] using hlen, rfl, ?_, rfl⟩⟩
      rw [store_view, List.map_cons]
      congr 1
      unfold encodeObj encodeKey encodeRsa encodeEcc encodeDh encodeSymm
      dsimp only [Bool.false_eq_true, false_and]
      simp only [Bool.false_eq_true, false_and, if_false]
      repeat' split
      all_goals rfl
    · obtain ⟨_, h2⟩ := Prod.mk.inj h; cases h2
  · rename_i hon
    have hon : on = 0 := by omega
    subst hon
    split at h
    · obtain ⟨_, h2⟩ := Prod.mk.inj h; cases h2
    rename_i hlen
    obtain ⟨h1, h2⟩ := Prod.mk.inj h
    cases h2
    subst h1
    exact ⟨⟨rfl, rfl, rfl⟩, .inr ⟨rfl, by simpa [sessObjMax] using hlen, rfl, rfl⟩⟩

theorem find_view (os : List Obj) (k : Nat) :
    (os.find? fun o => o.handle == k).map Obj.view = (os.map Obj.view).find? fun o => o.handle == k := by
  induction os with
  | nil => rfl
  | cons o os ih =>
    simp only [List.find?_cons, List.map_cons, view_handle]
    cases o.handle == k with
    | true => rfl
    | false => exact ih

theorem look_eq {l : Lib} {h k : Nat} :
    look l h k = (getSession l h).map fun s =>
      ((if handleOnToken k then l.token.objs else s.objs).map Obj.view).find? fun o => o.handle == k := by
  unfold look findObj
  congr 1
  funext s
  exact find_view ..

theorem tok_handle {k : Nat} (h1 : 2 ^ 28 < k) (h2 : k < 2 ^ 28 + 2 ^ 28) : handleOnToken k = true := by
  unfold handleOnToken
  simp only [decide_eq_true_eq]
  omega

theorem sess_handle {k : Nat} (h : k < 2 ^ 28) : handleOnToken k = false := by
  unfold handleOnToken
  simp only [decide_eq_false_iff_not, ne_eq, Decidable.not_not]
  omega

theorem nextOf_fresh {b n : Nat} {v : Bool} {ks : List HB} (h : HOk b n v ks) :
    (∀ q ∈ ks, q.1 < nextOf b ks) ∧ b < nextOf b ks ∧ nextOf b ks ≤ b + n + 1 := by
  cases ks with
  | nil => exact ⟨by simp, by simp [nextOf], by simp only [nextOf]; omega⟩
  | cons p ps =>
    have hr := h.range p List.mem_cons_self
    refine ⟨?_, by simp only [nextOf]; omega, by simp only [nextOf]; omega⟩
    intro q hq
    simp only [nextOf]
    rcases List.mem_cons.mp hq with rfl | hq
    · omega
    · have := (List.pairwise_cons.mp h.decr).1 q hq; omega

theorem find_none_of_lt {os : List Obj} {k : Nat} (h : ∀ q ∈ os.map Obj.hb, q.1 < k) :
    (os.map Obj.view).find? (fun o => o.handle == k) = none := by
  refine List.find?_eq_none.mpr ?_
  intro o ho
  obtain ⟨p, hp, rfl⟩ := List.mem_map.mp ho
  have := h p.hb (List.mem_map.mpr ⟨p, hp, rfl⟩)
  simp only [Obj.hb] at this
  simp only [view_handle, beq_iff_eq]
  omega

theorem getSession_upd_ne {l : Lib} {h k : Nat} {f : Session → Session} (hf : ∀ t, (f t).handle = t.handle)
    (hk : k ≠ h) : getSession (l.upd h f) k = getSession l k := by
  unfold getSession Lib.upd
  split
  · rfl
  · congr 1
    dsimp only
    induction l.sessions with
    | nil => rfl
    | cons s ss ih =>
      simp only [List.map_cons, List.find?_cons]
      by_cases hs : s.handle = h
      · rw [if_pos hs, hf]
        have : (s.handle == k) = false := by simp only [beq_eq_false_iff_ne, ne_eq]; omega
        rw [this]; exact ih
      · rw [if_neg hs]
        cases s.handle == k with
        | true => rfl
        | false => exact ih

theorem getSession_upd_eq {l : Lib} {h : Nat} {f : Session → Session}
    (hf : ∀ t, (f t).handle = t.handle ∧ (f t).use = t.use) :
    getSession (l.upd h f) h = (getSession l h).map f := by
  unfold getSession Lib.upd
  split
  · rfl
  · dsimp only
    induction l.sessions with
    | nil => rfl
    | cons s ss ih =>
      simp only [List.map_cons, List.find?_cons]
      by_cases hs : s.handle = h
      · rw [if_pos hs, (hf s).1]
        simp only [hs, beq_self_eq_true, Option.bind_some, (hf s).2]
        split <;> rfl
      · rw [if_neg hs]
        have : (s.handle == h) = false := by simp only [beq_eq_false_iff_ne, ne_eq]; omega
        rw [this]; exact ih

/-- After adding an object its handle, unused before, denotes it, and nothing else has
changed. -/
theorem look_add {l l' : Lib} {s s₀ : Session} {h on k n : Nat} {o : Obj}
    (ha : sessAddObject e l s on o = (l', some k)) (hi : HInv n l) (hn : n + 1 < 2 ^ 28) (hon : on ≤ 1)
    (hg : getSession l h = some s₀) (hm : s₀ ∈ l.sessions) (hh : s.handle = h) (ho : s₀.objs = s.objs) :
    look l h k = some none ∧ look l' h k = some (some (o.added l.uid on k).view) ∧
    (∀ h' k', k' ≠ k → look l' h' k' = look l h' k') ∧
    (∀ h' k' p, look l h' k' = some (some p) → look l' h' k' = some (some p)) := by
  obtain ⟨-, ⟨h0, hl, hk, hv, hs⟩ | ⟨h0, hl, hk, rfl⟩⟩ := sessAdd_some ha
  · have h1 : on = 1 := by omega
    subst h1
    rw [nextHandle_tok] at hk
    obtain ⟨f1, f2, f3⟩ := nextOf_fresh hi.tok
    rw [← hk] at f1 f2 f3
    have ht : handleOnToken k = true := tok_handle f2 (by omega)
    have hnone : ∀ h', look l h' k = (getSession l h').map fun _ => none := by
      intro h'
      rw [look_eq]
      congr 1
      funext t
      rw [ht]
      exact find_none_of_lt f1
    have hne : ∀ h' k', k' ≠ k → look l' h' k' = look l h' k' := by
      intro h' k' hk'
      rw [look_eq, look_eq, getSession_congr hs]
      congr 1
      funext t
      cases hx : handleOnToken k' with
      | false => rfl
      | true =>
        simp only [if_true, hv, List.find?_cons]
        have : ((o.added l.uid 1 k).view.handle == k') = false := by
          simp only [beq_eq_false_iff_ne, ne_eq]
          exact fun h => hk' h.symm
        rw [this]
    refine ⟨by rw [hnone, hg]; rfl, ?_, hne, ?_⟩
    · rw [look_eq, getSession_congr hs, hg]
      simp only [Option.map_some, ht, if_true, hv, List.find?_cons]
      have : ((o.added l.uid 1 k).view.handle == k) = true := beq_iff_eq.mpr rfl
      rw [this]
    · intro h' k' p hp
      by_cases hx : k' = k
      · subst hx
        rw [hnone] at hp
        cases hgs : getSession l h' with
        | none => rw [hgs] at hp; cases hp
        | some t => rw [hgs] at hp; cases hp
      · rw [hne h' k' hx]; exact hp
  · subst h0
    rw [nextHandle_sess] at hk
    have hso := hi.sess s₀ hm
    rw [ho] at hso
    obtain ⟨f1, f2, f3⟩ := nextOf_fresh hso
    rw [← hk] at f1 f2 f3
    have ht : handleOnToken k = false := sess_handle (by omega)
    have hu : ∀ h', look ({ l with uid := l.uid + 1 }.upd s.handle fun t => { t with objs := o.added l.uid 0 k :: t.objs }) h' k =
        if h' = h then some (some (o.added l.uid 0 k).view) else look l h' k := by
      intro h'
      rw [look_eq]
      by_cases he : h' = h
      · rw [if_pos he]
        subst he
        rw [hh, getSession_upd_eq (f := fun t => { t with objs := o.added l.uid 0 k :: t.objs }) (fun _ => ⟨rfl, rfl⟩)]
        rw [show getSession { l with uid := l.uid + 1 } h' = some s₀ from hg]
        simp only [Option.map_some, ht, Bool.false_eq_true, if_false, List.map_cons, List.find?_cons]
        have : ((o.added l.uid 0 k).view.handle == k) = true := beq_iff_eq.mpr rfl
        rw [this]
      · rw [if_neg he, hh, getSession_upd_ne (f := fun t => { t with objs := o.added l.uid 0 k :: t.objs }) (fun _ => rfl) he, look_eq]
        rfl
    have hne : ∀ h' k', k' ≠ k →
        look ({ l with uid := l.uid + 1 }.upd s.handle fun t => { t with objs := o.added l.uid 0 k :: t.objs }) h' k' =
        look l h' k' := by
      intro h' k' hk'
      rw [look_eq, look_eq]
      by_cases he : h' = h
      · subst he
        rw [hh, getSession_upd_eq (f := fun t => { t with objs := o.added l.uid 0 k :: t.objs }) (fun _ => ⟨rfl, rfl⟩)]
        rw [show getSession { l with uid := l.uid + 1 } h' = some s₀ from hg, hg]
        simp only [Option.map_some]
        cases hx : handleOnToken k' with
        | true => rfl
        | false =>
          simp only [Bool.false_eq_true, if_false, List.map_cons, List.find?_cons]
          have : ((o.added l.uid 0 k).view.handle == k') = false := by
            simp only [beq_eq_false_iff_ne, ne_eq]
            exact fun h => hk' h.symm
          rw [this]
      · rw [hh, getSession_upd_ne (f := fun t => { t with objs := o.added l.uid 0 k :: t.objs }) (fun _ => rfl) he]
        rfl
    have h1 : look l h k = some none := by
      rw [look_eq, hg]
      simp only [Option.map_some, ht, Bool.false_eq_true, if_false, ho]
      rw [find_none_of_lt f1]
    refine ⟨h1, by rw [hu, if_pos rfl], hne, ?_⟩
    intro h' k' p hp
    by_cases hx : k' = k
    · subst hx
      rw [hu]
      split
      · rename_i he
        subst he
        rw [h1] at hp; cases hp
      · exact hp
    · rw [hne h' k' hx]; exact hp

end Verif
