import Verif.Proofs.Dates
import Verif.Proofs.Create

/-!
# The marks that say where an object comes from

`CKA_LOCAL` and `CKA_KEY_GEN_MECHANISM` of an object, and how the objects after a call
are related to those before it.
-/

namespace Verif

variable {e : Env}

/-- What an object says of its origin. -/
def Obj.mark (o : Obj) : Bool × Nat := (o.local', o.keyGenMech)

/-- With its handle. -/
def Obj.hm (o : Obj) : Nat × Bool × Nat := (o.handle, o.mark)

/-- The origin of an object that was not generated as part of a pair. -/
def plainMark : Bool × Nat := (false, unavailableInfo)

/-- Every object afterwards was there before, with the same handle in the same place and
with the same mark, or is new in the sense of `N`. -/
structure From (N : Nat × Bool × Nat → Prop) (l l' : Lib) : Prop where
  tok : ∀ x ∈ l'.token.objs.map Obj.hm, x ∈ l.token.objs.map Obj.hm ∨ N x
  sess : ∀ s ∈ l'.sessions, ∀ x ∈ s.objs.map Obj.hm,
    (∃ t ∈ l.sessions, t.handle = s.handle ∧ x ∈ t.objs.map Obj.hm) ∨ N x

variable {N : Nat × Bool × Nat → Prop}

theorem From.refl (l : Lib) : From N l l := ⟨fun _ h => .inl h, fun s hs _ hx => .inl ⟨s, hs, rfl, hx⟩⟩

theorem From.trans {a b c : Lib} (h1 : From N a b) (h2 : From N b c) : From N a c := by
  refine ⟨fun x hx => ?_, fun s hs x hx => ?_⟩
  · rcases h2.tok x hx with h | h
    · exact h1.tok x h
    · exact .inr h
  · rcases h2.sess s hs x hx with ⟨t, ht, e1, h⟩ | h
    · rcases h1.sess t ht x h with ⟨u, hu, e2, h⟩ | h
      · exact .inl ⟨u, hu, e2.trans e1, h⟩
      · exact .inr h
    · exact .inr h

theorem From.mono {M : Nat × Bool × Nat → Prop} {l l' : Lib} (h : From N l l') (hm : ∀ x, N x → M x) : From M l l' :=
  ⟨fun x hx => (h.tok x hx).imp id (hm x), fun s hs x hx => (h.sess s hs x hx).imp id (hm x)⟩

/-- The marks of the token's objects are the same, the sessions are. -/
theorem From.same {l l' : Lib} (h1 : l'.token.objs.map Obj.hm = l.token.objs.map Obj.hm)
    (h2 : l'.sessions = l.sessions) : From N l l' := by
  refine ⟨fun x hx => .inl (by rw [← h1]; exact hx), fun s hs x hx => .inl ⟨s, by rw [← h2]; exact hs, rfl, hx⟩⟩

theorem From.kept {l l' : Lib} (h : Kept l l') : From N l l' := by
  refine ⟨fun x hx => .inl (by rw [← h.tok]; exact hx), fun s hs x hx => .inl ?_⟩
  have : s.mine ∈ l.sessions.map Session.mine := by rw [← h.sess]; exact List.mem_map_of_mem hs
  obtain ⟨t, ht, hm⟩ := List.mem_map.mp this
  obtain ⟨m1, hm⟩ := Prod.mk.inj hm
  obtain ⟨_, m3⟩ := Prod.mk.inj hm
  exact ⟨t, ht, m1, by rw [m3]; exact hx⟩

theorem From.upd {l : Lib} {h : Nat} {f : Session → Session} (hf : ∀ t, (f t).mine = t.mine) : From N l (l.upd h f) :=
  .kept (.upd l h f hf)

/-! ## Marks are kept -/

theorem view_hm (o : Obj) : o.view.hm = o.hm := rfl

theorem map_hm_view (os : List Obj) : (os.map Obj.view).map Obj.hm = os.map Obj.hm := by
  rw [List.map_map]; rfl

theorem store_hm (e : Env) (l : Lib) : (Lib.store e l).1.token.objs.map Obj.hm = l.token.objs.map Obj.hm := by
  rw [← map_hm_view, store_view, map_hm_view]

theorem From.store (l : Lib) : From N l (Lib.store e l).1 := .same (store_hm e l) rfl

theorem encodeObj_hm (x : StoreExt) (k : Bytes) (p : Bool) (o : Obj) : (encodeObj x k p o).2.hm = o.hm := by
  have h1 : (encodeKey x k o).2.hm = o.hm := by
    unfold encodeKey
    repeat' split
    all_goals rfl
  have h2 : ∀ o : Obj, (cleared o).hm = o.hm := by
    intro o
    unfold cleared
    repeat' split
    all_goals rfl
  unfold encodeObj
  dsimp only
  repeat' split
  · rfl
  · exact (h2 _).trans h1
  · exact h1

theorem decodeObj_hm (x : StoreExt) (k : Bytes) (o : Obj) : (decodeObj x k o).2.hm = o.hm := by
  show (decodeKey x k o).2.hm = o.hm
  unfold decodeKey decodeRsa decodeEcc decodeDh decodeSymm decoded
  repeat' split
  all_goals rfl

theorem decodeAll_hm (x : StoreExt) (k : Bytes) (os : List Obj) : (decodeAll x k os).2.map Obj.hm = os.map Obj.hm := by
  induction os with
  | nil => rfl
  | cons a os ih =>
    simp only [decodeAll]
    split
    · simp only [List.map_cons, decodeObj_hm, ih]
    · simp only [List.map_cons, decodeObj_hm]

theorem encodeAll_hm (x : StoreExt) (k : Bytes) (os : List Obj) : (encodeAll x k os).map Obj.hm = os.map Obj.hm := by
  induction os with
  | nil => rfl
  | cons a os ih =>
    simp only [encodeAll]
    split
    · simp only [List.map_cons, encodeObj_hm, ih]
    · simp only [List.map_cons, encodeObj_hm]

theorem setAttributeValue_hm (x : KeyExt) (b : Bool) (o : Obj) (t : List Entry) :
    (setAttributeValue x b o t).2.hm = o.hm :=
  setAttributeValue_inv (P := fun p => p.hm = o.hm) x b o t
    (fun p v hp => by obtain ⟨d, z, h⟩ := setKey_frame x p v; rw [h]; exact hp)
    (fun p en _ hp => by
      have h := setAttr_rest p en
      have : (setAttr p en).2.hm = p.hm := by unfold Obj.hm Obj.mark; rw [h.handle, h.local', h.keyGenMech]
      exact this.trans hp) rfl

theorem hm_mark {o o' : Obj} (h : o'.hm = o.hm) : o'.mark = o.mark := (Prod.mk.inj h).2

theorem newObject_mark {s : Session} {typ cls : Nat} {t : List Entry} {rv : RV} {o : Obj}
    (h : newObject e s typ cls t = (rv, o)) : o.mark = plainMark := by
  have := hm_mark (setAttributeValue_hm e.key (s.use == .rw) { newObj 0 typ with cls } t)
  unfold newObject at h
  rw [h] at this
  exact this

theorem createObject_mark {s : Session} {t : List Entry} {o : Obj} (h : createObject e s t = (.ok, o)) :
    o.mark = plainMark := by
  unfold createObject at h
  split at h
  · rename_i hr
    exact absurd (congrArg Prod.fst h) (templClass_error hr)
  repeat' split at h
  all_goals first
    | exact newObject_mark h
    | (rename_i hr; exact absurd (congrArg Prod.fst h) (templUlong_error hr))
    | (exact absurd (congrArg Prod.fst h) RV.noConfusion)

theorem deriveTail_hm {x : KeyExt} {o o' : Obj} {b : Bytes} (h : (deriveTail x o b).obj = some o') : o'.hm = o.hm := by
  have hs : ∀ v, (setSecretKey o v).2.hm = o.hm := by
    intro v
    unfold setSecretKey
    repeat' split
    all_goals rfl
  unfold deriveTail at h
  split at h
  · cases h
  dsimp only at h
  split at h
  · cases h
  split at h
  · rename_i heq
    cases h
    have := hs (fun a => if a = .value then some (b.drop (b.length - ‹Nat›)) else none)
    rw [heq] at this
    exact this
  · cases h
  · cases h

/-- A generated pair is marked with the mechanism. -/
theorem pairGen_mark {n typ : Nat} {m : Mech} {gen} {pub₀ priv₀ pub priv : Obj}
    (h1 : pairGen e n m = some (typ, gen)) (h2 : gen pub₀ priv₀ = (.ok, pub, priv)) :
    pub.mark = (true, m.num) ∧ priv.mark = (true, m.num) := by
  unfold pairGen at h1
  split at h1
  · cases h1
    unfold rsaGenerate at h2
    dsimp only at h2
    repeat' split at h2
    all_goals cases h2
    all_goals exact ⟨rfl, rfl⟩
  · cases h1
    unfold ecGenerate at h2
    repeat' split at h2
    all_goals cases h2
    exact ⟨rfl, rfl⟩
  · cases h1
    unfold dhGenerate at h2
    dsimp only at h2
    split at h2
    · cases h2
    cases h2
    exact ⟨rfl, rfl⟩
  · cases h1

/-! ## What each call does -/

/-- Objects that say they were not generated. -/
abbrev Plain (x : Nat × Bool × Nat) : Prop := x.2 = plainMark

theorem from_sessAdd {l l' : Lib} {s : Session} {on k : Nat} {o : Obj}
    (h : sessAddObject e l s on o = (l', some k)) : From (fun x => x = (k, o.mark)) l l' := by
  obtain ⟨_, h⟩ := sessAdd_some h
  rcases h with ⟨_, _, _, h1, h2⟩ | ⟨_, _, _, rfl⟩
  · refine ⟨fun x hx => ?_, fun t ht x hx => .inl ⟨t, by rw [← h2]; exact ht, rfl, hx⟩⟩
    rw [← map_hm_view, h1] at hx
    simp only [List.map_cons, map_hm_view] at hx
    rcases List.mem_cons.mp hx with rfl | hx
    · exact .inr rfl
    · exact .inl hx
  · refine ⟨fun x hx => .inl hx, fun t ht x hx => ?_⟩
    obtain ⟨u, hu, rfl⟩ := List.mem_map.mp ht
    dsimp only at hx ⊢
    split at hx
    · rename_i hh
      simp only [List.map_cons] at hx
      rcases List.mem_cons.mp hx with rfl | hx
      · exact .inr rfl
      · refine .inl ⟨u, hu, ?_, hx⟩
        rw [if_pos hh]
    · rename_i hh
      refine .inl ⟨u, hu, ?_, hx⟩
      rw [if_neg hh]

theorem from_sessAdd_plain {l l' : Lib} {s : Session} {on : Nat} {r : Option Nat} {o : Obj} (ho : o.mark = plainMark)
    (h : sessAddObject e l s on o = (l', r)) : From Plain l l' := by
  cases r with
  | none => rw [sessAdd_none h]; exact .refl l
  | some k => exact (from_sessAdd h).mono fun x hx => by rw [hx]; exact ho

theorem from_addObject {l : Lib} {s : Session} (t : List Entry) {o : Obj} (ho : o.mark = plainMark) :
    From Plain l (addObject e l s t o).1 := by
  unfold addObject
  split
  · exact .refl l
  · split <;> (rename_i heq; exact from_sessAdd_plain ho heq)

theorem from_logout (l : Lib) : From N l (logout e l) := by
  unfold logout
  refine .same ?_ rfl
  dsimp only
  split
  · exact encodeAll_hm ..
  · rfl

theorem from_setSoPin (l : Lib) (p : Bytes) : From N l (setSoPin e l p).1 := by
  unfold setSoPin
  exact .same (store_hm ..) rfl

theorem from_setUserPin (l : Lib) (p : Bytes) : From N l (setUserPin e l p).1 := by
  unfold setUserPin
  exact .same (store_hm ..) rfl

theorem from_login (l : Lib) (u : UserType) (pin : Option Bytes) (now : Int) : From N l (login e l u pin now).1 := by
  unfold login
  split; · exact .refl l
  split; · exact .refl l
  split
  · unfold soLogin
    dsimp only
    repeat' split
    all_goals exact .same rfl rfl
  · unfold userLogin
    dsimp only
    split; · exact .refl l
    split; · exact .refl l
    split
    · exact .same rfl rfl
    · exact .same rfl rfl
    · split <;> exact .same (decodeAll_hm ..) rfl
  · exact .refl l
  · exact .refl l

theorem from_initPin (l : Lib) (s : Session) (p : Option Bytes) : From N l (initPin e l s p).1 := by
  unfold initPin
  repeat' split
  all_goals first | exact .refl l | exact from_setUserPin l _

theorem from_setPin (l : Lib) (s : Session) (o n : Option Bytes) : From N l (setPin e l s o n).1 := by
  unfold setPin
  repeat' split
  all_goals first | exact .refl l | exact from_setSoPin l _ | exact from_setUserPin l _

theorem from_cCreate (l : Lib) (s : Session) (t : Option (List Entry)) (p : Bool) : From Plain l (cCreate e l s t p).1 := by
  unfold cCreate
  split; · exact .refl l
  split; · exact .refl l
  split; · exact .refl l
  split
  · rename_i heq; exact from_addObject _ (createObject_mark heq)
  · exact .refl l

theorem from_cCopy (l : Lib) (s : Session) (k : Nat) (t : Option (List Entry)) (p : Bool) :
    From Plain l (cCopy e l s k t p).1 := by
  unfold cCopy
  split; · exact .refl l
  split; · exact .refl l
  split; · exact .refl l
  split; · exact .refl l
  split; · exact .refl l
  dsimp only
  split; · exact .refl l
  split; · exact .refl l
  split <;> (rename_i heq; exact from_sessAdd_plain (hm_mark (setAttributeValue_hm ..)) heq)

theorem from_cDestroy (l : Lib) (s : Session) (k : Nat) : From N l (cDestroy e l s k).1 := by
  unfold cDestroy
  split; · exact .refl l
  split; · exact .refl l
  split
  · split
    · unfold removeToken
      dsimp only
      refine ⟨fun x hx => .inl ?_, fun t ht x hx => .inl ⟨t, ht, rfl, hx⟩⟩
      rw [store_hm] at hx
      obtain ⟨q, hq, rfl⟩ := List.mem_map.mp hx
      exact List.mem_map_of_mem (List.mem_filter.mp hq).1
    · exact .same rfl rfl
  · refine ⟨fun x hx => .inl hx, fun t ht x hx => .inl ?_⟩
    obtain ⟨u, hu, rfl⟩ := List.mem_map.mp ht
    refine ⟨u, hu, ?_, ?_⟩
    · dsimp only; split <;> rfl
    · split at hx
      · obtain ⟨q, hq, rfl⟩ := List.mem_map.mp hx
        exact List.mem_map_of_mem (List.mem_filter.mp hq).1
      · exact hx

theorem from_cSetAttr {l : Lib} {s : Session} (hs : s ∈ l.sessions) (k : Nat) (t : Option (List Entry)) :
    From N l (cSetAttr e l s k t).1 := by
  unfold cSetAttr
  split; · exact .refl l
  split; · exact .refl l
  split; · exact .refl l
  rename_i o ho
  dsimp only
  have key : ∀ (q : Obj) (os : List Obj), ∀ x ∈ (replObj q os).map Obj.hm, x = q.hm ∨ x ∈ os.map Obj.hm := by
    intro q os x hx
    obtain ⟨p, hp, rfl⟩ := List.mem_map.mp hx
    obtain ⟨a, ha, rfl⟩ := List.mem_map.mp hp
    split
    · exact .inl rfl
    · exact .inr (List.mem_map_of_mem ha)
  have hm := List.mem_of_find?_eq_some (show ((if handleOnToken k then l.token.objs else s.objs).find?
    fun o => o.handle == k) = some o from ho)
  unfold putObj
  split
  · rename_i hk
    rw [if_pos hk] at hm
    refine ⟨fun x hx => .inl ?_, fun t ht x hx => .inl ⟨t, ht, rfl, hx⟩⟩
    rcases key _ _ x hx with rfl | h
    · rw [setAttributeValue_hm]; exact List.mem_map_of_mem hm
    · exact h
  · rename_i hk
    rw [if_neg hk] at hm
    refine ⟨fun x hx => .inl hx, fun t ht x hx => .inl ?_⟩
    obtain ⟨u, hu, rfl⟩ := List.mem_map.mp ht
    dsimp only at hx ⊢
    split at hx
    · rename_i hh
      rw [if_pos hh]
      rcases key _ _ x hx with rfl | h
      · exact ⟨s, hs, hh.symm, by rw [setAttributeValue_hm]; exact List.mem_map_of_mem hm⟩
      · exact ⟨u, hu, rfl, h⟩
    · rename_i hh
      rw [if_neg hh]
      exact ⟨u, hu, rfl, hx⟩

theorem from_cFindInit (l : Lib) (s : Session) (t : Option (List Entry)) : From N l (cFindInit e l s t).1 := by
  unfold cFindInit
  dsimp only
  repeat' split
  all_goals first | exact .refl l | exact .upd (by intro _; rfl)

theorem from_cFindNext (l : Lib) (s : Session) (p : Bool) (n : Nat) : From N l (cFindNext l s p n).1 := by
  unfold cFindNext
  dsimp only
  split
  · exact .refl l
  · exact .upd (by intro _; rfl)

theorem from_cCryptInit (l : Lib) (s : Session) (k : Kind) (m : Option (Mech × MechParam)) (key : Nat) :
    From N l (cCryptInit e l s k m key).1 := by
  unfold cCryptInit
  dsimp only
  repeat' split
  all_goals first | exact .refl l | exact .upd (by intro _; rfl)

theorem from_cCrypt (l : Lib) (s : Session) (c : DataCall) : From N l (cCrypt e l s c).1 := by
  unfold cCrypt
  dsimp only
  repeat' split
  all_goals first | exact .refl l | exact .upd (by intro _; rfl)

theorem from_cGenKey (l : Lib) (s : Session) (m : Option (Mech × MechParam)) (t : Option (List Entry)) (p : Bool) :
    From Plain l (cGenKey e l s m t p).1 := by
  unfold cGenKey
  split
  rotate_left; · exact .refl l
  split; · exact .refl l
  split; · exact .refl l
  split; · exact .refl l
  split
  · rename_i heq
    have h1 : From Plain l { l with rng := l.rng + 1 } := .same rfl rfl
    have hm := newObject_mark heq
    exact h1.trans (from_addObject _ hm)
  · exact .refl l

theorem from_cWrap (l : Lib) (s : Session) (m : Option (Mech × MechParam)) (wk key : Nat) (ob : OutBuf) :
    From N l (cWrap e l s m wk key ob).1 := by
  unfold cWrap
  dsimp only
  repeat' split
  all_goals first | exact .refl l | exact .upd (by intro _; rfl)

theorem from_addRsaPrivate (l : Lib) (s : Session) (t : List Entry) (d : Bytes) :
    From Plain l (addRsaPrivate e l s t d).1 := by
  unfold addRsaPrivate
  split
  · rename_i heq
    split
    · exact .refl l
    · have hm := newObject_mark heq
      exact from_addObject _ hm
  · exact .refl l

theorem from_cUnwrap (l : Lib) (s : Session) (m : Option (Mech × MechParam)) (wk : Nat)
    (d : Option Bytes) (t : Option (List Entry)) (p : Bool) : From Plain l (cUnwrap e l s m wk d t p).1 := by
  unfold cUnwrap
  dsimp only
  repeat' split
  all_goals first
    | exact .refl l
    | exact .upd (by intro _; rfl)
    | exact .trans (.upd (by intro _; rfl)) (from_addRsaPrivate _ _ _ _)

theorem from_cDerive (l : Lib) (s : Session) (m : Option DeriveMech) (b : Nat) (t : Option (List Entry)) (p : Bool) :
    From Plain l (cDerive e l s m b t p).1 := by
  unfold cDerive
  split
  rotate_left; · exact .refl l
  split; · exact .refl l
  split; · exact .refl l
  split; · exact .refl l
  split
  · rename_i heq
    dsimp only
    split
    · exact .refl l
    · rename_i ho
      exact from_addObject _ ((hm_mark (deriveTail_hm ho)).trans (createObject_mark heq))
  · exact .refl l

/-- What a call makes: nothing but plain objects, or the pair whose handles it returns. -/
def NewOf (c : Call) (r : Resp) (x : Nat × Bool × Nat) : Prop :=
  Plain x ∨ ∃ h m p tp tq, c = .sess h (.genPair (some (m, p)) (some tp) (some tq) true) ∧ r.rv = .ok ∧ x.2 = (true, m.num) ∧
    (r.handle = some x.1 ∨ r.priv = some x.1)

theorem from_addPair {l : Lib} {s : Session} (tp tq : List Entry) {a b : Obj} {m : Mech} (ha : a.mark = (true, m.num))
    (hb : b.mark = (true, m.num)) (hg : (addPair e l s tp tq a b).1.bad = false)
    (hu : (addPair e l s tp tq a b).2.rv ≠ .ub) :
    From (fun x => (addPair e l s tp tq a b).2.rv = .ok ∧ x.2 = (true, m.num) ∧
      ((addPair e l s tp tq a b).2.handle = some x.1 ∨ (addPair e l s tp tq a b).2.priv = some x.1)) l
      (addPair e l s tp tq a b).1 := by
  unfold addPair at hg hu ⊢
  dsimp only at hg hu ⊢
  have hc : ∀ (l₀ : Lib) (s : Session) (t : List Entry) (o : Obj), ((addObject e l₀ s t o).2.rv ≠ .ok ∧ (addObject e l₀ s t o).1 = l₀) ∨
    ∃ on k l', sessAddObject e l₀ s on o = (l', some k) ∧ addObject e l₀ s t o = (l', { rv := .ok, handle := some k }) := by
    intro l₀ s t o
    rcases addObject_cases (e := e) (ok := fun _ => True) l₀ s t o (fun _ _ => trivial) with ⟨g1, _, _, g2⟩ | ⟨on, k, l', _, g2, g3⟩
    · exact .inl ⟨g1, g2⟩
    · exact .inr ⟨on, k, l', g2, g3⟩
  rcases hc l s tp a with ⟨g1, g2⟩ | ⟨on, k, l1, g2, g3⟩
  · rw [if_pos g1, g2]
    exact .refl l
  · rw [g3] at hg hu ⊢
    dsimp only at hg hu ⊢
    rw [if_neg (by simp)] at hg hu ⊢
    split at hu
    · exact absurd rfl hu
    · rename_i s1 hf
      try rw [hf] at hg
      dsimp only at hg ⊢
      rcases hc l1 s1 tq b with ⟨f1, f2⟩ | ⟨on', k', l2, f2, f3⟩
      · rw [if_pos f1] at hg
        cases hg
      · rw [f3]
        dsimp only
        rw [if_neg (by simp)]
        refine .trans ((from_sessAdd g2).mono ?_) ((from_sessAdd f2).mono ?_)
        · rintro x rfl
          exact ⟨rfl, ha, .inl rfl⟩
        · rintro x rfl
          exact ⟨rfl, hb, .inr rfl⟩

theorem from_cGenPair (h : Nat) {l : Lib} (s : Session) (m : Option (Mech × MechParam)) (tp tq : Option (List Entry)) (p : Bool)
    (hg : (cGenPair e l s m tp tq p).1.bad = false) (hu : (cGenPair e l s m tp tq p).2.rv ≠ .ub) :
    From (NewOf (.sess h (.genPair m tp tq p)) (cGenPair e l s m tp tq p).2) l (cGenPair e l s m tp tq p).1 := by
  unfold cGenPair at hg hu ⊢
  split
  rotate_left; · exact .refl l
  dsimp only at hg hu
  split
  · exact .refl l
  rename_i hp
  rw [if_neg hp] at hg hu
  have hp : p = true := by simpa using hp
  subst hp
  split
  · exact .refl l
  rename_i heq
  rw [heq] at hg hu
  dsimp only at hg hu
  split
  · exact .refl l
  rename_i hn
  rw [if_neg hn] at hg hu
  split
  rotate_left; · exact .refl l
  rename_i h1
  rw [h1] at hg hu
  dsimp only at hg hu
  split
  rotate_left; · exact .refl l
  rename_i h2
  rw [h2] at hg hu
  dsimp only at hg hu
  split
  · rename_i h3
    rw [h3] at hg hu
    dsimp only at hg hu
    obtain ⟨m1, m2⟩ := pairGen_mark heq h3
    refine .trans (b := { l with rng := l.rng + 1 }) (.same rfl rfl) ((from_addPair _ _ m1 m2 hg hu).mono ?_)
    rintro x ⟨x1, x2, x3⟩
    exact .inr ⟨h, _, _, _, _, rfl, x1, x2, x3⟩
  · exact .refl l
  · exact .same rfl rfl

theorem from_sub {l : Lib} {ss : List Session}
    (hs : ∀ s ∈ ss, s.objs = [] ∨ ∃ t ∈ l.sessions, t.handle = s.handle ∧ s.objs = t.objs) : From N l { l with sessions := ss } := by
  refine ⟨fun x hx => .inl hx, fun s hm x hx => ?_⟩
  rcases hs s hm with h1 | ⟨t, ht, h2, h1⟩
  · rw [h1] at hx; cases hx
  · exact .inl ⟨t, ht, h2, by rw [← h1]; exact hx⟩

theorem from_closeSession {l : Lib} (hi : SInv l) (k : Nat) : From N l (closeSession e l k).1 := by
  have hid : ∀ s ∈ l.sessions, s.use = .no → s.objs = [] := fun s hs h => (hi.idle s hs h).1
  have h1 : From N l { l with sessions := closeOne l.sessions k } := by
    refine from_sub ?_
    intro s' hs'
    unfold closeOne at hs'
    split at hs'
    · cases hs'
    · rename_i a as heq
      split at hs'
      · refine .inr ⟨s', ?_, rfl, rfl⟩
        rw [heq]
        exact List.mem_cons_of_mem _ (mem_dropUnused hs')
      · obtain ⟨t, ht, rfl⟩ := List.mem_map.mp hs'
        split
        · exact .inl (sessFinal_objs (hid t (heq ▸ ht)))
        · exact .inr ⟨t, heq ▸ ht, rfl, rfl⟩
  unfold closeSession
  dsimp only
  split
  · exact h1
  · exact h1.trans (from_logout _)

theorem from_sessCall {l : Lib} (hi : SInv l) (h : Nat) {s : Session} (hs : s ∈ l.sessions) (c : SessCall)
    (hg : (sessCall e l s c).1.bad = false) (hu : (sessCall e l s c).2.rv ≠ .ub) :
    From (NewOf (.sess h c) (sessCall e l s c).2) l (sessCall e l s c).1 := by
  have hp : ∀ {x : Nat × Bool × Nat}, Plain x → NewOf (.sess h c) (sessCall e l s c).2 x := .inl
  cases c with
  | close => exact from_closeSession hi _
  | info p => simp only [sessCall]; split <;> exact .refl l
  | login u p n => exact from_login l u p n
  | logout => exact from_logout l
  | initPin p => exact from_initPin l s p
  | setPin o n => exact from_setPin l s o n
  | create t p => exact (from_cCreate l s t p).mono fun _ => hp
  | copy o t p => exact (from_cCopy l s o t p).mono fun _ => hp
  | destroy o => exact from_cDestroy l s o
  | size o p => simp only [sessCall]; repeat' split
                all_goals exact .refl l
  | getAttr o t => simp only [sessCall, cGetAttr]; repeat' split
                   all_goals exact .refl l
  | setAttr o t => exact from_cSetAttr hs o t
  | findInit t => exact from_cFindInit l s t
  | findNext p n => exact from_cFindNext l s p n
  | findFinal => exact .upd (by intro _; rfl)
  | cryptInit k m key => exact from_cCryptInit l s k m key
  | crypt c => exact from_cCrypt l s c
  | genKey m t p => exact (from_cGenKey l s m t p).mono fun _ => hp
  | genPair m a b p => exact from_cGenPair h s m a b p hg hu
  | wrap m a b o => exact from_cWrap l s m a b o
  | unwrap m w d t p => exact (from_cUnwrap l s m w d t p).mono fun _ => hp
  | derive m b t p => exact (from_cDerive l s m b t p).mono fun _ => hp
  | random p n => simp only [sessCall, cRandom]; repeat' split
                  all_goals exact .same rfl rfl

/-- **Where objects come from**: after any call but `C_Initialize`, every object was there
before under the same handle and with the same mark, or is plain, or is one of the pair
whose handles the call returned. -/
theorem from_callBody {l : Lib} (hi : SInv l) (c : Call) (hc : c ≠ .cInit) (hg : (callBody e l c).1.bad = false)
    (hu : (callBody e l c).2.rv ≠ .ub) : From (NewOf c (callBody e l c).2) l (callBody e l c).1 := by
  have hid : ∀ s ∈ l.sessions, s.use = .no → s.objs = [] := fun s hs h => (hi.idle s hs h).1
  cases c with
  | cInit => exact absurd rfl hc
  | cFinal =>
    simp only [callBody, cFinalize]
    split
    · exact ⟨(fun o ho => by cases ho), (fun s hs => by cases hs)⟩
    · exact .same rfl rfl
  | slot id c =>
    simp only [callBody]
    split; · exact .refl l
    split; · exact .refl l
    cases c with
    | tokenInfo p n => simp only [slotCall]; split <;> exact .refl l
    | initToken p lab =>
      simp only [slotCall, initToken]
      repeat' split
      all_goals first | exact .refl l | skip
      exact ⟨(fun x hx => by rcases (from_setSoPin (e := e) (N := fun _ => False) _ _).tok x hx with h | h <;> cases h),
        fun s hs x hx => .inl ⟨s, hs, rfl, hx⟩⟩
    | closeAll =>
      refine from_sub ?_
      intro s' hs'
      dsimp only [closeAll] at hs'
      split at hs'
      · cases hs'
      · rename_i a as heq
        have hm : ∀ t ∈ a :: as, t ∈ l.sessions := fun t ht => mem_closeDown (heq ▸ ht)
        rcases List.mem_cons.mp hs' with rfl | hs'
        · exact .inl (sessFinal_objs (hid a (hm a List.mem_cons_self)))
        · exact .inr ⟨s', hm s' (List.mem_cons_of_mem _ hs'), rfl, rfl⟩
    | openSession rw2 serial ptr =>
      simp only [slotCall, openSession]
      split; · exact .refl l
      split; · exact .refl l
      split; · exact .refl l
      split
      · refine ⟨fun x hx => .inl hx, fun s hs x hx => .inl ?_⟩
        obtain ⟨t, ht, rfl⟩ := List.mem_map.mp hs
        refine ⟨t, ht, ?_, ?_⟩
        · dsimp only; split <;> rfl
        · split at hx <;> exact hx
      split; · exact .refl l
      split
      · rename_i a as hadd
        have ha : a.objs = [] ∧ as = l.sessions := by
          unfold addSession at hadd
          split at hadd
          · rename_i h
            obtain ⟨rfl, rfl⟩ := List.cons.inj hadd
            exact ⟨rfl, h.symm⟩
          · obtain ⟨rfl, rfl⟩ := List.cons.inj hadd
            exact ⟨rfl, rfl⟩
        refine ⟨fun x hx => .inl hx, fun s hs x hx => .inl ?_⟩
        rcases List.mem_cons.mp hs with rfl | hs
        · have hx : x ∈ a.objs.map Obj.hm := hx
          rw [ha.1] at hx; cases hx
        · exact ⟨s, ha.2 ▸ hs, rfl, hx⟩
      · exact .refl l
  | sess k c =>
    simp only [callBody] at hg hu ⊢
    split
    · exact .refl l
    rename_i hn
    rw [if_neg hn] at hg hu
    cases hs : getSession l k with
    | none => exact .refl l
    | some s =>
      rw [hs] at hg hu
      exact from_sessCall hi k (getSession_handle hs).2.2 c hg hu

end Verif
