import Verif.Spec.Alloc
import Verif.Proofs.Find
import Verif.Props.Find
import Verif.Props.Objs
import Verif.Props.Restart
import Verif.Props.Pair
import Verif.Props.Lasting
import Verif.Props.InitParam

/-!
# C110, C111: memory that runs out
-/

namespace Verif

variable {e : Env}

theorem Plenty.tail {a : Mem} (h : Plenty a) : Plenty a.tail := fun b hb => h b (List.mem_of_mem_tail hb)

theorem Plenty.ok {a : Mem} (h : Plenty a) : memOk a = true := by
  cases a with
  | nil => rfl
  | cons b a => exact h b List.mem_cons_self

theorem Plenty.not {a : Mem} (h : Plenty a) : memOk a ≠ false := by rw [h.ok]; exact fun h => by cases h

/-- The outcome is the one with enough memory. -/
structure SetM.Usual (r : SetM) (q : RV × Obj) : Prop where
  rv : r.rv = q.1
  obj : r.obj = q.2
  hole : r.hole = false

/-- The outcome is the usual one, or a refusal; with enough memory the usual one. -/
structure SetM.Good (a : Mem) (r : SetM) (q : RV × Obj) : Prop where
  or : r.Usual q ∨ r.rv = .deviceMemory ∨ r.rv = .functionFailed
  enough : Plenty a → r.Usual q ∧ Plenty r.left

theorem SetM.Good.same {a : Mem} {rv : RV} {o : Obj} :
    SetM.Good a { rv, obj := o, left := a } (rv, o) := ⟨.inl ⟨rfl, rfl, rfl⟩, fun h => ⟨⟨rfl, rfl, rfl⟩, h⟩⟩

theorem SetM.Good.ok {a : Mem} {r : SetM} {q : RV × Obj} (h : r.Good a q) (hr : r.rv = .ok) : r.Usual q := by
  rcases h.or with h | h | h
  · exact h
  · rw [hr] at h; cases h
  · rw [hr] at h; cases h

theorem setAttrsM_good (o : Obj) (t : List Entry) (a : Mem) : (setAttrsM o t a).Good a (setAttrs o t) := by
  induction t generalizing o a with
  | nil => exact .same
  | cons en t ih =>
    simp only [setAttrsM, setAttrs]
    split
    · rename_i h
      exact ⟨.inr (.inr rfl), fun hp => absurd h.2 hp.not⟩
    · have hp' : Plenty a → Plenty (if ownMem en.typ = true then a.tail else a) := by
        intro hp; split
        · exact hp.tail
        · exact hp
      generalize (if ownMem en.typ = true then a.tail else a) = a' at hp'
      split <;> rename_i hr
      · simp only [hr]
        exact ⟨(ih (setAttr o en).2 a').or, fun hp => (ih (setAttr o en).2 a').enough (hp' hp)⟩
      all_goals
        (try simp only [hr])
        exact ⟨.inl ⟨rfl, rfl, rfl⟩, fun hp => ⟨⟨rfl, rfl, rfl⟩, hp' hp⟩⟩

theorem setAttributeValueM_good (x : KeyExt) (rw : Bool) (o : Obj) (t : List Entry) (a : Mem) :
    (setAttributeValueM x rw o t a).Good a (setAttributeValue x rw o t) := by
  unfold setAttributeValueM setAttributeValue
  split
  · exact .same
  · dsimp only
    split
    · exact .same
    · cases hk : keyParams o with
      | none => exact .same
      | some ps =>
        dsimp only
        split
        · exact .same
        · cases hr : (setKey x o (keyVals t)).1
          case ok => exact setAttrsM_good _ _ _
          all_goals exact .same

theorem newObjectM_good (s : Session) (typ cls : Nat) (t : List Entry) (a : Mem) :
    (newObjectM e s typ cls t a).Good a (newObject e s typ cls t) := by
  unfold newObjectM newObject
  split
  · rename_i h
    have := setAttributeValueM_good e.key (s.use == .rw) { newObj 0 typ with cls } t a.tail
    exact ⟨this.or, fun hp => this.enough hp.tail⟩
  · rename_i h
    exact ⟨.inr (.inl rfl), fun hp => absurd hp.ok h⟩

theorem createObjectM_good (s : Session) (t : List Entry) (a : Mem) :
    (createObjectM e s t a).Good a (createObject e s t) := by
  unfold createObjectM createObject
  cases templClass t with
  | error rv => exact .same
  | ok cls =>
    dsimp only
    split
    · cases templUlong t .certificateType with
      | error rv => exact .same
      | ok typ =>
        dsimp only
        split
        · exact newObjectM_good _ _ _ _ _
        · exact .same
    · cases templUlong t .keyType with
      | error rv => exact .same
      | ok typ =>
        dsimp only
        split
        · exact newObjectM_good _ _ _ _ _
        · exact .same

theorem encodeObjM_false (x : StoreExt) (key : Bytes) (o : Obj) (a : Mem) :
    ((encodeObjM x key false o a).1 = false ∨ ((encodeObjM x key false o a).1, (encodeObjM x key false o a).2.1) = encodeObj x key false o) ∧
    (Plenty a → ((encodeObjM x key false o a).1, (encodeObjM x key false o a).2.1) = encodeObj x key false o ∧
      Plenty (encodeObjM x key false o a).2.2) := by
  unfold encodeObjM encodeObj
  split
  · exact ⟨.inr rfl, fun h => ⟨rfl, h⟩⟩
  · dsimp only
    have hk : encodeKey x key o = ((encodeKey x key o).1, (encodeKey x key o).2) := rfl
    split
    · rename_i h1
      split
      · refine ⟨.inr ?_, fun h => ⟨?_, h.tail⟩⟩ <;> · simp only [Bool.false_eq_true, false_and, if_false]; rw [hk, h1]
      · rename_i h
        exact ⟨.inl rfl, fun hp => absurd hp.ok h⟩
    · rename_i h1
      have h1 : (encodeKey x key o).1 = false := by simpa using h1
      refine ⟨.inl rfl, fun h => ⟨?_, h⟩⟩
      simp only [Bool.false_eq_true, false_and, if_false]
      rw [hk, h1]

/-- Adding an object: the usual result, or the object is refused and nothing changes. -/
theorem sessAddObjectM_good (l : Lib) (s : Session) (on : Nat) (o : Obj) (a : Mem) :
    (((sessAddObjectM e l s on o a).1, (sessAddObjectM e l s on o a).2.1) = sessAddObject e l s on o ∨
      ((sessAddObjectM e l s on o a).1 = l ∧ (sessAddObjectM e l s on o a).2.1 = none)) ∧
    (Plenty a ∨ on = 0 → ((sessAddObjectM e l s on o a).1, (sessAddObjectM e l s on o a).2.1) = sessAddObject e l s on o) ∧
    (Plenty a → Plenty (sessAddObjectM e l s on o a).2.2) := by
  unfold sessAddObjectM sessAddObject
  dsimp only
  split
  · rename_i hon
    split
    · exact ⟨.inl rfl, fun _ => rfl, id⟩
    · obtain ⟨h1, h2⟩ := encodeObjM_false e.store l.token.key { o with onToken := decide (on % 2 = 1), uid := l.uid } a
      have same : ((encodeObjM e.store l.token.key false { o with onToken := decide (on % 2 = 1), uid := l.uid } a).1,
          (encodeObjM e.store l.token.key false { o with onToken := decide (on % 2 = 1), uid := l.uid } a).2.1) =
          encodeObj e.store l.token.key false { o with onToken := decide (on % 2 = 1), uid := l.uid } →
          (encodeObj e.store l.token.key false { o with onToken := decide (on % 2 = 1), uid := l.uid }).1 =
            (encodeObjM e.store l.token.key false { o with onToken := decide (on % 2 = 1), uid := l.uid } a).1 ∧
          (encodeObj e.store l.token.key false { o with onToken := decide (on % 2 = 1), uid := l.uid }).2 =
            (encodeObjM e.store l.token.key false { o with onToken := decide (on % 2 = 1), uid := l.uid } a).2.1 := by
        intro h; rw [← h]; exact ⟨rfl, rfl⟩
      split
      · rename_i hr
        have hs := same (h1.resolve_left (by rw [hr]; exact fun h => by cases h))
        rw [if_pos (by rw [hs.1, hr]), hs.2]
        exact ⟨.inl rfl, fun _ => rfl, fun hp => (h2 hp).2⟩
      · rename_i hr
        refine ⟨.inr ⟨rfl, rfl⟩, fun hp => ?_, fun hp => (h2 hp).2⟩
        rcases hp with hp | hp
        · rw [if_neg (by rw [(same (h2 hp).1).1]; exact hr)]
        · exact absurd hp hon
  · split
    · exact ⟨.inl rfl, fun _ => rfl, id⟩
    · exact ⟨.inl rfl, fun _ => rfl, id⟩

theorem addObjectM_good (l : Lib) (s : Session) (t : List Entry) (o : Obj) (a : Mem) :
    (((addObjectM e l s t o a).1, (addObjectM e l s t o a).2.1) = addObject e l s t o ∨
      ((addObjectM e l s t o a).1 = l ∧ (addObjectM e l s t o a).2.1 = { rv := .functionFailed })) ∧
    (Plenty a ∨ tokenByte t 0 = .ok 0 → ((addObjectM e l s t o a).1, (addObjectM e l s t o a).2.1) = addObject e l s t o) ∧
    (Plenty a → Plenty (addObjectM e l s t o a).2.2) := by
  unfold addObjectM addObject
  cases hon : tokenByte t 0 with
  | error rv => exact ⟨.inl rfl, fun _ => rfl, id⟩
  | ok on =>
    dsimp only
    obtain ⟨h1, h2, h3⟩ := sessAddObjectM_good (e := e) l s on o a
    generalize sessAddObjectM e l s on o a = r at *
    obtain ⟨l', h, a'⟩ := r
    cases h with
    | none =>
      refine ⟨?_, fun hp => ?_, h3⟩
      · rcases h1 with h1 | h1
        · simp only [← h1]; exact .inl trivial
        · exact .inr ⟨h1.1, rfl⟩
      · have := h2 (hp.imp_right fun h => Except.ok.inj h)
        simp only [← this]
    | some n =>
      refine ⟨?_, fun hp => ?_, h3⟩
      · rcases h1 with h1 | h1
        · simp only [← h1]; exact .inl trivial
        · cases h1.2
      · have := h2 (hp.imp_right fun h => Except.ok.inj h)
        simp only [← this]

/-- The usual result, or a refusal that changes nothing but the random generator. -/
def Spared (l : Lib) (r q : Lib × Resp) : Prop :=
  r = q ∨ ((r.2.rv = .deviceMemory ∨ r.2.rv = .functionFailed) ∧ r.1 = { l with rng := r.1.rng })

theorem Spared.rfl {l : Lib} {r : Lib × Resp} : Spared l r r := .inl (Eq.refl r)

/-- An object is made, then something is done with it. -/
theorem made_good {a : Mem} {n : SetM} {q : RV × Obj} (hg : n.Good a q) {l : Lib} {r : Lib × Resp} {k : Obj → Lib × Resp}
    {b : RV → Lib × Resp} (hb : ∀ rv, (b rv).1 = l ∧ (b rv).2.rv = rv) (hk : Spared l r (k n.obj))
    (hp : Plenty n.left → r = k n.obj) :
    Spared l (if n.rv ≠ .ok then b n.rv else r) (if q.1 ≠ .ok then b q.1 else k q.2) ∧
    (Plenty a → (if n.rv ≠ .ok then b n.rv else r) = (if q.1 ≠ .ok then b q.1 else k q.2)) := by
  have hu : n.Usual q → Spared l (if n.rv ≠ .ok then b n.rv else r) (if q.1 ≠ .ok then b q.1 else k q.2) ∧
      (Plenty n.left → (if n.rv ≠ .ok then b n.rv else r) = (if q.1 ≠ .ok then b q.1 else k q.2)) := by
    intro h
    rw [← h.rv, ← h.obj]
    split
    · exact ⟨.rfl, fun _ => rfl⟩
    · exact ⟨hk, hp⟩
  refine ⟨?_, fun h => (hu (hg.enough h).1).2 (hg.enough h).2⟩
  rcases hg.or with h | h
  · exact (hu h).1
  · have hn : n.rv ≠ .ok := by rcases h with h | h <;> rw [h] <;> exact fun h => by cases h
    rw [if_pos hn]
    exact .inr ⟨by rw [(hb n.rv).2]; exact h, by rw [(hb n.rv).1]⟩

theorem addObjectM_spared (l l' : Lib) (hl : l' = { l with rng := l'.rng }) (s : Session) (t : List Entry) (o : Obj) (a : Mem) :
    Spared l ((addObjectM e l' s t o a).1, (addObjectM e l' s t o a).2.1) (addObject e l' s t o) := by
  refine (addObjectM_good (e := e) l' s t o a).1.imp id fun h => ⟨.inr (by rw [h.2]), ?_⟩
  dsimp only
  rw [h.1]
  exact hl

theorem cCreate_if (l : Lib) (s : Session) (t : List Entry) (q : RV × Obj) :
    (match q with
      | (.ok, o) => addObject e l s t o
      | (rv, _) => (l, { rv })) = (if q.1 ≠ .ok then (l, { rv := q.1 }) else addObject e l s t q.2) := by
  obtain ⟨qr, qo⟩ := q
  cases qr <;> rfl

theorem cCreateM_good (l : Lib) (s : Session) (t : Option (List Entry)) (ptr : Bool) (a : Mem) :
    Spared l (cCreateM e l s t ptr a) (cCreate e l s t ptr) ∧
    (Plenty a → cCreateM e l s t ptr a = cCreate e l s t ptr) := by
  unfold cCreateM cCreate
  cases t with
  | none => exact ⟨.rfl, fun _ => rfl⟩
  | some t =>
    simp only
    split
    · exact ⟨.rfl, fun _ => rfl⟩
    split
    · exact ⟨.rfl, fun _ => rfl⟩
    have := made_good (createObjectM_good (e := e) s t a) (l := l) (k := fun o => addObject e l s t o)
      (b := fun rv => (l, { rv })) (fun _ => ⟨rfl, rfl⟩) (addObjectM_spared l l rfl s t _ (createObjectM e s t a).left)
      (fun h => (addObjectM_good l s t _ _).2.1 (.inl h))
    rw [← cCreate_if] at this
    exact this

theorem cCopyM_good (l : Lib) (s : Session) (h : Nat) (t : Option (List Entry)) (ptr : Bool) (a : Mem) :
    Spared l (cCopyM e l s h t ptr a) (cCopy e l s h t ptr) ∧
    (Plenty a → cCopyM e l s h t ptr a = cCopy e l s h t ptr) := by
  unfold cCopyM cCopy
  cases t with
  | none => exact ⟨.rfl, fun _ => rfl⟩
  | some t =>
    simp only
    split
    · exact ⟨.rfl, fun _ => rfl⟩
    split
    · exact ⟨.rfl, fun _ => rfl⟩
    cases findObj l s h with
    | none => exact ⟨.rfl, fun _ => rfl⟩
    | some o =>
      simp only
      cases tokenByte t 0 with
      | error rv => exact ⟨.rfl, fun _ => rfl⟩
      | ok on =>
        simp only
        split
        · rename_i hm
          exact ⟨.inr ⟨.inl rfl, rfl⟩, fun hp => absurd hm hp.not⟩
        · split
          · exact ⟨.rfl, fun _ => rfl⟩
          · have hadd := sessAddObjectM_good (e := e) l s on
              (setAttributeValueM e.key true (newObj 0 o.typ) (getAttributeValue e.key o t).2 a.tail).obj
              (setAttributeValueM e.key true (newObj 0 o.typ) (getAttributeValue e.key o t).2 a.tail).left
            have := made_good (setAttributeValueM_good e.key true (newObj 0 o.typ) (getAttributeValue e.key o t).2 a.tail)
              (l := l) (b := fun rv => (l, { rv, tmpl := some (getAttributeValue e.key o t).2 })) (fun _ => ⟨rfl, rfl⟩)
              (k := fun n => match sessAddObject e l s on n with
                | (l, none) => (l, { rv := .functionFailed, tmpl := some (getAttributeValue e.key o t).2 })
                | (l, some nh) => (l, { rv := .ok, handle := some nh, tmpl := some (getAttributeValue e.key o t).2 }))
              (r := match sessAddObjectM e l s on
                  (setAttributeValueM e.key true (newObj 0 o.typ) (getAttributeValue e.key o t).2 a.tail).obj
                  (setAttributeValueM e.key true (newObj 0 o.typ) (getAttributeValue e.key o t).2 a.tail).left with
                | (l, none, _) => (l, { rv := .functionFailed, tmpl := some (getAttributeValue e.key o t).2 })
                | (l, some nh, _) => (l, { rv := .ok, handle := some nh, tmpl := some (getAttributeValue e.key o t).2 }))
              (by
                generalize sessAddObjectM e l s on _ _ = r at hadd ⊢
                obtain ⟨l', h, a'⟩ := r
                rcases hadd.1 with h1 | h1
                · simp only [← h1]; cases h <;> exact .rfl
                · cases h with
                  | none =>
                    have hl : l' = l := h1.1
                    subst hl
                    exact .inr ⟨.inr rfl, rfl⟩
                  | some n => cases h1.2)
              (by
                intro hp
                have h2 := hadd.2.1 (.inl hp)
                generalize sessAddObjectM e l s on _ _ = r at h2 ⊢
                obtain ⟨l', h, a'⟩ := r
                simp only [← h2]
                cases h <;> rfl)
            exact ⟨this.1, fun hp => this.2 hp.tail⟩

theorem cGenKeyM_good (l : Lib) (s : Session) (m : Option (Mech × MechParam)) (t : Option (List Entry)) (ptr : Bool) (a : Mem) :
    Spared l (cGenKeyM e l s m t ptr a) (cGenKey e l s m t ptr) ∧
    (Plenty a → cGenKeyM e l s m t ptr a = cGenKey e l s m t ptr) := by
  unfold cGenKeyM cGenKey
  cases m with
  | none => exact ⟨.rfl, fun _ => rfl⟩
  | some mp =>
    cases t with
    | none => exact ⟨.rfl, fun _ => rfl⟩
    | some t =>
      simp only
      split
      · exact ⟨.rfl, fun _ => rfl⟩
      split
      · exact ⟨.rfl, fun _ => rfl⟩
      split
      · exact ⟨.rfl, fun _ => rfl⟩
      have := made_good (newObjectM_good (e := e) s CKK_AES CKO_SECRET_KEY t a) (l := l)
        (k := fun o => addObject e { l with rng := l.rng + 1 } s t { o with data := .symm (e.store.rand l.rng o.symm.length) })
        (b := fun rv => (l, { rv })) (fun _ => ⟨rfl, rfl⟩)
        (addObjectM_spared l { l with rng := l.rng + 1 } rfl s t _ (newObjectM e s CKK_AES CKO_SECRET_KEY t a).left)
        (fun h => (addObjectM_good _ s t _ _).2.1 (.inl h))
      have hif : ∀ q : RV × Obj, (match q with
          | (.ok, o) => addObject e { l with rng := l.rng + 1 } s t { o with data := .symm (e.store.rand l.rng o.symm.length) }
          | (rv, _) => (l, { rv })) = (if q.1 ≠ .ok then (l, { rv := q.1 })
            else addObject e { l with rng := l.rng + 1 } s t { q.2 with data := .symm (e.store.rand l.rng q.2.symm.length) }) := by
        rintro ⟨qr, qo⟩
        cases qr <;> rfl
      rw [← hif] at this
      exact this

theorem cDeriveM_good (l : Lib) (s : Session) (m : Option DeriveMech) (base : Nat) (t : Option (List Entry)) (ptr : Bool) (a : Mem) :
    Spared l (cDeriveM e l s m base t ptr a) (cDerive e l s m base t ptr) ∧
    (Plenty a → cDeriveM e l s m base t ptr a = cDerive e l s m base t ptr) := by
  unfold cDeriveM cDerive
  cases m with
  | none => exact ⟨.rfl, fun _ => rfl⟩
  | some m =>
    cases t with
    | none => exact ⟨.rfl, fun _ => rfl⟩
    | some t =>
      simp only
      split
      · exact ⟨.rfl, fun _ => rfl⟩
      cases findObj l s base with
      | none => exact ⟨.rfl, fun _ => rfl⟩
      | some b =>
        simp only
        split
        · rename_i hm
          exact ⟨.inr ⟨.inl rfl, rfl⟩, fun hp => absurd hm.2 hp.not⟩
        cases deriveSecret e b m with
        | error rv => exact ⟨.rfl, fun _ => rfl⟩
        | ok sec =>
          simp only
          have := made_good (createObjectM_good (e := e) s t a.tail) (l := l)
            (k := fun o => match (deriveTail e.key o sec).obj with
              | none => (l, { rv := (deriveTail e.key o sec).rv })
              | some o => addObject e l s t o)
            (r := match (deriveTail e.key (createObjectM e s t a.tail).obj sec).obj with
              | none => (l, { rv := (deriveTail e.key (createObjectM e s t a.tail).obj sec).rv })
              | some o => ((addObjectM e l s t o (createObjectM e s t a.tail).left).1,
                  (addObjectM e l s t o (createObjectM e s t a.tail).left).2.1))
            (b := fun rv => (l, { rv })) (fun _ => ⟨rfl, rfl⟩)
            (by
              cases (deriveTail e.key (createObjectM e s t a.tail).obj sec).obj with
              | none => exact .rfl
              | some o => exact addObjectM_spared l l rfl s t _ _)
            (by
              intro hp
              cases (deriveTail e.key (createObjectM e s t a.tail).obj sec).obj with
              | none => rfl
              | some o => exact (addObjectM_good l s t _ _).2.1 (.inl hp))
          have hif : ∀ q : RV × Obj, (match q with
              | (.ok, o) =>
                let d := deriveTail e.key o sec
                match d.obj with
                | none => (l, { rv := d.rv })
                | some o => addObject e l s t o
              | (rv, _) => (l, { rv })) = (if q.1 ≠ .ok then (l, { rv := q.1 }) else
                match (deriveTail e.key q.2 sec).obj with
                | none => (l, { rv := (deriveTail e.key q.2 sec).rv })
                | some o => addObject e l s t o) := by
            rintro ⟨qr, qo⟩
            cases qr <;> rfl
          simp only [] at this hif
          rw [← hif] at this
          exact ⟨this.1, fun hp => this.2 hp.tail⟩

theorem addPair_if (l : Lib) (s : Session) (tp tq : List Entry) (pub priv : Obj) :
    addPair e l s tp tq pub priv =
      (if (addObject e l s tp pub).2.rv ≠ .ok then
        ((addObject e l s tp pub).1, { rv := (addObject e l s tp pub).2.rv, handle := some 0, priv := some 0 })
      else
        match (addObject e l s tp pub).1.sessions.find? fun t => t.handle == s.handle with
        | none => ((addObject e l s tp pub).1, { rv := .ub })
        | some s1 =>
          if (addObject e (addObject e l s tp pub).1 s1 tq priv).2.rv ≠ .ok then
            ({ (addObject e (addObject e l s tp pub).1 s1 tq priv).1 with bad := true },
              { rv := (addObject e (addObject e l s tp pub).1 s1 tq priv).2.rv, handle := (addObject e l s tp pub).2.handle, priv := some 0 })
          else ((addObject e (addObject e l s tp pub).1 s1 tq priv).1,
            { rv := .ok, handle := (addObject e l s tp pub).2.handle,
              priv := (addObject e (addObject e l s tp pub).1 s1 tq priv).2.handle })) := by
  unfold addPair
  rfl

/-- What the calls that make two objects, change one or log in have: a success is the usual
one. -/
theorem addPairM_good (l l' : Lib) (hl : l' = { l with rng := l'.rng }) (s : Session) (tp tq : List Entry) (pub priv : Obj) (a : Mem) :
    ((addPairM e l' s tp tq pub priv a).2.rv = .ok → addPairM e l' s tp tq pub priv a = addPair e l' s tp tq pub priv) ∧
    (tokenByte tq 0 = .ok 0 → Spared l (addPairM e l' s tp tq pub priv a) (addPair e l' s tp tq pub priv)) ∧
    (Plenty a → addPairM e l' s tp tq pub priv a = addPair e l' s tp tq pub priv) := by
  obtain ⟨h1, h2, h3⟩ := addObjectM_good (e := e) l' s tp pub a
  rw [addPair_if]
  unfold addPairM
  dsimp only
  generalize addObjectM e l' s tp pub a = r at *
  generalize addObject e l' s tp pub = q at *
  obtain ⟨r1, r2, r3⟩ := r
  obtain ⟨q1, q2⟩ := q
  dsimp only at *
  by_cases hs : r1 = q1 ∧ r2 = q2
  · obtain ⟨e1, e2⟩ := hs
    subst e1; subst e2
    split
    · exact ⟨fun _ => rfl, fun _ => .rfl, fun _ => rfl⟩
    · cases r1.sessions.find? fun t => t.handle == s.handle with
      | none => exact ⟨fun _ => rfl, fun _ => .rfl, fun _ => rfl⟩
      | some s1 =>
        obtain ⟨g1, g2, _⟩ := addObjectM_good (e := e) r1 s1 tq priv r3
        dsimp only
        generalize addObjectM e r1 s1 tq priv r3 = r' at *
        generalize addObject e r1 s1 tq priv = q' at *
        obtain ⟨r1', r2', r3'⟩ := r'
        obtain ⟨q1', q2'⟩ := q'
        dsimp only at *
        have eq : (r1', r2') = (q1', q2') → (if r2'.rv ≠ .ok then
            ({ r1' with bad := true }, ({ rv := r2'.rv, handle := r2.handle, priv := some 0 } : Resp))
            else (r1', { rv := .ok, handle := r2.handle, priv := r2'.handle })) =
          (if q2'.rv ≠ .ok then
            ({ q1' with bad := true }, ({ rv := q2'.rv, handle := r2.handle, priv := some 0 } : Resp))
            else (q1', { rv := .ok, handle := r2.handle, priv := q2'.handle })) := by
          intro h; cases h; rfl
        refine ⟨fun hok => eq ?_, fun h0 => .inl (eq (g2 (.inr h0))), fun hp => eq (g2 (.inl (h3 hp)))⟩
        rcases g1 with g1 | ⟨_, g1⟩
        · exact g1
        · rw [g1] at hok; cases hok
  · have hr : r1 = l' ∧ r2 = { rv := .functionFailed } := h1.resolve_left fun h => hs ⟨congrArg Prod.fst h, congrArg Prod.snd h⟩
    obtain ⟨e1, e2⟩ := hr
    subst e1; subst e2
    refine ⟨fun h => (by cases h), fun _ => .inr ⟨.inr rfl, hl⟩, fun hp => ?_⟩
    have := h2 (.inl hp)
    exact absurd ⟨congrArg Prod.fst this, congrArg Prod.snd this⟩ hs

/-- The usual result, or one that is not a success. -/
def OkUsual (r q : Lib × Resp) : Prop := r.2.rv = .ok → r = q

theorem OkUsual.rfl {r : Lib × Resp} : OkUsual r r := fun _ => Eq.refl r

theorem Spared.okUsual {l : Lib} {r q : Lib × Resp} (h : Spared l r q) : OkUsual r q := by
  intro hok
  rcases h with h | ⟨h | h, _⟩
  · exact h
  · rw [hok] at h; cases h
  · rw [hok] at h; cases h

theorem cGenPairM_good (l : Lib) (s : Session) (m : Option (Mech × MechParam)) (tp tq : Option (List Entry)) (ptrs : Bool) (a : Mem) :
    OkUsual (cGenPairM e l s m tp tq ptrs a) (cGenPair e l s m tp tq ptrs) ∧
    ((∀ t, tq = some t → tokenByte t 0 = .ok 0) → Spared l (cGenPairM e l s m tp tq ptrs a) (cGenPair e l s m tp tq ptrs)) ∧
    (Plenty a → cGenPairM e l s m tp tq ptrs a = cGenPair e l s m tp tq ptrs) := by
  have triv : ∀ {r : Lib × Resp} {P : Prop}, OkUsual r r ∧ (P → Spared l r r) ∧ (Plenty a → r = r) :=
    ⟨.rfl, fun _ => .rfl, fun _ => rfl⟩
  unfold cGenPairM cGenPair
  cases m with
  | none => exact triv
  | some mp =>
  cases tp with
  | none => exact triv
  | some tp =>
  cases tq with
  | none => exact triv
  | some tq =>
    simp only
    split
    · exact triv
    cases pairGen e l.rng mp.1 with
    | none => exact triv
    | some tg =>
      obtain ⟨typ, gen⟩ := tg
      simp only
      split
      · exact triv
      have g1 := newObjectM_good (e := e) s typ CKO_PUBLIC_KEY tp a
      have g2 := newObjectM_good (e := e) s typ CKO_PRIVATE_KEY tq (newObjectM e s typ CKO_PUBLIC_KEY tp a).left
      generalize newObjectM e s typ CKO_PUBLIC_KEY tp a = n1 at *
      generalize newObjectM e s typ CKO_PRIVATE_KEY tq n1.left = n2 at *
      generalize newObject e s typ CKO_PUBLIC_KEY tp = q1 at *
      generalize newObject e s typ CKO_PRIVATE_KEY tq = q2 at *
      obtain ⟨r1, o1⟩ := q1
      obtain ⟨r2, o2⟩ := q2
      by_cases h1 : n1.rv = .ok
      · obtain ⟨u1, u2, _⟩ := g1.ok h1
        have u1 : n1.rv = r1 := u1
        have u2 : n1.obj = o1 := u2
        rw [h1] at u1
        subst u1; subst u2
        simp only [h1, ne_eq, not_true_eq_false, if_false]
        by_cases h2 : n2.rv = .ok
        · obtain ⟨v1, v2, _⟩ := g2.ok h2
          have v1 : n2.rv = r2 := v1
          have v2 : n2.obj = o2 := v2
          rw [h2] at v1
          subst v1; subst v2
          simp only [h2, not_true_eq_false, if_false]
          generalize gen n1.obj n2.obj = w
          obtain ⟨wr, wp, wq⟩ := w
          cases wr
          case ok =>
            have := addPairM_good (e := e) l { l with rng := l.rng + 1 } rfl s tp tq wp wq n2.left
            exact ⟨this.1, fun h0 => this.2.1 (h0 tq rfl), fun hp => this.2.2 (g2.enough (g1.enough hp).2).2⟩
          all_goals exact triv
        · rw [if_pos h2]
          have hu : n2.Usual (r2, o2) → (match (r2, o2) with
              | (.ok, priv) =>
                match gen n1.obj priv with
                | (.ok, pub, priv) => addPair e { l with rng := l.rng + 1 } s tp tq pub priv
                | (.ub, _, _) => (l, { rv := .ub })
                | _ => ({ l with rng := l.rng + 1 }, { rv := .functionFailed, handle := some 0, priv := some 0 })
              | (rv, _) => (l, { rv, handle := some 0, priv := some 0 })) =
              (l, ({ rv := n2.rv, handle := some 0, priv := some 0 } : Resp)) := by
            intro hu
            have hv : n2.rv = r2 := hu.rv
            rw [hv] at h2 ⊢
            cases r2 <;> first | exact absurd rfl h2 | rfl
          refine ⟨fun h => absurd h h2, fun _ => ?_, fun hp => (hu (g2.enough (g1.enough hp).2).1).symm⟩
          rcases g2.or with h | h
          · exact .inl (hu h).symm
          · exact .inr ⟨h, rfl⟩
      · rw [if_pos h1]
        have hu : n1.Usual (r1, o1) → (match (r1, o1) with
            | (.ok, pub) =>
              match (r2, o2) with
              | (.ok, priv) =>
                match gen pub priv with
                | (.ok, pub, priv) => addPair e { l with rng := l.rng + 1 } s tp tq pub priv
                | (.ub, _, _) => (l, { rv := .ub })
                | _ => ({ l with rng := l.rng + 1 }, { rv := .functionFailed, handle := some 0, priv := some 0 })
              | (rv, _) => (l, { rv, handle := some 0, priv := some 0 })
            | (rv, _) => (l, { rv, handle := some 0, priv := some 0 })) =
            (l, ({ rv := n1.rv, handle := some 0, priv := some 0 } : Resp)) := by
          intro hu
          have hv : n1.rv = r1 := hu.rv
          rw [hv] at h1 ⊢
          cases r1 <;> first | exact absurd rfl h1 | rfl
        refine ⟨fun h => absurd h h1, fun _ => ?_, fun hp => (hu (g1.enough hp).1).symm⟩
        rcases g1.or with h | h
        · exact .inl (hu h).symm
        · exact .inr ⟨h, rfl⟩

theorem cSetAttrM_good (l : Lib) (s : Session) (h : Nat) (t : Option (List Entry)) (a : Mem) :
    OkUsual (cSetAttrM e l s h t a) (cSetAttr e l s h t) ∧ (Plenty a → cSetAttrM e l s h t a = cSetAttr e l s h t) := by
  unfold cSetAttrM cSetAttr
  cases t with
  | none => exact ⟨.rfl, fun _ => rfl⟩
  | some t =>
    simp only
    split
    · exact ⟨.rfl, fun _ => rfl⟩
    cases findObj l s h with
    | none => exact ⟨.rfl, fun _ => rfl⟩
    | some o =>
      simp only
      have hg := setAttributeValueM_good e.key true o t a
      have hu : (setAttributeValueM e.key true o t a).Usual (setAttributeValue e.key true o t) →
          (if (setAttributeValueM e.key true o t a).hole then
            { putObj l s h (setAttributeValueM e.key true o t a).obj with bad := true }
            else putObj l s h (setAttributeValueM e.key true o t a).obj,
            ({ rv := (setAttributeValueM e.key true o t a).rv } : Resp)) =
          (putObj l s h (setAttributeValue e.key true o t).2, { rv := (setAttributeValue e.key true o t).1 }) := by
        intro hu
        rw [hu.hole, hu.rv, hu.obj]
        rfl
      exact ⟨fun hok => hu (hg.ok hok), fun hp => hu (hg.enough hp).1⟩

theorem decodeObjM_good (x : StoreExt) (key : Bytes) (o : Obj) (a : Mem) :
    ((decodeObjM x key o a).1 = .err ∨ ((decodeObjM x key o a).1, (decodeObjM x key o a).2.1) = decodeObj x key o) ∧
    (Plenty a → ((decodeObjM x key o a).1, (decodeObjM x key o a).2.1) = decodeObj x key o ∧ Plenty (decodeObjM x key o a).2.2) := by
  unfold decodeObjM
  split
  · split
    · exact ⟨.inr rfl, fun hp => ⟨rfl, hp.tail⟩⟩
    · rename_i hm
      exact ⟨.inl rfl, fun hp => absurd hp.ok hm⟩
  · exact ⟨.inr rfl, fun hp => ⟨rfl, hp⟩⟩

theorem decodeObjM_cut (x : StoreExt) (key : Bytes) (o : Obj) (a : Mem) :
    ((decodeObjM x key o a).1, (decodeObjM x key o a).2.1) = decodeObj x key o ∨
    ((decodeObjM x key o a).1 = .err ∧ (decodeObjM x key o a).2.1 = { o with encoded := true }) := by
  unfold decodeObjM
  split
  · split
    · exact .inl rfl
    · exact .inr ⟨rfl, rfl⟩
  · exact .inl rfl

/-- A list of objects after an interrupted login: up to some object as usual, that object still
encrypted, and the rest as before. -/
theorem decodeAllM_cut (x : StoreExt) (key : Bytes) (os : List Obj) (a : Mem) :
    decodeAllM x key os a = decodeAll x key os ∨
    ((decodeAllM x key os a).1 = .err ∧ ∃ done o rest, os = done ++ o :: rest ∧
      (decodeAllM x key os a).2 = done.map (fun p => (decodeObj x key p).2) ++ { o with encoded := true } :: rest) := by
  induction os generalizing a with
  | nil => exact .inl rfl
  | cons o os ih =>
    have h1 := decodeObjM_cut x key o a
    simp only [decodeAllM, decodeAll]
    generalize decodeObjM x key o a = r at *
    obtain ⟨r1, r2, r3⟩ := r
    dsimp only at *
    rcases h1 with h1 | ⟨h1, h2⟩
    · rw [← h1]
      dsimp only
      split
      · rcases ih r3 with h | ⟨he, d, o', rest, h3, h4⟩
        · rw [h]; exact .inl rfl
        · refine .inr ⟨he, o :: d, o', rest, by rw [h3]; rfl, ?_⟩
          rw [h4, List.map_cons, ← h1]
          rfl
      · exact .inl rfl
    · rw [h1, h2, if_neg (fun h => by cases h)]
      exact .inr ⟨rfl, [], o, os, rfl, rfl⟩

theorem decodeAllM_enough (x : StoreExt) (key : Bytes) (os : List Obj) {a : Mem} (hp : Plenty a) :
    decodeAllM x key os a = decodeAll x key os := by
  induction os generalizing a with
  | nil => rfl
  | cons o os ih =>
    obtain ⟨h1, h2⟩ := (decodeObjM_good x key o a).2 hp
    simp only [decodeAllM, decodeAll, ← h1, ih h2]

/-- What a login that runs out of memory leaves behind, compared with the usual one `q`. -/
def HalfLogin (e : Env) (l : Lib) (pin : Bytes) (r : Lib × RV) (q : Lib) : Prop :=
  r.2 = .pinIncorrect ∧ r.1 = { l with token := { l.token with user := q.token.user, key := q.token.key, objs := r.1.token.objs } } ∧
  l.token.login = .pub ∧
  ∃ done o rest, l.token.objs = done ++ o :: rest ∧
    r.1.token.objs = done.map (fun p => (decodeObj e.store (e.store.hash pin l.token.seed) p).2) ++ { o with encoded := true } :: rest

theorem userLoginM_good (l : Lib) (pin : Bytes) (now : Int) (a : Mem) :
    (userLoginM e l pin now a = userLogin e l pin now ∨
      HalfLogin e l pin (userLoginM e l pin now a) (userLogin e l pin now).1) ∧
    (Plenty a → userLoginM e l pin now a = userLogin e l pin now) := by
  unfold userLoginM userLogin
  split
  · exact ⟨.inl rfl, fun _ => rfl⟩
  rename_i hp
  have hp : l.token.login = .pub := Classical.not_not.mp hp
  cases lockCheck l.token.user now with
  | none => exact ⟨.inl rfl, fun _ => rfl⟩
  | some u =>
    dsimp only
    cases checkPin e l.token u pin with
    | notSet => exact ⟨.inl rfl, fun _ => rfl⟩
    | invalid => exact ⟨.inl rfl, fun _ => rfl⟩
    | ok =>
      dsimp only
      refine ⟨?_, fun hp => ?_⟩
      · rcases decodeAllM_cut e.store (e.store.hash pin l.token.seed) l.token.objs a with h1 | ⟨h1, d, o, rest, h3, h4⟩
        · left
          rw [h1]
          generalize decodeAll e.store (e.store.hash pin l.token.seed) l.token.objs = q
          obtain ⟨q1, q2⟩ := q
          cases q1 <;> rfl
        · right
          rw [h1]
          refine ⟨rfl, ?_, hp, d, o, rest, h3, h4⟩
          generalize decodeAll e.store (e.store.hash pin l.token.seed) l.token.objs = q
          obtain ⟨q1, q2⟩ := q
          cases q1 <;> rfl
      · rw [decodeAllM_enough _ _ _ hp]
        generalize decodeAll e.store (e.store.hash pin l.token.seed) l.token.objs = q
        obtain ⟨q1, q2⟩ := q
        cases q1 <;> rfl

theorem loginM_good (l : Lib) (u : UserType) (pin : Option Bytes) (now : Int) (a : Mem) :
    (loginM e l u pin now a = login e l u pin now ∨
      ∃ p, u = .user ∧ pin = some p ∧ (loginM e l u pin now a).2 = { rv := .pinIncorrect } ∧
        HalfLogin e l p ((loginM e l u pin now a).1, .pinIncorrect) (login e l u pin now).1) ∧
    (Plenty a → loginM e l u pin now a = login e l u pin now) := by
  unfold loginM
  split
  · rename_i pin
    simp only [login]
    split
    · exact ⟨.inl rfl, fun _ => rfl⟩
    · obtain ⟨h1, h2⟩ := userLoginM_good (e := e) l pin now a
      refine ⟨h1.imp (fun h => by rw [h]) fun h => ⟨pin, trivial, rfl, by rw [h.1], ?_⟩, fun hp => by rw [h2 hp]⟩
      have := h.1
      rw [← this]
      exact h
  · exact ⟨.inl rfl, fun _ => rfl⟩

theorem encodeObjM_true (x : StoreExt) (key : Bytes) (o : Obj) (a : Mem) :
    (((encodeObjM x key true o a).1, (encodeObjM x key true o a).2.1) = encodeObj x key true o ∨
      ((encodeObjM x key true o a).1 = false ∧ (encodeObjM x key true o a).2.1 = { o with keyData := none })) ∧
    (Plenty a → ((encodeObjM x key true o a).1, (encodeObjM x key true o a).2.1) = encodeObj x key true o ∧
      Plenty (encodeObjM x key true o a).2.2) := by
  unfold encodeObjM encodeObj
  split
  · exact ⟨.inl rfl, fun h => ⟨rfl, h⟩⟩
  · dsimp only
    have hk : encodeKey x key o = ((encodeKey x key o).1, (encodeKey x key o).2) := rfl
    by_cases h1 : (encodeKey x key o).1 = true
    · rw [if_pos (And.intro (Eq.refl true) h1), if_pos h1]
      by_cases h : memOk a = true
      · simp only [if_pos h, if_true]
        exact ⟨.inl trivial, fun hp => ⟨trivial, hp.tail⟩⟩
      · rw [if_neg h]
        exact ⟨.inr ⟨rfl, rfl⟩, fun hp => absurd hp.ok h⟩
    · rw [if_neg h1, if_neg fun h => h1 h.2]
      have h1 : (encodeKey x key o).1 = false := by simpa using h1
      have : (false, (encodeKey x key o).2) = encodeKey x key o := by rw [hk, h1]
      exact ⟨.inl this, fun h => ⟨this, h⟩⟩

theorem encodeAllM_enough (x : StoreExt) (key : Bytes) (os : List Obj) {a : Mem} (hp : Plenty a) :
    encodeAllM x key os a = encodeAll x key os := by
  induction os generalizing a with
  | nil => rfl
  | cons o os ih =>
    obtain ⟨h1, h2⟩ := (encodeObjM_true x key o a).2 hp
    simp only [encodeAllM, encodeAll, ← h1, ih h2]

/-- A list of objects after an interrupted logout: up to some object as usual, and the rest as
before, but that the first of them may have lost its encrypted form. -/
theorem encodeAllM_cut (x : StoreExt) (key : Bytes) (os : List Obj) (a : Mem) :
    encodeAllM x key os a = encodeAll x key os ∨
    ∃ done o rest, os = done ++ o :: rest ∧
      encodeAllM x key os a = done.map (fun p => (encodeObj x key true p).2) ++ { o with keyData := none } :: rest := by
  induction os generalizing a with
  | nil => exact .inl rfl
  | cons o os ih =>
    obtain ⟨h1, _⟩ := encodeObjM_true x key o a
    simp only [encodeAllM, encodeAll]
    generalize encodeObjM x key true o a = r at *
    obtain ⟨r1, r2, r3⟩ := r
    dsimp only at *
    rcases h1 with h1 | ⟨h1, h2⟩
    · rw [← h1]
      dsimp only
      split
      · rcases ih r3 with h | ⟨d, o', rest, h3, h4⟩
        · rw [h]; exact .inl rfl
        · refine .inr ⟨o :: d, o', rest, by rw [h3]; rfl, ?_⟩
          rw [h4, List.map_cons, ← h1]
          rfl
      · exact .inl rfl
    · rw [h1, h2]
      exact .inr ⟨[], o, os, rfl, rfl⟩

theorem logoutM_enough (l : Lib) {a : Mem} (hp : Plenty a) : logoutM e l a = logout e l := by
  unfold logoutM logout
  rw [encodeAllM_enough _ _ _ hp]

theorem matchAllM_true {x : KeyExt} {o : Obj} {t : List Entry} {a : Mem} (h : (matchAllM x o t a).1 = some true) :
    matchAll x o t = some true := by
  induction t generalizing a with
  | nil => rfl
  | cons en t ih =>
    simp only [matchAllM] at h
    have hm : (matchAttrM x o en a).1 = some true → matchAttr x o en = some true := by
      unfold matchAttrM
      split
      · exact id
      · split
        · exact id
        · exact fun h => by cases h
    cases hr : (matchAttrM x o en a).1 with
    | none => rw [hr] at h; cases h
    | some b =>
      rw [hr] at h
      cases b with
      | false => cases h
      | true =>
        simp only [matchAll, hm hr]
        exact ih h

theorem matchAllM_enough (x : KeyExt) (o : Obj) (t : List Entry) {a : Mem} (hp : Plenty a) :
    (matchAllM x o t a).1 = matchAll x o t ∧ Plenty (matchAllM x o t a).2 := by
  induction t generalizing a with
  | nil => exact ⟨rfl, hp⟩
  | cons en t ih =>
    have hm : (matchAttrM x o en a).1 = matchAttr x o en ∧ Plenty (matchAttrM x o en a).2 := by
      unfold matchAttrM
      split
      · exact ⟨rfl, hp⟩
      · rw [if_pos hp.ok]; exact ⟨rfl, hp.tail⟩
    simp only [matchAllM, matchAll]
    rw [hm.1]
    cases matchAttr x o en with
    | none => exact ⟨rfl, hm.2⟩
    | some b =>
      cases b with
      | false => exact ⟨rfl, hm.2⟩
      | true => exact ih hm.2

theorem findLoopM_enough (x : KeyExt) (login : Login) (t : List Entry) (os : List Obj) (acc : List Nat) {a : Mem} (hp : Plenty a) :
    findLoopM x login t os acc a = findLoop x login t os acc := by
  induction os generalizing acc a with
  | nil => rfl
  | cons o os ih =>
    simp only [findLoopM, findLoop]
    split
    · exact ih acc hp
    · obtain ⟨h1, h2⟩ := matchAllM_enough x o t hp
      rw [h1]
      cases matchAll x o t with
      | none => rfl
      | some b =>
        cases b with
        | false => exact ih acc h2
        | true =>
          dsimp only
          split
          · rfl
          · exact ih _ h2

theorem findLoopM_mem {x : KeyExt} (hx : x.Lawful) {login : Login} {w : Wanted}
    (hw : ∀ p ∈ w, p.2.length ≠ unavailableInfo) {os : List Obj} (hd : ∀ o ∈ os, DatesOk o) {acc f : List Nat} {a : Mem}
    (h : findLoopM x login w.tmpl os acc a = some f) :
    ∀ k ∈ f, k ∈ acc ∨ ∃ o ∈ os, Shown login o ∧ Matching x o w ∧ o.handle = k := by
  induction os generalizing acc a with
  | nil => cases h; exact fun k hk => .inl hk
  | cons o os ih =>
    have hd' : ∀ o ∈ os, DatesOk o := fun p hp => hd p (List.mem_cons_of_mem _ hp)
    have up : ∀ {acc : List Nat} {a : Mem}, findLoopM x login w.tmpl os acc a = some f →
        ∀ k ∈ f, k ∈ acc ∨ ∃ p ∈ o :: os, Shown login p ∧ Matching x p w ∧ p.handle = k := by
      intro acc a h k hk
      rcases ih hd' h k hk with h | ⟨p, hp, h⟩
      · exact .inl h
      · exact .inr ⟨p, List.mem_cons_of_mem _ hp, h⟩
    simp only [findLoopM] at h
    split at h
    · exact up h
    · rename_i hh
      have hs : Shown login o := (hidden_iff login o).mp (by simpa using hh)
      split at h
      · cases h
      · exact up h
      · rename_i hm
        have hM := (matchAll_reads hx (hd o List.mem_cons_self) hw (matchAllM_true hm)).mp rfl
        split at h
        · cases h; exact fun k hk => .inl hk
        · intro k hk
          rcases up h k hk with h | h
          · rcases List.mem_append.mp h with h | h
            · exact .inl h
            · rw [List.mem_singleton] at h
              exact .inr ⟨o, List.mem_cons_self, hs, hM, h.symm⟩
          · exact .inr h

theorem openSessionM_good (l : Lib) (rw : Bool) (a : Mem) :
    (openSessionM l rw a = openSession l rw ∨ openSessionM l rw a = (l, { rv := .ok })) ∧
    (Plenty a → openSessionM l rw a = openSession l rw) := by
  unfold openSessionM
  split
  · rename_i h
    unfold openSession
    rw [if_pos h]
    exact ⟨.inl rfl, fun _ => rfl⟩
  · rename_i h
    split
    · exact ⟨.inl rfl, fun _ => rfl⟩
    · rename_i hf
      split
      · rename_i hm
        unfold openSession
        rw [if_neg h, hf]
        dsimp only
        rw [if_pos hm]
        exact ⟨.inl rfl, fun _ => rfl⟩
      · split
        · exact ⟨.inl rfl, fun _ => rfl⟩
        · rename_i hm
          exact ⟨.inr rfl, fun hp => absurd hp.ok hm⟩

theorem cFindInitM_enough (l : Lib) (s : Session) (t : Option (List Entry)) {a : Mem} (hp : Plenty a) :
    cFindInitM e l s t a = cFindInit e l s t := by
  unfold cFindInitM cFindInit
  cases t with
  | none => rfl
  | some t =>
    simp only
    split
    · rfl
    cases tokenByte t 1 with
    | error rv => rfl
    | ok on =>
      simp only
      split
      · rfl
      · rw [findLoopM_enough _ _ _ _ _ hp]
        generalize findLoop e.key l.token.login t _ [] = r
        cases r <;> rfl

/-! ## Cryptographic operations -/

theorem cCryptInitM_good (l : Lib) (s : Session) (k : Kind) (m : Option (Mech × MechParam)) (key : Nat) (a : Mem) :
    (cCryptInitM e l s k m key a = cCryptInit e l s k m key ∨
      ∃ mp o op, m = some mp ∧ findObj l s key = some o ∧ initNoMem k s.op o mp.1 mp.2 = some op ∧
        cCryptInitM e l s k m key a = (l.upd s.handle fun u => { u with op }, { rv := .mechanismParamInvalid })) ∧
    (Plenty a → cCryptInitM e l s k m key a = cCryptInit e l s k m key) := by
  unfold cCryptInitM
  cases m with
  | none => exact ⟨.inl rfl, fun _ => rfl⟩
  | some mp =>
    obtain ⟨m, p⟩ := mp
    dsimp only
    cases hf : findObj l s key with
    | none =>
      have : cCryptInit e l s k (some (m, p)) key = (l, { rv := .objectHandleInvalid }) := by
        unfold cCryptInit; rw [hf]
      exact ⟨.inl this.symm, fun _ => this.symm⟩
    | some o =>
      dsimp only
      cases hn : initNoMem k s.op o m p with
      | none => exact ⟨.inl rfl, fun _ => rfl⟩
      | some op =>
        dsimp only
        split
        · exact ⟨.inl rfl, fun _ => rfl⟩
        · rename_i hm
          exact ⟨.inr ⟨(m, p), o, op, rfl, rfl, hn, rfl⟩, fun hp => absurd hp.ok hm⟩

/-- Without memory the mechanism stays, and an operation is not started. -/
theorem initNoMem_keeps {k : Kind} {s op : OpSt} {o : Obj} {m : Mech} {p : MechParam} (h : initNoMem k s o m p = some op) :
    op.mech = s.mech ∧ (op.init = s.init ∨ op.init = s.init.tear) := by
  have hg : ∀ g, (s.gcmNoMem g).mech = s.mech ∧ ((s.gcmNoMem g).init = s.init ∨ (s.gcmNoMem g).init = s.init.tear) := by
    intro g
    unfold OpSt.gcmNoMem OpSt.tear OpSt.mark
    split
    · exact ⟨rfl, .inl rfl⟩
    · split
      all_goals first
        | exact ⟨rfl, .inr rfl⟩
        | exact ⟨rfl, .inl rfl⟩
        | (rw [if_pos (Eq.refl true)]; exact ⟨rfl, .inr rfl⟩)
  have ho : ∀ a b, (s.oaepNoMem a b).mech = s.mech ∧ ((s.oaepNoMem a b).init = s.init ∨ (s.oaepNoMem a b).init = s.init.tear) := by
    intro a b
    unfold OpSt.oaepNoMem OpSt.mark
    split <;> first
      | exact ⟨rfl, .inr rfl⟩
      | exact ⟨rfl, .inl rfl⟩
  unfold initNoMem at h
  split at h
  · split at h
    · split at h
      · cases h; exact ho _ _
      · cases h
    · split at h
      · rename_i iv _ tb _
        cases hs : GcmSt.setParams iv none (toInt32 tb) with
        | none => rw [hs] at h; cases h
        | some g => rw [hs] at h; cases h; exact hg g
      · cases h
    · cases h
  · cases h

theorem cCryptM_good (l : Lib) (s : Session) (c : DataCall) (a : Mem) :
    (cCryptM e l s c a = cCrypt e l s c ∨
      cCryptM e l s c a = (l, { rv := .functionFailed, out := some { rv := .functionFailed, len := some 0 } })) ∧
    (Plenty a → cCryptM e l s c a = cCrypt e l s c) := by
  unfold cCryptM
  dsimp only
  split
  · rename_i h
    exact ⟨.inr rfl, fun hp => absurd h.2.2 hp.not⟩
  · exact ⟨.inl rfl, fun _ => rfl⟩

theorem cWrapM_good (l : Lib) (s : Session) (m : Option (Mech × MechParam)) (wk key : Nat) (ob : OutBuf) (a : Mem) :
    (cWrapM e l s m wk key ob a = cWrap e l s m wk key ob ∨
      cWrapM e l s m wk key ob a = (l, { rv := .obHostMemory }) ∨
      cWrapM e l s m wk key ob a = (l, { rv := .functionFailed })) ∧
    (Plenty a → cWrapM e l s m wk key ob a = cWrap e l s m wk key ob) := by
  unfold cWrapM cWrap
  cases m with
  | none => exact ⟨.inl rfl, fun _ => rfl⟩
  | some mp =>
    dsimp only
    split
    · exact ⟨.inl rfl, fun _ => rfl⟩
    split
    · exact ⟨.inl rfl, fun _ => rfl⟩
    cases findObj l s key with
    | none => exact ⟨.inl rfl, fun _ => rfl⟩
    | some k =>
      dsimp only
      cases findObj l s wk with
      | none => exact ⟨.inl rfl, fun _ => rfl⟩
      | some w =>
        dsimp only
        split
        · exact ⟨.inl rfl, fun _ => rfl⟩
        cases e.pkcs8 k.rsa with
        | none => exact ⟨.inl rfl, fun _ => rfl⟩
        | some der =>
          dsimp only
          by_cases h1 : memOk a = false
          · rw [if_pos h1]; exact ⟨.inr (.inr rfl), fun hp => absurd h1 hp.not⟩
          rw [if_neg h1]
          by_cases h2 : memOk a.tail = false
          · rw [if_pos h2]; exact ⟨.inr (.inl rfl), fun hp => absurd h2 hp.tail.not⟩
          rw [if_neg h2]
          by_cases h3 : memOk a.tail.tail = false
          · rw [if_pos h3]; exact ⟨.inr (.inr rfl), fun hp => absurd h3 hp.tail.tail.not⟩
          rw [if_neg h3]
          exact ⟨.inl rfl, fun _ => rfl⟩

theorem addRsaPrivate_if (l : Lib) (s : Session) (t : List Entry) (der : Bytes) :
    addRsaPrivate e l s t der =
    (if (newObject e s CKK_RSA CKO_PRIVATE_KEY t).1 ≠ .ok then
      (l, { rv := (newObject e s CKK_RSA CKO_PRIVATE_KEY t).1, handle := some 0 }) else
        match e.parsePriv der with
        | none => (l, { rv := .wrappedKeyInvalid, handle := some 0 })
        | some k =>
          let r := addObject e l s t { (newObject e s CKK_RSA CKO_PRIVATE_KEY t).2 with data := .rsa k }
          (r.1, { r.2 with handle := some (r.2.handle.getD 0) })) := by
  unfold addRsaPrivate
  generalize newObject e s CKK_RSA CKO_PRIVATE_KEY t = q
  obtain ⟨qr, qo⟩ := q
  cases qr <;> rfl

theorem addRsaPrivateM_good (l : Lib) (s : Session) (t : List Entry) (der : Bytes) (a : Mem) :
    Spared l (addRsaPrivateM e l s t der a) (addRsaPrivate e l s t der) ∧
    (Plenty a → addRsaPrivateM e l s t der a = addRsaPrivate e l s t der) := by
  rw [addRsaPrivate_if]
  unfold addRsaPrivateM
  dsimp only
  refine made_good (newObjectM_good (e := e) s CKK_RSA CKO_PRIVATE_KEY t a) (l := l)
    (k := fun o => match e.parsePriv der with
        | none => (l, { rv := .wrappedKeyInvalid, handle := some 0 })
        | some k =>
          let r := addObject e l s t { o with data := .rsa k }
          (r.1, { r.2 with handle := some (r.2.handle.getD 0) }))
    (b := fun rv => (l, { rv, handle := some 0 })) (fun _ => ⟨rfl, rfl⟩) ?_ ?_
  · dsimp only
    cases e.parsePriv der with
    | none => exact .rfl
    | some k =>
      dsimp only
      rcases addObjectM_spared (e := e) l l rfl s t { (newObjectM e s CKK_RSA CKO_PRIVATE_KEY t a).obj with data := .rsa k }
        (newObjectM e s CKK_RSA CKO_PRIVATE_KEY t a).left with h | ⟨h, h'⟩
      · left
        rw [← h]
      · exact .inr ⟨h, h'⟩
  · intro hp
    dsimp only
    cases e.parsePriv der with
    | none => rfl
    | some k =>
      dsimp only
      rw [← (addObjectM_good l s t { (newObjectM e s CKK_RSA CKO_PRIVATE_KEY t a).obj with data := .rsa k } _).2.1 (.inl hp)]

/-- The usual result, or a refusal before anything is changed, or one after the decryption. -/
def Spent (l : Lib) (s : Session) (r q : Lib × Resp) : Prop :=
  r = q ∨ (r.2.rv = .obHostMemory ∧ r.1 = l) ∨
  ((r.2.rv = .deviceMemory ∨ r.2.rv = .functionFailed) ∧ ∃ op curr, r.1 = l.upd s.handle fun u => { u with op, curr })

theorem addObjectM_rng (l : Lib) (s : Session) (t : List Entry) (o : Obj) (a : Mem) :
    ((addObjectM e l s t o a).1, (addObjectM e l s t o a).2.1) = addObject e l s t o ∨
    ((addObjectM e l s t o a).2.1.rv = .functionFailed ∧ (addObjectM e l s t o a).1 = l) := by
  refine (addObjectM_good (e := e) l s t o a).1.imp id fun h => ⟨by rw [h.2], h.1⟩

theorem addRsaPrivateM_same (l : Lib) (s : Session) (t : List Entry) (der : Bytes) (a : Mem) :
    addRsaPrivateM e l s t der a = addRsaPrivate e l s t der ∨
    (((addRsaPrivateM e l s t der a).2.rv = .deviceMemory ∨ (addRsaPrivateM e l s t der a).2.rv = .functionFailed) ∧
      (addRsaPrivateM e l s t der a).1 = l) := by
  have hg := newObjectM_good (e := e) s CKK_RSA CKO_PRIVATE_KEY t a
  rw [addRsaPrivate_if]
  unfold addRsaPrivateM
  dsimp only
  generalize newObjectM e s CKK_RSA CKO_PRIVATE_KEY t a = n at *
  generalize newObject e s CKK_RSA CKO_PRIVATE_KEY t = q at *
  rcases hg.or with h | h
  · rw [← h.rv, ← h.obj]
    split
    · exact .inl rfl
    cases e.parsePriv der with
    | none => exact .inl rfl
    | some k =>
      dsimp only
      rcases addObjectM_rng (e := e) l s t { n.obj with data := .rsa k } n.left with h | ⟨h, h'⟩
      · left; rw [← h]
      · exact .inr ⟨.inr h, h'⟩
  · have hn : n.rv ≠ .ok := by rcases h with h | h <;> rw [h] <;> exact fun h => by cases h
    rw [if_pos hn]
    exact .inr ⟨h, rfl⟩

theorem cUnwrapM_good (l : Lib) (s : Session) (m : Option (Mech × MechParam)) (wk : Nat) (d : Option Bytes)
    (t : Option (List Entry)) (ptr : Bool) (a : Mem) :
    Spent l s (cUnwrapM e l s m wk d t ptr a) (cUnwrap e l s m wk d t ptr) ∧
    (Plenty a → cUnwrapM e l s m wk d t ptr a = cUnwrap e l s m wk d t ptr) := by
  unfold cUnwrapM cUnwrap
  split
  · exact ⟨.inl rfl, fun _ => rfl⟩
  cases m with
  | none => exact ⟨.inl rfl, fun _ => rfl⟩
  | some mp =>
    cases d with
    | none => exact ⟨.inl rfl, fun _ => rfl⟩
    | some d =>
      cases t with
      | none => exact ⟨.inl rfl, fun _ => rfl⟩
      | some t =>
        dsimp only
        split
        · exact ⟨.inl rfl, fun _ => rfl⟩
        cases findObj l s wk with
        | none => exact ⟨.inl rfl, fun _ => rfl⟩
        | some w =>
          dsimp only
          split
          · exact ⟨.inl rfl, fun _ => rfl⟩
          split
          · exact ⟨.inl rfl, fun _ => rfl⟩
          split
          · exact ⟨.inl rfl, fun _ => rfl⟩
          by_cases h1 : memOk a = false
          · rw [if_pos h1]; exact ⟨.inr (.inl ⟨rfl, rfl⟩), fun hp => absurd h1 hp.not⟩
          rw [if_neg h1]
          split
          · exact ⟨.inl rfl, fun _ => rfl⟩
          split
          · exact ⟨.inl rfl, fun _ => rfl⟩
          refine ⟨?_, fun hp => (addRsaPrivateM_good _ s t _ a.tail).2 hp.tail⟩
          exact (addRsaPrivateM_same _ s t _ a.tail).imp id fun h => .inr ⟨h.1, _, _, h.2⟩

/-! ## The calls -/

theorem stepM_eq {a : Mem} {l : Lib} {c : Call} (h : callBodyM e a l c = callBody e l c) : stepM e a l c = step e l c := by
  unfold stepM step
  rw [h]

theorem stepM_bad {a : Mem} {l : Lib} {c : Call} (h : l.bad = true) : stepM e a l c = (l, { rv := .ub }) := by
  unfold stepM
  rw [h]
  rfl

theorem stepM_good {a : Mem} {l : Lib} {c : Call} (hb : l.bad = false) (h : (callBodyM e a l c).2.rv ≠ .ub) :
    stepM e a l c = callBodyM e a l c := by
  unfold stepM
  rw [hb]
  simp only [Bool.false_eq_true, if_false, if_neg h]

theorem spared_step {a : Mem} {l : Lib} {c : Call} (h : Spared l (callBodyM e a l c) (callBody e l c)) :
    Spared l (stepM e a l c) (step e l c) := by
  rcases h with h | ⟨h, h'⟩
  · exact .inl (stepM_eq h)
  · cases hb : l.bad with
    | true => rw [stepM_bad hb, step_bad hb]; exact .rfl
    | false =>
      rw [stepM_good hb (by rcases h with h | h <;> rw [h] <;> exact fun h => by cases h)]
      exact .inr ⟨h, h'⟩

theorem okUsual_step {a : Mem} {l : Lib} {c : Call} (h : OkUsual (callBodyM e a l c) (callBody e l c)) :
    OkUsual (stepM e a l c) (step e l c) := by
  intro hok
  cases hb : l.bad with
  | true => rw [stepM_bad hb] at hok; cases hok
  | false =>
    have hub : (callBodyM e a l c).2.rv ≠ .ub := by
      intro hu
      unfold stepM at hok
      rw [hb] at hok
      simp only [Bool.false_eq_true, if_false, hu, if_true] at hok
      cases hok
    rw [stepM_good hb hub] at hok
    exact stepM_eq (h hok)

/-- As long as no allocation fails every call is the usual one. -/
theorem stepM_enough {a : Mem} (hp : Plenty a) (l : Lib) (c : Call) : stepM e a l c = step e l c := by
  refine stepM_eq ?_
  cases c with
  | cInit => rfl
  | cFinal => rfl
  | slot id c =>
    cases c with
    | openSession rw serial ptr =>
      simp only [callBodyM, callBody, slotCall, (openSessionM_good l rw a).2 hp]
    | _ => rfl
  | sess h c =>
    simp only [callBodyM, callBody]
    split
    · rfl
    cases getSession l h with
    | none => rfl
    | some s =>
      cases c with
      | close => simp only [sessCallM, sessCall, closeSessionM, closeSession, logoutM_enough _ hp]
      | login u pin now => exact (loginM_good l u pin now a).2 hp
      | logout => simp only [sessCallM, sessCall, logoutM_enough _ hp]
      | create t ptr => exact (cCreateM_good l s t ptr a).2 hp
      | copy o t ptr => exact (cCopyM_good l s o t ptr a).2 hp
      | setAttr o t => exact (cSetAttrM_good l s o t a).2 hp
      | findInit t => exact cFindInitM_enough l s t hp
      | genKey m t ptr => exact (cGenKeyM_good l s m t ptr a).2 hp
      | genPair m tp tq ptrs => exact (cGenPairM_good l s m tp tq ptrs a).2.2 hp
      | derive m base t ptr => exact (cDeriveM_good l s m base t ptr a).2 hp
      | cryptInit k m key => exact (cCryptInitM_good l s k m key a).2 hp
      | crypt c => exact (cCryptM_good l s c a).2 hp
      | wrap m wk key ob => exact (cWrapM_good l s m wk key ob a).2 hp
      | unwrap m wk d t ptr => exact (cUnwrapM_good l s m wk d t ptr a).2 hp
      | _ => rfl

theorem sess_spared {a : Mem} {l : Lib} {h : Nat} {c : SessCall}
    (hc : ∀ s, getSession l h = some s → Spared l (sessCallM e a l s c) (sessCall e l s c)) :
    Spared l (callBodyM e a l (.sess h c)) (callBody e l (.sess h c)) := by
  simp only [callBodyM, callBody]
  split
  · exact .rfl
  cases hs : getSession l h with
  | none => exact .rfl
  | some s => exact hc s hs

theorem sess_okUsual {a : Mem} {l : Lib} {h : Nat} {c : SessCall}
    (hc : ∀ s, getSession l h = some s → OkUsual (sessCallM e a l s c) (sessCall e l s c)) :
    OkUsual (callBodyM e a l (.sess h c)) (callBody e l (.sess h c)) := by
  simp only [callBodyM, callBody]
  split
  · exact .rfl
  cases hs : getSession l h with
  | none => exact .rfl
  | some s => exact hc s hs

/-! ## C110: refused for lack of memory -/

/-- **C110** (partial).  Whatever allocations fail, a call that makes one object does what it
would have done with enough memory, or it is refused with `CKR_DEVICE_MEMORY` or
`CKR_FUNCTION_FAILED` and changes nothing but the random generator.
Missing: calls that make a pair with the private key on the token, change attributes or log in
(`c110_violated_pair`, `c110_violated_set`, `c110_violated_login`). -/
theorem c110_partial (a : Mem) (l : Lib) (c : Call) (hc : MakesOne c) :
    stepM e a l c = step e l c ∨
    (((answerM e a l c).rv = .deviceMemory ∨ (answerM e a l c).rv = .functionFailed) ∧
      (stepM e a l c).1 = { l with rng := (stepM e a l c).1.rng }) := by
  refine spared_step ?_
  cases c with
  | sess h c =>
    refine sess_spared fun s _ => ?_
    cases c with
    | create t ptr => exact (cCreateM_good l s t ptr a).1
    | copy o t ptr => exact (cCopyM_good l s o t ptr a).1
    | genKey m t ptr => exact (cGenKeyM_good l s m t ptr a).1
    | derive m base t ptr => exact (cDeriveM_good l s m base t ptr a).1
    | _ => exact absurd hc id
  | _ => exact absurd hc id

/-- **C110** (partial), for pairs whose private key stays in the session. -/
theorem c110_pair_partial (a : Mem) (l : Lib) (c : Call) (hc : PrivInSession c) :
    stepM e a l c = step e l c ∨
    (((answerM e a l c).rv = .deviceMemory ∨ (answerM e a l c).rv = .functionFailed) ∧
      (stepM e a l c).1 = { l with rng := (stepM e a l c).1.rng }) := by
  refine spared_step ?_
  cases c with
  | sess h c =>
    refine sess_spared fun s _ => ?_
    cases c with
    | genPair m tp tq ptrs =>
      refine (cGenPairM_good l s m tp tq ptrs a).2.1 fun t ht => ?_
      have : findAttr t .token = none := by
        unfold findAttr
        exact List.find?_eq_none.mpr fun en hen => by simpa using hc t ht en (List.mem_reverse.mp hen)
      unfold tokenByte
      rw [this]
    | _ => exact absurd hc id
  | _ => exact absurd hc id

/-! ## C111: success although memory ran out -/

/-- **C111** (partial).  Whatever allocations fail: when a call that makes an object or a pair,
changes attributes, logs in, works with a key or wraps or unwraps one reports success, it has done
exactly what it would have done with enough memory.
Missing: `C_OpenSession`, `C_FindObjectsInit`, `C_Logout` and `C_CloseSession`
(`c111_violated_open`, `c111_violated_find`, `c111_violated_logout`). -/
theorem c111_partial (a : Mem) (l : Lib) (c : Call) (hc : MakesOne c ∨ MakesPair c ∨ SetsAttrs c ∨ LogsIn c ∨ UsesKey c)
    (hok : (answerM e a l c).rv = .ok) : stepM e a l c = step e l c := by
  refine okUsual_step ?_ hok
  cases c with
  | sess h c =>
    refine sess_okUsual fun s _ => ?_
    cases c with
    | create t ptr => exact (cCreateM_good l s t ptr a).1.okUsual
    | copy o t ptr => exact (cCopyM_good l s o t ptr a).1.okUsual
    | genKey m t ptr => exact (cGenKeyM_good l s m t ptr a).1.okUsual
    | derive m base t ptr => exact (cDeriveM_good l s m base t ptr a).1.okUsual
    | genPair m tp tq ptrs => exact (cGenPairM_good l s m tp tq ptrs a).1
    | setAttr o t => exact (cSetAttrM_good l s o t a).1
    | login u pin now =>
      intro hok
      rcases (loginM_good (e := e) l u pin now a).1 with h | ⟨p, _, _, h, _⟩
      · exact h
      · exact absurd (hok.symm.trans (congrArg Resp.rv h)) (fun h => by cases h)
    | cryptInit k m key =>
      intro hok
      rcases (cCryptInitM_good (e := e) l s k m key a).1 with h | ⟨_, _, _, _, _, _, h⟩
      · exact h
      · exact absurd (hok.symm.trans (congrArg (fun r => r.2.rv) h)) (fun h => by cases h)
    | crypt c =>
      intro hok
      rcases (cCryptM_good (e := e) l s c a).1 with h | h
      · exact h
      · exact absurd (hok.symm.trans (congrArg (fun r => r.2.rv) h)) (fun h => by cases h)
    | wrap m wk key ob =>
      intro hok
      rcases (cWrapM_good (e := e) l s m wk key ob a).1 with h | h | h
      · exact h
      · exact absurd (hok.symm.trans (congrArg (fun r => r.2.rv) h)) (fun h => by cases h)
      · exact absurd (hok.symm.trans (congrArg (fun r => r.2.rv) h)) (fun h => by cases h)
    | unwrap m wk d t ptr =>
      intro hok
      rcases (cUnwrapM_good (e := e) l s m wk d t ptr a).1 with h | h | h
      · exact h
      · exact absurd (hok.symm.trans h.1) (fun h => by cases h)
      · rcases h.1 with h | h <;> exact absurd (hok.symm.trans h) (fun h => by cases h)
    | _ => rcases hc with h | h | h | h | h <;> exact absurd h id
  | _ => rcases hc with h | h | h | h | h <;> exact absurd h id

/-- **C111** (partial), for searches: what a search begun with too little memory hands out
are objects that match, as with enough memory.  Missing: that none is left out. -/
theorem c111_find_partial (hx : e.key.Lawful) {l₀ : Lib} (h₀ : Start l₀) (cs : List Call) (a : Mem) (h : Nat) (w : Wanted)
    (hw : ∀ p ∈ w, p.2.length < 2 ^ 64 - 1)
    (hok : (answerM e a (run e l₀ cs) (.sess h (.findInit (some w.tmpl)))).rv = .ok)
    (cs' : List Call) (hk : ∀ c ∈ cs', c.KeepsSearch h)
    (hg : (run e (stepM e a (run e l₀ cs) (.sess h (.findInit (some w.tmpl)))).1 cs').bad = false) (max : Nat) :
    ∀ k ∈ (answer e (run e (stepM e a (run e l₀ cs) (.sess h (.findInit (some w.tmpl)))).1 cs')
      (.sess h (.findNext true max))).found, k ∈ hits e (run e l₀ cs) h w := by
  have hi := h₀.sinv.run e cs
  have hdates := dates_run e h₀ cs
  generalize run e l₀ cs = l at *
  have hb : l.bad = false := by
    cases hb : l.bad with
    | false => rfl
    | true => unfold answerM at hok; rw [stepM_bad hb] at hok; cases hok
  have hst : ∃ s f, getSession l h = some s ∧ (∀ k ∈ f, k ∈ hits e l h w) ∧
      (stepM e a l (.sess h (.findInit (some w.tmpl)))).1 =
        l.upd s.handle fun u => { u with find := { active := true, found := f } } := by
    have hub : (callBodyM e a l (.sess h (.findInit (some w.tmpl)))).2.rv ≠ .ub := by
      intro hu
      unfold answerM stepM at hok
      rw [hb] at hok
      simp only [Bool.false_eq_true, if_false, hu, if_true] at hok
      cases hok
    unfold answerM at hok
    rw [stepM_good hb hub] at hok ⊢
    clear hg hub
    simp only [callBodyM] at hok ⊢
    split at hok
    · cases hok
    rename_i hc
    rw [if_neg hc]
    cases hs : getSession l h with
    | none => rw [hs] at hok; cases hok
    | some s =>
      rw [hs] at hok
      refine ⟨s, ?_⟩
      have hsm := (getSession_handle hs).2.2
      have so : sessObjs l h = s.objs := by simp [sessObjs, hs]
      simp only [sessCallM, cFindInitM] at hok ⊢
      split at hok
      · cases hok
      rename_i ha
      rw [if_neg ha]
      cases hon : tokenByte w.tmpl 1 with
      | error rv => rw [hon] at hok; have := tokenByte_error hon; rw [this] at hok; cases hok
      | ok on =>
        rw [hon] at hok
        dsimp only at hok ⊢
        split at hok
        · cases hok
        rename_i hcy
        rw [if_neg hcy]
        generalize hf : findLoopM e.key l.token.login w.tmpl (s.objs ++ if on ≠ 0 then l.token.objs else []) [] a = r at *
        cases r with
        | none => cases hok
        | some f =>
          refine ⟨f, trivial, fun k hk => ?_, rfl⟩
          have hdall : ∀ o ∈ s.objs ++ (if on ≠ 0 then l.token.objs else []), DatesOk o := by
            intro o ho
            rcases List.mem_append.mp ho with ho | ho
            · exact hdates.2 s hsm o ho
            · split at ho
              · exact hdates.1 o ho
              · cases ho
          rcases findLoopM_mem hx (fun p hp => by have := hw p hp; unfold unavailableInfo; omega) hdall hf k hk with h | ⟨o, ho, h1, h2, h3⟩
          · cases h
          · unfold hits
            refine List.mem_map.mpr ⟨o, List.mem_filter.mpr ⟨?_, by simpa using ⟨h1, h2⟩⟩, h3⟩
            rw [so]
            rcases List.mem_append.mp ho with ho | ho
            · exact List.mem_append_left _ ho
            · split at ho
              · exact List.mem_append_right _ ho
              · cases ho
  obtain ⟨s, f, hs, hf, heq⟩ := hst
  rw [heq] at hg ⊢
  have hu : Searching (l.upd s.handle fun u => { u with find := { active := true, found := f } }) h f 0 := by
    rw [(getSession_handle hs).1]
    exact ⟨_, searching_upd hs (f := fun u => { u with find := { active := true, found := f } }) (fun _ => ⟨rfl, rfl⟩),
      rfl, by simp, rfl⟩
  have hi' : SInv (l.upd s.handle fun u => { u with find := { active := true, found := f } }) :=
    hi.frame (h := s.handle) (s := s) ⟨rfl, fun u => { u with find := { active := true, found := f } }, fun _ => ⟨rfl, rfl⟩, rfl⟩
      (by rw [(getSession_handle hs).1]; exact hs) hi.so
  obtain ⟨s', h3, h4, h5, _⟩ := searching_run hi' hu hk hg
  have hcnt := count_pos_of_open (hi'.run e cs') h3
  intro k hk'
  unfold answer at hk'
  rw [step_resp hg] at hk'
  simp only [callBody] at hk'
  rw [if_neg (by omega), h3] at hk'
  simp only [sessCall, cFindNext, Bool.not_true, Bool.false_eq_true, if_false, h4] at hk'
  exact hf k (List.mem_of_mem_drop (List.mem_of_mem_take hk'))

/-- **C111** (partial), for `C_OpenSession`: the usual result, or a success without a handle
that changes nothing. -/
theorem c111_open_partial (a : Mem) (l : Lib) (id : Nat) (rw serial ptr : Bool) :
    stepM e a l (.slot id (.openSession rw serial ptr)) = step e l (.slot id (.openSession rw serial ptr)) ∨
    stepM e a l (.slot id (.openSession rw serial ptr)) = (l, { rv := .ok }) := by
  cases hb : l.bad with
  | true => rw [stepM_bad hb, step_bad hb]; exact .inl rfl
  | false =>
    rcases (openSessionM_good l rw a).1 with h | h
    · exact .inl (stepM_eq (by simp only [callBodyM, callBody, slotCall, h]))
    · by_cases hs : callBodyM e a l (.slot id (.openSession rw serial ptr)) = callBody e l (.slot id (.openSession rw serial ptr))
      · exact .inl (stepM_eq hs)
      · right
        have : callBodyM e a l (.slot id (.openSession rw serial ptr)) = (l, { rv := .ok }) := by
          simp only [callBodyM, callBody, slotCall, h] at hs ⊢
          by_cases h1 : l.count ≤ 0
          · simp only [if_pos h1] at hs; exact absurd trivial hs
          by_cases h2 : id ≠ 1
          · simp only [if_neg h1, if_pos h2] at hs; exact absurd trivial hs
          by_cases h3 : (!serial) = true
          · simp only [if_neg h1, if_neg h2, if_pos h3] at hs; exact absurd trivial hs
          by_cases h4 : (!ptr) = true
          · simp only [if_neg h1, if_neg h2, if_neg h3, if_pos h4] at hs; exact absurd trivial hs
          rw [if_neg h1, if_neg h2, if_neg h3, if_neg h4]
        rw [stepM_good hb (by rw [this]; exact fun h => by cases h), this]

/-- **C111** (partial), for `C_Logout`: whatever allocations fail, the answer is the usual one
and nobody is logged in afterwards, and the token's keys are encrypted and cleared up to some
object; those behind it are as they were before, so a key is either cleared as usual or keeps
its value.  Missing: that all of them are cleared. -/
theorem c111_logout_partial (a : Mem) (l : Lib) (h : Nat) (hok : (answerM e a l (.sess h .logout)).rv = .ok) :
    let l' := (stepM e a l (.sess h .logout)).1
    answerM e a l (.sess h .logout) = answer e l (.sess h .logout) ∧ l'.token.login = .pub ∧
    l' = { l with token := { l.token with login := .pub, objs := l'.token.objs } } ∧
    (l' = (step e l (.sess h .logout)).1 ∨
      ∃ done o rest, l.token.objs = done ++ o :: rest ∧
        l'.token.objs = done.map (fun p => (encodeObj e.store l.token.key true p).2) ++ { o with keyData := none } :: rest) := by
  have hb : l.bad = false := by
    cases hb : l.bad with
    | false => rfl
    | true => unfold answerM at hok; rw [stepM_bad hb] at hok; cases hok
  have hub : (callBodyM e a l (.sess h .logout)).2.rv ≠ .ub := by
    simp only [callBodyM]
    split
    · exact fun h => by cases h
    · cases getSession l h with
      | none => exact fun h => by cases h
      | some s => exact fun h => by cases h
  unfold answerM at hok ⊢
  rw [stepM_good hb hub] at hok ⊢
  have hub' : (callBody e l (.sess h .logout)).2.rv ≠ .ub := by
    simp only [callBody]
    split
    · exact fun h => by cases h
    · cases getSession l h with
      | none => exact fun h => by cases h
      | some s => exact fun h => by cases h
  unfold answer
  rw [step_eq hb hub']
  simp only [callBodyM, callBody] at hok ⊢
  split at hok
  · cases hok
  rename_i hc
  simp only [if_neg hc]
  cases hs : getSession l h with
  | none => rw [hs] at hok; cases hok
  | some s =>
    dsimp only [sessCallM, sessCall]
    refine ⟨rfl, rfl, rfl, ?_⟩
    unfold logoutM logout
    dsimp only
    split
    · rcases encodeAllM_cut e.store l.token.key l.token.objs a with h | ⟨d, o, r, h1, h2⟩
      · rw [h]; exact .inl rfl
      · exact .inr ⟨d, o, r, h1, h2⟩
    · exact .inl rfl

/-- **C110** (partial), for logins: a login that runs out of memory is refused as if the PIN
were wrong, nobody is logged in, the PIN counters are those of the login with enough memory, so
no failed try is counted, and the objects are decrypted in order up to one that stays encrypted.
Missing: that nothing is decrypted and that the answer says why. -/
theorem c110_login_partial (a : Mem) (l : Lib) (h : Nat) (u : UserType) (pin : Option Bytes) (now : Int) :
    let c : Call := .sess h (.login u pin now)
    let l' := (stepM e a l c).1
    stepM e a l c = step e l c ∨
    ∃ p, u = .user ∧ pin = some p ∧ answerM e a l c = { rv := .pinIncorrect } ∧ l.token.login = .pub ∧
      l' = { l with token := { l.token with user := (step e l c).1.token.user, key := (step e l c).1.token.key, objs := l'.token.objs } } ∧
      ∃ done o rest, l.token.objs = done ++ o :: rest ∧
        l'.token.objs = done.map (fun p' => (decodeObj e.store (e.store.hash p l.token.seed) p').2) ++
          { o with encoded := true } :: rest := by
  dsimp only
  cases hb : l.bad with
  | true => rw [stepM_bad hb, step_bad hb]; exact .inl rfl
  | false =>
    by_cases heq : callBodyM e a l (.sess h (.login u pin now)) = callBody e l (.sess h (.login u pin now))
    · exact .inl (stepM_eq heq)
    right
    by_cases hc : l.count ≤ 0
    · exact absurd (by simp only [callBodyM, callBody, if_pos hc]) heq
    cases hs : getSession l h with
    | none => exact absurd (by simp only [callBodyM, callBody, hs]) heq
    | some s =>
      have hM : callBodyM e a l (.sess h (.login u pin now)) = loginM e l u pin now a := by
        simp only [callBodyM, if_neg hc, hs]; rfl
      have hQ : callBody e l (.sess h (.login u pin now)) = login e l u pin now := by
        simp only [callBody, if_neg hc, hs]; rfl
      rw [hM, hQ] at heq
      obtain ⟨p, hu, hp, h1, h2⟩ := (loginM_good (e := e) l u pin now a).1.resolve_left heq
      have hst : stepM e a l (.sess h (.login u pin now)) = loginM e l u pin now a := by
        rw [stepM_good hb (by rw [hM, h1]; exact fun h => by cases h), hM]
      have hq : (step e l (.sess h (.login u pin now))).1.token = (login e l u pin now).1.token := by
        unfold step
        rw [hb, hQ]
        simp only [Bool.false_eq_true, if_false]
        split <;> rfl
      refine ⟨p, hu, hp, ?_, ?_⟩
      · unfold answerM; rw [hst, h1]
      · rw [hst, hq]
        exact ⟨h2.2.2.1, by have := h2.2.1; dsimp only at this; rw [hb] at this; exact this, h2.2.2.2⟩

/-- **C110** (partial), for `C_SetAttributeValue`: a template with neither a label nor an ID
needs no memory.
Missing: templates with one of them. -/
theorem c110_set_partial (a : Mem) (l : Lib) (h o : Nat) (t : Option (List Entry))
    (ht : ∀ es, t = some es → ∀ en ∈ es, en.typ ≠ .id ∧ en.typ ≠ .label) :
    stepM e a l (.sess h (.setAttr o t)) = step e l (.sess h (.setAttr o t)) := by
  have hno : ∀ (es : List Entry) (ob : Obj) (a : Mem), (∀ en ∈ es, en.typ ≠ .id ∧ en.typ ≠ .label) →
      (setAttrsM ob es a).Usual (setAttrs ob es) := by
    intro es
    induction es with
    | nil => exact fun ob a _ => ⟨rfl, rfl, rfl⟩
    | cons en es ih =>
      intro ob a hes
      have hen : ownMem en.typ = false := by
        have := hes en List.mem_cons_self
        cases hty : en.typ <;> first | rfl | exact absurd hty this.1 | exact absurd hty this.2
      simp only [setAttrsM, setAttrs, hen, Bool.false_eq_true, false_and, if_false]
      generalize setAttr ob en = r
      obtain ⟨r1, r2⟩ := r
      cases r1
      case ok => exact ih r2 a fun en' h' => hes en' (List.mem_cons_of_mem _ h')
      all_goals exact ⟨rfl, rfl, rfl⟩
  refine stepM_eq ?_
  simp only [callBodyM, callBody]
  split
  · rfl
  cases hs : getSession l h with
  | none => rfl
  | some s =>
    dsimp only [sessCallM, sessCall]
    unfold cSetAttrM cSetAttr
    cases t with
    | none => rfl
    | some es =>
      simp only
      split
      · rfl
      cases findObj l s o with
      | none => rfl
      | some ob =>
        have hu : (setAttributeValueM e.key true ob es a).Usual (setAttributeValue e.key true ob es) := by
          unfold setAttributeValueM setAttributeValue
          simp only [Bool.not_true, Bool.false_eq_true, if_false]
          split
          · exact ⟨rfl, rfl, rfl⟩
          cases keyParams ob with
          | none => exact ⟨rfl, rfl, rfl⟩
          | some ps =>
            dsimp only
            split
            · exact ⟨rfl, rfl, rfl⟩
            · generalize setKey e.key ob (keyVals es) = r
              obtain ⟨r1, r2⟩ := r
              cases r1
              case ok => exact hno es r2 a (ht es rfl)
              all_goals exact ⟨rfl, rfl, rfl⟩
        simp only [hu.hole, hu.rv, hu.obj]
        rfl

theorem setAttrsM_key (o : Obj) (t : List Entry) (a : Mem) : (setAttrsM o t a).obj.key = o.key := by
  induction t generalizing o a with
  | nil => rfl
  | cons en t ih =>
    have h := setAttr_rest o en
    have hk : (setAttr o en).2.key = o.key := by simp only [Obj.key, h.handle, h.uid, h.onToken]
    simp only [setAttrsM]
    split
    · rfl
    · cases hr : (setAttr o en).1 <;> dsimp only
      case ok => exact (ih ..).trans hk
      all_goals exact hk

theorem setAttributeValueM_key (x : KeyExt) (b : Bool) (o : Obj) (t : List Entry) (a : Mem) :
    (setAttributeValueM x b o t a).obj.key = o.key := by
  unfold setAttributeValueM
  split
  · rfl
  dsimp only
  split
  · rfl
  cases keyParams o with
  | none => rfl
  | some ps =>
    dsimp only
    split
    · rfl
    · obtain ⟨d, s, h⟩ := setKey_frame x o (keyVals t)
      have hk : (setKey x o (keyVals t)).2.key = o.key := by rw [h]; rfl
      cases hr : (setKey x o (keyVals t)).1 <;> dsimp only
      case ok => exact (setAttrsM_key ..).trans hk
      all_goals exact hk

theorem replObj_filter {os : List Obj} (hn : (os.map (·.uid)).Nodup) {ob ob' : Obj} (hm : ob ∈ os) (hk : ob'.key = ob.key) :
    (replObj ob' os).filter (fun p => p.handle != ob.handle) = os.filter (fun p => p.handle != ob.handle) := by
  have huid : ob'.uid = ob.uid := congrArg (·.2.1) hk
  have hhan : ob'.handle = ob.handle := congrArg (·.1) hk
  have : ∀ os' : List Obj, (∀ p ∈ os', p.uid = ob.uid → p.handle = ob.handle) →
      (replObj ob' os').filter (fun p => p.handle != ob.handle) = os'.filter (fun p => p.handle != ob.handle) := by
    intro os' h
    induction os' with
    | nil => rfl
    | cons p os' ih =>
      have ih := ih fun q hq => h q (List.mem_cons_of_mem _ hq)
      unfold replObj at ih ⊢
      rw [List.map_cons]
      by_cases hp : p.uid = ob'.uid
      · rw [if_pos hp, List.filter_cons_of_neg (by simp [hhan]),
          List.filter_cons_of_neg (by simp [h p List.mem_cons_self (hp.trans huid)])]
        exact ih
      · rw [if_neg hp, List.filter_cons, List.filter_cons, ih]
  exact this os fun p hp hpu => by rw [uid_inj hn hp hm hpu]

theorem allBut_putObj {l : Lib} (hu : UidOk l) (hn : (handles l.sessions).Nodup) {h o : Nat} {s : Session} {ob ob' : Obj}
    (hs : getSession l h = some s) (hf : findObj l s o = some ob) (hk : ob'.key = ob.key) :
    allBut h o (putObj l s o ob') = allBut h o l := by
  obtain ⟨h1, h2, h3⟩ := findObj_parts hf
  obtain ⟨hh, _, hsm⟩ := getSession_handle hs
  unfold putObj
  split
  · rename_i ht
    unfold allBut
    have := replObj_filter hu.1 (h2 ht) hk
    rw [h1] at this
    dsimp only
    rw [this]
  · rename_i ht
    have hos := h3 (by simpa using ht)
    unfold allBut Lib.upd
    dsimp only
    rw [List.map_map]
    have : l.sessions.map ((fun s => if s.handle = h then { s with objs := s.objs.filter fun p => p.handle != o } else s) ∘
          fun t => if t.handle = s.handle then { t with objs := replObj ob' t.objs } else t) =
        l.sessions.map (fun s => if s.handle = h then { s with objs := s.objs.filter fun p => p.handle != o } else s) := by
      refine List.map_congr_left fun t ht => ?_
      simp only [Function.comp_apply]
      by_cases hts : t.handle = s.handle
      · have : t = s := handle_inj hn ht hsm hts
        subst this
        have := replObj_filter (hu.2 t ht) hos hk
        rw [h1] at this
        simp only [if_true, this, if_pos hh]
      · simp only [if_neg hts]
    rw [this]

/-- **C110** (partial), for `C_SetAttributeValue`: whatever memory is missing, the call changes
the object it was given and nothing else, but that the freed label or ID it may leave makes the
library unusable (`bad`).
Missing: that a refused call leaves the object as it was. -/
theorem c110_set_one_partial (hh : HashLen e) (hr : RandLen e) {l₀ : Lib} (h₀ : Start l₀) (hd : NoToken l₀)
    (cs : List Call) (a : Mem) (h o : Nat) (t : Option (List Entry)) :
    let l := run e l₀ cs
    let l' := (stepM e a l (.sess h (.setAttr o t))).1
    allBut h o l' = { allBut h o l with bad := l'.bad } := by
  have hi := h₀.sinv.run e cs
  have hu := ((Start.capInv h₀ hd).run hh hr h₀.sinv cs).pop.uidOk
  dsimp only
  generalize run e l₀ cs = l at *
  have hset : ∀ (l' : Lib), allBut h o l' = { allBut h o l with bad := l'.bad } →
      allBut h o { l' with bad := true } = { allBut h o l with bad := true } := by
    intro l' hl
    have : allBut h o { l' with bad := true } = { allBut h o l' with bad := true } := rfl
    rw [this, hl]
  have key : allBut h o (callBodyM e a l (.sess h (.setAttr o t))).1 =
      { allBut h o l with bad := (callBodyM e a l (.sess h (.setAttr o t))).1.bad } := by
    simp only [callBodyM]
    split
    · rfl
    cases hs : getSession l h with
    | none => rfl
    | some s =>
      simp only [sessCallM, cSetAttrM]
      cases t with
      | none => rfl
      | some t =>
        simp only
        split
        · rfl
        cases hf : findObj l s o with
        | none => rfl
        | some ob =>
          have hp := allBut_putObj hu hi.nodup hs hf (setAttributeValueM_key e.key true ob t a)
          have hp' : allBut h o (putObj l s o (setAttributeValueM e.key true ob t a).obj) =
              { allBut h o l with bad := (putObj l s o (setAttributeValueM e.key true ob t a).obj).bad } := by
            have hb : (putObj l s o (setAttributeValueM e.key true ob t a).obj).bad = l.bad := by
              unfold putObj Lib.upd; split <;> rfl
            rw [hp, hb]; rfl
          dsimp only
          split
          · exact hset _ hp'
          · exact hp'
  unfold stepM
  split
  · rename_i hb
    rfl
  · dsimp only
    split
    · exact hset _ key
    · exact key

/-- **C111** (partial), for `C_CloseSession`: the session is closed however little memory there
is; when it was the last one everybody is logged out and the objects are encrypted in order up
to one that stays as it was.
Missing: that all are encrypted. -/
theorem c111_close_partial (a : Mem) (l : Lib) (h : Nat) (hok : (answerM e a l (.sess h .close)).rv = .ok) :
    let q := (step e l (.sess h .close)).1
    let l' := (stepM e a l (.sess h .close)).1
    answerM e a l (.sess h .close) = answer e l (.sess h .close) ∧
    l' = { q with token := { q.token with objs := l'.token.objs } } ∧
    (l' = q ∨ ∃ done o rest, l.token.objs = done ++ o :: rest ∧
        l'.token.objs = done.map (fun p => (encodeObj e.store l.token.key true p).2) ++ { o with keyData := none } :: rest) := by
  have hb : l.bad = false := by
    cases hb : l.bad with
    | false => rfl
    | true => unfold answerM at hok; rw [stepM_bad hb] at hok; cases hok
  have hub : (callBodyM e a l (.sess h .close)).2.rv ≠ .ub := by
    simp only [callBodyM]
    split
    · exact fun h => by cases h
    · cases getSession l h with
      | none => exact fun h => by cases h
      | some s => exact fun h => by cases h
  unfold answerM at hok ⊢
  rw [stepM_good hb hub] at hok ⊢
  have hub' : (callBody e l (.sess h .close)).2.rv ≠ .ub := by
    simp only [callBody]
    split
    · exact fun h => by cases h
    · cases getSession l h with
      | none => exact fun h => by cases h
      | some s => exact fun h => by cases h
  unfold answer
  rw [step_eq hb hub']
  simp only [callBodyM, callBody] at hok ⊢
  split at hok
  · cases hok
  rename_i hc
  simp only [if_neg hc]
  cases hs : getSession l h with
  | none => rw [hs] at hok; cases hok
  | some s =>
    dsimp only [sessCallM, sessCall, closeSessionM, closeSession]
    refine ⟨rfl, ?_⟩
    split
    · exact ⟨rfl, .inl rfl⟩
    · unfold logoutM logout
      dsimp only
      refine ⟨rfl, ?_⟩
      split
      · rcases encodeAllM_cut e.store l.token.key l.token.objs a with h | ⟨d, o, r, h1, h2⟩
        · rw [h]; exact .inl rfl
        · exact .inr ⟨d, o, r, h1, h2⟩
      · exact .inl rfl

/-! ## Where the code does not behave like that -/

namespace Demo

/-- A key pair with the private key on the token. -/
def tokenPair : Call := Verif.pairCall 65538 .rsaKeyPairGen (.null 0) rsaPub [.of .token [1]]

set_option maxRecDepth 20000 in
/-- C110 fails for `C_GenerateKeyPair`: when there is no memory to encrypt the private key the
call is refused, but the public key, freed, is still in the list of the session: the next call
may read freed memory. -/
theorem c110_violated_pair :
    let l := run keepEnv fresh setup
    (answer keepEnv l tokenPair).rv = .ok ∧
    (answerM keepEnv [true, true, false] l tokenPair).rv = .functionFailed ∧
    (stepM keepEnv [true, true, false] l tokenPair).1.bad = true ∧
    (sessObjs (stepM keepEnv [true, true, false] l tokenPair).1 65538).length = 1 := by
  decide

/-- Give the key another label. -/
def relabel (b : Bytes) : Call := .sess 65538 (.setAttr tok1 (some [.of .label b, .of .value (List.replicate 16 7)]))

set_option maxRecDepth 20000 in
/-- C110 fails for `C_SetAttributeValue`: without memory for the new label the call is
refused, but the memory of the old one is freed and only its length left: the next call that
reads the label copies from NULL. -/
theorem c110_violated_set :
    let l := run env fresh (withKey ++ [relabel [65, 66]])
    (answer env l (relabel [67])).rv = .ok ∧
    (answerM env [false] l (relabel [67])).rv = .functionFailed ∧
    (stepM env [false] l (relabel [67])).1.bad = true := by
  decide

/-- A token with a private RSA key and then a secret key, and nobody logged in. -/
def rsaThenAes : List Call := setup ++ [tokenPair, createCall 65538 (openTmpl true 7), .sess 65538 .logout]

set_option maxRecDepth 40000 in
/-- C110 fails for `C_Login`: without memory to decrypt the RSA key the right PIN is refused as
wrong, and the secret key in front of it can then be read although nobody is logged in. -/
theorem c110_violated_login :
    let l := run keepEnv fresh rsaThenAes
    let c := loginCall 65538 .user userPin 0
    (answer keepEnv l c).rv = .ok ∧
    shownValue keepEnv l (tok1 + 1) = some [(16, some (List.replicate 16 0))] ∧
    (answerM keepEnv [false] l c).rv = .pinIncorrect ∧
    (stepM keepEnv [false] l c).1.token.login = .pub ∧
    shownValue keepEnv (stepM keepEnv [false] l c).1 (tok1 + 1) = some [(16, some (List.replicate 16 7))] := by
  decide

set_option maxRecDepth 20000 in
/-- C111 fails for `C_OpenSession`: without memory for the third session the answer is
`CKR_OK`, but there is no handle and no session. -/
theorem c111_violated_open :
    let l := run env fresh [.cInit, openCall true, openCall true]
    (answer env l (openCall true)).handle = some 65539 ∧
    answerM env [false] l (openCall true) = { rv := .ok } ∧
    (stepM env [false] l (openCall true)).1.sessions = l.sessions := by
  decide

/-- Look for a key by its value. -/
def byValue : Call := .sess 65538 (.findInit (some [.of .value (List.replicate 16 7)]))

set_option maxRecDepth 20000 in
/-- C111 fails for `C_FindObjectsInit`: without memory to compare the value the answer is
`CKR_OK` and the key is not found. -/
theorem c111_violated_find :
    let l := run env fresh withKey
    (answer env (step env l byValue).1 (.sess 65538 (.findNext true 10))).found = [tok1] ∧
    (answerM env [false] l byValue).rv = .ok ∧
    (answer env (stepM env [false] l byValue).1 (.sess 65538 (.findNext true 10))).found = [] := by
  decide

set_option maxRecDepth 20000 in
/-- C111 fails for `C_Logout`: without memory to encrypt the key the answer is `CKR_OK`, but
the value of the key can still be read although nobody is logged in, and the right PIN is
refused from then on. -/
theorem c111_violated_logout :
    let l := run env fresh withKey
    let c : Call := .sess 65538 .logout
    shownValue env (step env l c).1 tok1 = some [(16, some (List.replicate 16 0))] ∧
    answerM env [false] l c = { rv := .ok } ∧
    (stepM env [false] l c).1.token.login = .pub ∧
    shownValue env (stepM env [false] l c).1 tok1 = some [(16, some (List.replicate 16 7))] ∧
    rvs env (stepM env [false] l c).1 [loginCall 65538 .user userPin 0, loginCall 65538 .user userPin 0] =
      [.pinIncorrect, .pinIncorrect] := by
  decide

end Demo

set_option maxRecDepth 20000 in
/-- The cases of `c110_partial`: the allocation of the object, that of its label, and that of
its encrypted form fail, or none. -/
example :
    let l := run Demo.env Demo.fresh Demo.setup
    let c := createCall 65538 (Demo.openTmpl true 7 ++ [.of .label [65]])
    MakesOne c ∧ (answerM Demo.env [false] l c).rv = .deviceMemory ∧
    (answerM Demo.env [true, false] l c).rv = .functionFailed ∧
    (answerM Demo.env [true, true, false] l c).rv = .functionFailed ∧
    (answerM Demo.env [true, true, true, false] l c).rv = .ok := by
  refine ⟨trivial, by decide, by decide, by decide, by decide⟩

set_option maxRecDepth 20000 in
/-- The cases of `c110_pair_partial`: neither object, one, or both can be made. -/
example :
    let l := run Demo.env Demo.fresh Demo.setup
    let c := pairCall 65538 .rsaKeyPairGen (.null 0) Demo.rsaPub [.of .label [65]]
    PrivInSession c ∧ (answerM Demo.env [false] l c).rv = .deviceMemory ∧
    (answerM Demo.env [true, true, false] l c).rv = .functionFailed ∧
    (answerM Demo.env [true, true, true] l c).rv = .ok := by
  refine ⟨?_, by decide, by decide, by decide⟩
  intro t ht
  cases ht
  decide

set_option maxRecDepth 20000 in
/-- Calls of `c111_partial` that succeed although a later allocation would have failed. -/
example :
    let l := run Demo.keepEnv Demo.fresh Demo.withKey
    (answerM Demo.keepEnv [true, true, false] l Demo.tokenPair).rv = .functionFailed ∧
    (answerM Demo.keepEnv [true, true, true, false] l Demo.tokenPair).rv = .ok ∧
    (answerM Demo.keepEnv [true, false] l (Demo.relabel [67])).rv = .ok ∧
    (answerM Demo.keepEnv [true, false] (run Demo.keepEnv Demo.fresh Demo.rsaThenAes) (loginCall 65538 .user Demo.userPin 0)).rv = .ok := by
  refine ⟨by decide, by decide, by decide, by decide⟩

set_option maxRecDepth 20000 in
/-- A search as in `c111_find_partial`: two keys of the same value, one of which is not found. -/
example :
    let l := run Demo.env Demo.fresh (Demo.withKey ++ [createCall 65538 (Demo.openTmpl true 7)])
    (answerM Demo.env [false, true] l Demo.byValue).rv = .ok ∧
    (answer Demo.env (stepM Demo.env [false, true] l Demo.byValue).1 (.sess 65538 (.findNext true 10))).found = [Demo.tok1] ∧
    (answer Demo.env (step Demo.env l Demo.byValue).1 (.sess 65538 (.findNext true 10))).found = [Demo.tok1 + 1, Demo.tok1] := by
  refine ⟨by decide, by decide, by decide⟩

set_option maxRecDepth 40000 in
/-- The second case of `c110_login_partial`, and no failed try counted. -/
example :
    let l := run Demo.keepEnv Demo.fresh Demo.rsaThenAes
    let c := loginCall 65538 .user Demo.userPin 0
    stepM Demo.keepEnv [false] l c ≠ step Demo.keepEnv l c ∧ answerM Demo.keepEnv [false] l c = { rv := .pinIncorrect } ∧
    (stepM Demo.keepEnv [false] l c).1.token.user.fails = 0 ∧
    (stepM Demo.keepEnv [false] l c).1.token.objs.map (·.encoded) = [false, true] := by
  refine ⟨?_, by decide, by decide, by decide⟩
  intro h
  have := congrArg (fun r => r.1.token.login) h
  revert this
  decide

set_option maxRecDepth 20000 in
/-- Templates as in `c110_set_partial` and `c110_set_one_partial`: one that needs no memory, and
one that is refused after another label was freed, with a second object untouched. -/
example :
    let l := run Demo.env Demo.fresh (Demo.withKey ++ [Demo.relabel [65, 66], createCall 65538 (Demo.openTmpl true 8)])
    (answerM Demo.env [false] l (.sess 65538 (.setAttr Demo.tok1 (some [.of .value (List.replicate 16 9)])))).rv = .ok ∧
    (stepM Demo.env [false] l (Demo.relabel [67])).1.bad = true ∧
    ((stepM Demo.env [false] l (Demo.relabel [67])).1.token.objs.map (·.handle)) = [Demo.tok1 + 1, Demo.tok1] := by
  refine ⟨by decide, by decide, by decide⟩

set_option maxRecDepth 20000 in
/-- Closing the last session without memory to encrypt the key, as in `c111_close_partial`. -/
example :
    let l := run Demo.env Demo.fresh Demo.withKey
    (answerM Demo.env [false] l (.sess 65538 .close)).rv = .ok ∧
    (stepM Demo.env [false] l (.sess 65538 .close)).1.token.login = .pub ∧
    (stepM Demo.env [false] l (.sess 65538 .close)).1.token.objs.map (·.symm) = [List.replicate 16 7] ∧
    (step Demo.env l (.sess 65538 .close)).1.token.objs.map (·.symm) = [List.replicate 16 0] := by
  refine ⟨by decide, by decide, by decide, by decide⟩

end Verif
