import Verif.Spec.SilentTok
import Verif.Proofs.Silent
import Verif.Props.AttrGet

/-!
# A key of the token that is not used does not show
-/

namespace Verif

variable {e : Env} {k : Nat}

/-! ## The two keys -/

theorem getAttr_stored (x : KeyExt) (o : Obj) (iv : Bytes) (kd : Option Bytes) (b : Bool) (a : CKA) (buf : Bool) (n : Nat) :
    getAttr x { o with iv := iv, keyData := kd, encoded := b } a buf n = getAttr x o a buf n := by
  cases a <;> rfl

theorem shown_stored (x : KeyExt) (o : Obj) (iv : Bytes) (kd : Option Bytes) (b : Bool) (t : List Entry) :
    getAttributeValue x { o with iv := iv, keyData := kd, encoded := b } t = getAttributeValue x o t ∧
    matchAll x { o with iv := iv, keyData := kd, encoded := b } t = matchAll x o t := by
  have h1 : ∀ t, getEntries x { o with iv := iv, keyData := kd, encoded := b } t = getEntries x o t := by
    intro t
    induction t with
    | nil => rfl
    | cons en t ih =>
      have : getEntry x { o with iv := iv, keyData := kd, encoded := b } en = getEntry x o en := by simp only [getEntry, getAttr_stored]
      simp only [getEntries, this, ih]
  have h2 : ∀ t, matchAll x { o with iv := iv, keyData := kd, encoded := b } t = matchAll x o t := by
    intro t
    induction t with
    | nil => rfl
    | cons en t ih => simp only [matchAll, matchAttr, getAttr_stored, ih]
  exact ⟨by unfold getAttributeValue; simp only [h1], h2 t⟩

theorem AlikeKeys.shown (hx : e.key.Lawful) {o o' : Obj} (h : AlikeKeys e.store o o') (t : List Entry) :
    getAttributeValue e.key o' t = getAttributeValue e.key o t ∧ matchAll e.key o' t = matchAll e.key o t := by
  obtain ⟨d, kd, rfl⟩ := h.only
  have h1 := c25_secret_not_returned e.key hx o { o with data := d } h.sec h.shut ⟨⟨d, rfl⟩, h.pub⟩ t
  have h2 := shown_stored e.key { o with data := d } o.iv kd o.encoded t
  exact ⟨h2.1.trans h1.1, h2.2.trans h1.2⟩

theorem samePublic_dh {d d' : KeyData} {o : Obj} (h : d.SamePublic d') : ({ o with data := d' } : Obj).dh.p = ({ o with data := d } : Obj).dh.p ∧
    ({ o with data := d' } : Obj).dh.g = ({ o with data := d } : Obj).dh.g := by
  cases d <;> cases d' <;> first | exact ⟨rfl, rfl⟩ | exact h.elim | exact h

theorem samePublic_ec {d d' : KeyData} {o : Obj} (h : d.SamePublic d') : ({ o with data := d' } : Obj).ec.free = ({ o with data := d } : Obj).ec.free := by
  cases d <;> cases d' <;> first | rfl | exact h.elim | skip
  rename_i a b
  obtain ⟨h1, _, _, h4⟩ := h
  show EcKey.free b = EcKey.free a
  unfold EcKey.free
  cases a; cases b
  cases h1; cases h4
  rfl

theorem samePublic_symm {d d' : KeyData} {o : Obj} (h : d.SamePublic d') : ({ o with data := d' } : Obj).symm.length = ({ o with data := d } : Obj).symm.length := by
  cases d <;> cases d' <;> first | rfl | exact h.elim | exact h

theorem AlikeKeys.tail {x : StoreExt} {o o' : Obj} (h : AlikeKeys x o o') : keyTail o' = keyTail o := by
  obtain ⟨d, kd, rfl⟩ := h.only
  have := samePublic_dh (o := o) h.pub
  unfold keyTail
  show (if o.typ = CKK_DH then (dhParamsToDer ({ o with data := d } : Obj).dh.p ({ o with data := d } : Obj).dh.g).map wrArray else _) = _
  rw [this.1, this.2]

theorem encodeKey_is (x : StoreExt) (key : Bytes) {o : Obj} (h : o.IsSecretKey) :
    (encodeKey x key o).1 = canEncode x o ∧ ∃ kd, (encodeKey x key o).2 = { o with keyData := kd } ∧ kd.isSome = canEncode x o := by
  unfold encodeKey canEncode
  rcases h with ⟨hc, ht | ht | ht⟩ | ⟨hc, ht | ht⟩
  · rw [if_pos ht, if_pos ht]
    unfold encodeRsa
    dsimp only
    rw [if_pos hc]
    refine ⟨?_, _, rfl, ?_⟩ <;> cases x.rsaToDer o.rsa <;> rfl
  · have h1 : ¬ o.typ = CKK_RSA := by rw [ht]; decide
    rw [if_neg h1, if_neg h1, if_pos ht, if_pos ht]
    unfold encodeEcc
    dsimp only
    rw [if_pos hc]
    refine ⟨?_, _, rfl, ?_⟩ <;> cases x.eccToDer o.ec <;> rfl
  · have h1 : ¬ o.typ = CKK_RSA := by rw [ht]; decide
    have h2 : ¬ o.typ = CKK_EC := by rw [ht]; decide
    rw [if_neg h1, if_neg h1, if_neg h2, if_neg h2, if_pos ht]
    exact ⟨rfl, _, rfl, rfl⟩
  all_goals
    have h1 : ¬ o.typ = CKK_RSA := by rw [ht]; decide
    have h2 : ¬ o.typ = CKK_EC := by rw [ht]; decide
    have h3 : ¬ o.typ = CKK_DH := by rw [ht]; decide
    rw [if_neg h1, if_neg h1, if_neg h2, if_neg h2, if_neg h3, if_pos (by rw [ht]; decide)]
    exact ⟨rfl, _, rfl, rfl⟩

theorem AlikeKeys.with {x : StoreExt} {o o' : Obj} (h : AlikeKeys x o o') (iv : Bytes) {a b : Option Bytes} (hab : b.isSome = a.isSome) :
    AlikeKeys x { o with iv := iv, keyData := a } { o' with iv := iv, keyData := b } := by
  obtain ⟨d, kd, rfl⟩ := h.only
  exact ⟨⟨d, b, rfl⟩, h.sec, h.shut, h.pub, hab, h.can⟩

theorem AlikeKeys.sec' {x : StoreExt} {o o' : Obj} (h : AlikeKeys x o o') : o'.IsSecretKey := by
  obtain ⟨d, kd, rfl⟩ := h.only
  exact h.sec

/-- Encoding the two keys. -/
theorem AlikeKeys.encode {x : StoreExt} {o o' : Obj} (h : AlikeKeys x o o') (key : Bytes) :
    (encodeKey x key o').1 = (encodeKey x key o).1 ∧ AlikeKeys x (encodeKey x key o).2 (encodeKey x key o').2 ∧
    ((encodeKey x key o').2.keyData.isSome = (encodeKey x key o').1) ∧ ((encodeKey x key o).2.keyData.isSome = (encodeKey x key o).1) := by
  obtain ⟨h1, a, h2, h3⟩ := encodeKey_is x key h.sec
  obtain ⟨g1, b, g2, g3⟩ := encodeKey_is x key h.sec'
  refine ⟨by rw [h1, g1, h.can], ?_, by rw [g2, g1]; exact g3, by rw [h2, h1]; exact h3⟩
  rw [h2, g2]
  obtain ⟨d, kd, rfl⟩ := h.only
  exact h.with o.iv (by rw [h3, g3, h.can])

/-- Clearing the two keys. -/
theorem AlikeKeys.clear {x : StoreExt} {o o' : Obj} (h : AlikeKeys x o o') : AlikeKeys x (cleared o) (cleared o') := by
  obtain ⟨d, kd, rfl⟩ := h.only
  have hec := samePublic_ec (o := o) h.pub
  have hdh := samePublic_dh (o := o) h.pub
  have hsy := samePublic_symm (o := o) h.pub
  have hs := h.sec
  unfold cleared
  dsimp only
  rcases hs with ⟨hc, ht | ht | ht⟩ | ⟨hc, ht | ht⟩
  · rw [if_pos ht, if_pos ht, if_pos hc, if_pos hc]
    exact ⟨⟨_, kd, rfl⟩, h.sec, h.shut, ⟨rfl, rfl⟩, h.kd, rfl⟩
  · have h1 : ¬ o.typ = CKK_RSA := by rw [ht]; decide
    rw [if_neg h1, if_neg h1, if_pos ht, if_pos ht, if_pos hc, if_pos hc]
    have hec' : ({ o with data := d, keyData := kd } : Obj).ec.free = o.ec.free := hec
    rw [hec']
    exact ⟨⟨_, kd, rfl⟩, h.sec, h.shut, ⟨rfl, rfl, rfl, rfl⟩, h.kd, rfl⟩
  · have h1 : ¬ o.typ = CKK_RSA := by rw [ht]; decide
    have h2 : ¬ o.typ = CKK_EC := by rw [ht]; decide
    rw [if_neg h1, if_neg h1, if_neg h2, if_neg h2, if_pos ht, if_pos ht, if_pos hc, if_pos hc]
    refine ⟨⟨_, kd, rfl⟩, h.sec, h.shut, hdh, h.kd, ?_⟩
    unfold canEncode
    dsimp only
    rw [if_neg h1, if_neg h1, if_neg h2, if_neg h2]
  all_goals
    have h1 : ¬ o.typ = CKK_RSA := by rw [ht]; decide
    have h2 : ¬ o.typ = CKK_EC := by rw [ht]; decide
    have h3 : ¬ o.typ = CKK_DH := by rw [ht]; decide
    rw [if_neg h1, if_neg h1, if_neg h2, if_neg h2, if_neg h3, if_neg h3]
    refine ⟨⟨_, kd, rfl⟩, h.sec, h.shut, ?_, h.kd, ?_⟩
    · show (List.replicate _ _).length = (List.replicate _ _).length
      rw [List.length_replicate, List.length_replicate]
      exact hsy
    · unfold canEncode
      dsimp only
      rw [if_neg h1, if_neg h1, if_neg h2, if_neg h2]

/-! ## The two libraries -/

/-- The same object, or the key that is in no session's use. -/
def OTk (e : Env) (k : Nat) (ss : List Session) (o o' : Obj) : Prop :=
  o' = o ∨ (o.handle = k ∧ (∀ s ∈ ss, s.curr ≠ some o.uid) ∧ AlikeKeys e.store o o')

theorem OTk.fields {ss : List Session} {o o' : Obj} (h : OTk e k ss o o') : ∃ d kd, o' = { o with data := d, keyData := kd } := by
  rcases h with rfl | ⟨_, _, h⟩
  · exact ⟨_, _, rfl⟩
  · exact h.only

theorem OTk.shown (hx : e.key.Lawful) {ss : List Session} {o o' : Obj} (h : OTk e k ss o o') (t : List Entry) :
    getAttributeValue e.key o' t = getAttributeValue e.key o t ∧ matchAll e.key o' t = matchAll e.key o t := by
  rcases h with rfl | ⟨_, _, h⟩
  · exact ⟨rfl, rfl⟩
  · exact h.shown hx t

/-- The library with other objects on the token and another store. -/
def Lib.dress (m : Lib) (os : List Obj) (d : Disk) : Lib := { m with token := { m.token with objs := os }, disk := d }

/-- Two libraries that differ only in that key and in the store. -/
structure LTk (e : Env) (k : Nat) (l l' : Lib) : Prop where
  eq : l' = l.dress l'.token.objs l'.disk
  objs : AllPairs (OTk e k l.sessions) l.token.objs l'.token.objs
  cnt : 0 < l.count

/-- Two outcomes that differ only in that key. -/
def RTk (e : Env) (k : Nat) (r r' : Lib × Resp) : Prop := LTk e k r.1 r'.1 ∧ r'.2 = r.2

theorem LTk.count {l l' : Lib} (t : LTk e k l l') : l'.count = l.count := by rw [t.eq]; rfl
theorem LTk.uid {l l' : Lib} (t : LTk e k l l') : l'.uid = l.uid := by rw [t.eq]; rfl
theorem LTk.rng {l l' : Lib} (t : LTk e k l l') : l'.rng = l.rng := by rw [t.eq]; rfl
theorem LTk.bad {l l' : Lib} (t : LTk e k l l') : l'.bad = l.bad := by rw [t.eq]; rfl
theorem LTk.sessions {l l' : Lib} (t : LTk e k l l') : l'.sessions = l.sessions := by rw [t.eq]; rfl
theorem LTk.login {l l' : Lib} (t : LTk e k l l') : l'.token.login = l.token.login := by rw [t.eq]; rfl
theorem LTk.key {l l' : Lib} (t : LTk e k l l') : l'.token.key = l.token.key := by rw [t.eq]; rfl
theorem LTk.getSession {l l' : Lib} (t : LTk e k l l') (j : Nat) : Verif.getSession l' j = Verif.getSession l j := by
  unfold Verif.getSession; rw [t.sessions]

theorem LTk.make {l : Lib} {os : List Obj} (d : Disk) (h : AllPairs (OTk e k l.sessions) l.token.objs os) (hc : 0 < l.count) : LTk e k l (l.dress os d) :=
  ⟨rfl, h, hc⟩

/-- The sessions use no more keys than before. -/
def NoMore (ss ss' : List Session) : Prop := ∀ s ∈ ss', s.curr = none ∨ ∃ t ∈ ss, s.curr = t.curr

theorem NoMore.refl (ss : List Session) : NoMore ss ss := fun s hs => .inr ⟨s, hs, rfl⟩

theorem OTk.mono {ss ss' : List Session} (hn : NoMore ss ss') {o o' : Obj} (h : OTk e k ss o o') : OTk e k ss' o o' := by
  rcases h with rfl | ⟨h1, h2, h3⟩
  · exact .inl rfl
  · refine .inr ⟨h1, fun s hs he => ?_, h3⟩
    rcases hn s hs with h4 | ⟨t, ht, h4⟩
    · rw [h4] at he; cases he
    · exact h2 t ht (h4 ▸ he)

/-- A change that has nothing to do with the token's objects and takes no key into use. -/
theorem LTk.lift {l l' : Lib} (t : LTk e k l l') (f : Lib → Lib) (hf : ∀ (m : Lib) (os : List Obj) (d : Disk), f (m.dress os d) = (f m).dress os d)
    (hn : NoMore l.sessions (f l).sessions) (hc : 0 < (f l).count) : LTk e k (f l) (f l') := by
  have h1 : (f l).token.objs = l.token.objs := by
    have := hf l l.token.objs l.disk
    have h2 : l.dress l.token.objs l.disk = l := rfl
    rw [h2] at this
    rw [this]; rfl
  rw [t.eq, hf]
  refine LTk.make _ ?_ hc
  rw [h1]
  exact t.objs.imp fun _ _ _ _ h => h.mono hn

theorem noMore_upd (l : Lib) (j : Nat) (f : Session → Session) (hf : ∀ s, (f s).curr = s.curr) : NoMore l.sessions (l.upd j f).sessions := by
  intro s hs
  unfold Lib.upd at hs
  obtain ⟨t, ht, rfl⟩ := List.mem_map.mp hs
  split
  · exact .inr ⟨t, ht, hf t⟩
  · exact .inr ⟨t, ht, rfl⟩

theorem LTk.upd {l l' : Lib} (t : LTk e k l l') (j : Nat) (f : Session → Session) (hf : ∀ s, (f s).curr = s.curr) : LTk e k (l.upd j f) (l'.upd j f) :=
  t.lift (fun m => m.upd j f) (fun _ _ _ => rfl) (noMore_upd l j f hf) t.cnt

theorem LTk.findObj {l l' : Lib} (t : LTk e k l l') (s : Session) (i : Nat) :
    (Verif.findObj l s i = none ∧ Verif.findObj l' s i = none) ∨
    ∃ o o', Verif.findObj l s i = some o ∧ Verif.findObj l' s i = some o' ∧ OTk e k l.sessions o o' ∧ o.handle = i := by
  unfold Verif.findObj
  split
  · rcases t.objs.find (p := fun o => o.handle == i) (q := fun o => o.handle == i) fun a b hab => by
      obtain ⟨d, kd, rfl⟩ := hab.fields; rfl with ⟨h1, h2⟩ | ⟨o, o', h1, h2, h3⟩
    · exact .inl ⟨h1, h2⟩
    · exact .inr ⟨o, o', h1, h2, h3, by simpa using List.find?_some h1⟩
  · cases hf : s.objs.find? fun o => o.handle == i with
    | none => exact .inl ⟨rfl, rfl⟩
    | some o => exact .inr ⟨o, o, rfl, rfl, .inl rfl, by simpa using List.find?_some hf⟩

/-- Another handle names the same object on both sides. -/
theorem LTk.findOther {l l' : Lib} (t : LTk e k l l') (s : Session) {i : Nat} (hi : i ≠ k) : Verif.findObj l' s i = Verif.findObj l s i := by
  rcases t.findObj s i with ⟨h1, h2⟩ | ⟨o, o', h1, h2, h3, h4⟩
  · rw [h1, h2]
  · rw [h1, h2]
    rcases h3 with rfl | ⟨h6, _⟩
    · rfl
    · exact absurd (h4.symm.trans h6) hi

theorem LTk.currKey {l l' : Lib} (t : LTk e k l l') {s : Session} (hs : s ∈ l.sessions) : Verif.currKey l' s = Verif.currKey l s := by
  unfold Verif.currKey
  cases hc : s.curr with
  | none => rfl
  | some v =>
    have : (s.objs ++ l'.token.objs).find? (fun o => o.uid == v) = (s.objs ++ l.token.objs).find? fun o => o.uid == v := by
      rw [List.find?_append, List.find?_append]
      rcases t.objs.find (p := fun o => o.uid == v) (q := fun o => o.uid == v) fun a b hab => by
        obtain ⟨d, kd, rfl⟩ := hab.fields; rfl with ⟨h1, h2⟩ | ⟨o, o', h1, h2, h3⟩
      · rw [h1, h2]
      · rw [h1, h2]
        rcases h3 with rfl | ⟨_, h3, _⟩
        · rfl
        · refine absurd ?_ (h3 s hs)
          rw [hc]
          have := List.find?_some h1
          simp only [beq_iff_eq] at this
          rw [this]
    dsimp only
    rw [this]

/-- The current key becomes one that is the same on both sides. -/
theorem LTk.updCurr {l l' : Lib} (t : LTk e k l l') (hp : l.PopA) {s : Session} (hs : s ∈ l.sessions) {i : Nat}
    (hi : i ≠ k) {o : Obj} (ho : Verif.findObj l s i = some o) (op : OpSt) (b : Prop) [Decidable b] :
    LTk e k (l.upd s.handle fun u => { u with op := op, curr := if b then some o.uid else u.curr })
      (l'.upd s.handle fun u => { u with op := op, curr := if b then some o.uid else u.curr }) := by
  have h1 : l'.upd s.handle (fun u => { u with op := op, curr := if b then some o.uid else u.curr }) =
      (l.upd s.handle fun u => { u with op := op, curr := if b then some o.uid else u.curr }).dress l'.token.objs l'.disk := by
    conv => lhs; rw [t.eq]
    rfl
  rw [h1]
  refine LTk.make _ ?_ t.cnt
  refine t.objs.imp fun a ha c _ hac => ?_
  rcases hac with rfl | ⟨h2, h3, h4⟩
  · exact .inl rfl
  · refine .inr ⟨h2, fun v hv hx => ?_, h4⟩
    unfold Lib.upd at hv
    obtain ⟨w, hw, rfl⟩ := List.mem_map.mp hv
    split at hx
    · dsimp only at hx
      split at hx
      · have hx : o.uid = a.uid := Option.some.inj hx
        have e1 := uid_find hp hs (o := o) (findObj_memAll ho)
        have e2 := uid_find hp hs (o := a) (List.mem_append_right _ ha)
        rw [hx] at e1
        have hoa : o = a := Option.some.inj (e1.symm.trans e2)
        subst hoa
        exact hi ((findObj_parts ho).1.symm.trans h2)
      · exact h3 w hw hx
    · exact h3 w hw hx

theorem LTk.updWith {l l' : Lib} (t : LTk e k l l') (hp : l.PopA) {s : Session} (hs : s ∈ l.sessions) {i : Nat}
    (hi : i ≠ k) {o : Obj} (ho : Verif.findObj l s i = some o) (op : OpSt) :
    LTk e k (l.upd s.handle fun u => { u with op := op, curr := some o.uid })
      (l'.upd s.handle fun u => { u with op := op, curr := some o.uid }) := by
  have := t.updCurr hp hs hi ho op True
  simpa only [if_true] using this

/-! ## The store -/

theorem tk_storeObj {ss : List Session} {o o' : Obj} (h : OTk e k ss o o') (key : Bytes) (r i : Nat) :
    (storeObj e.store key r o' i).ok = (storeObj e.store key r o i).ok ∧ (storeObj e.store key r o' i).rng = (storeObj e.store key r o i).rng ∧
    OTk e k ss (storeObj e.store key r o i).obj (storeObj e.store key r o' i).obj := by
  rcases h with rfl | ⟨h1, h2, h3⟩
  · exact ⟨rfl, rfl, .inl rfl⟩
  have hiv : needsIv o' = needsIv o := by
    have := h3.kd
    obtain ⟨d, kd, rfl⟩ := h3.only
    unfold needsIv
    dsimp only at this ⊢
    cases kd <;> cases hk : o.keyData <;> rw [hk] at this <;> first | rfl | cases this
  have hkf : keyFile o' = keyFile o := by obtain ⟨d, kd, rfl⟩ := h3.only; rfl
  have hnc : keyFile o ≠ some .cert ∧ keyFile o ≠ none := by
    unfold keyFile
    rcases h3.sec with ⟨hc, ht | ht | ht⟩ | ⟨hc, ht | ht⟩ <;> rw [hc, ht] <;> decide
  -- the objects with the new IV
  have h4 : AlikeKeys e.store (if needsIv o then { o with iv := e.store.rand r 12 } else o) (if needsIv o then { o' with iv := e.store.rand r 12 } else o') := by
    split
    · exact h3.with _ h3.kd
    · exact h3
  have hu : (if needsIv o then { o with iv := e.store.rand r 12 } else o).handle = k ∧
      (if needsIv o then { o with iv := e.store.rand r 12 } else o).uid = o.uid := by split <;> exact ⟨h1, rfl⟩
  unfold storeObj
  rw [hiv, hkf]
  dsimp only
  generalize (if needsIv o then { o with iv := e.store.rand r 12 } else o) = p at h4 hu
  generalize (if needsIv o then { o' with iv := e.store.rand r 12 } else o') = p' at h4
  have h5 : (if p'.keyData.isNone then encodeKey e.store key p' else (true, p')).1 = (if p.keyData.isNone then encodeKey e.store key p else (true, p)).1 ∧
      AlikeKeys e.store (if p.keyData.isNone then encodeKey e.store key p else (true, p)).2 (if p'.keyData.isNone then encodeKey e.store key p' else (true, p')).2 ∧
      (if p.keyData.isNone then encodeKey e.store key p else (true, p)).2.handle = k ∧
      (if p.keyData.isNone then encodeKey e.store key p else (true, p)).2.uid = o.uid := by
    have hn : p'.keyData.isNone = p.keyData.isNone := by
      have := h4.kd
      cases hk : p.keyData <;> cases hk' : p'.keyData <;> rw [hk, hk'] at this <;> first | rfl | cases this
    rw [hn]
    split
    · obtain ⟨g1, g2, _⟩ := h4.encode key
      obtain ⟨_, a, g4, _⟩ := encodeKey_is e.store key h4.sec
      refine ⟨g1, g2, ?_⟩
      rw [g4]
      exact hu
    · exact ⟨rfl, h4, hu⟩
  generalize (if p.keyData.isNone then encodeKey e.store key p else (true, p)) = q at h5
  generalize (if p'.keyData.isNone then encodeKey e.store key p' else (true, p')) = q' at h5
  obtain ⟨b, q⟩ := q
  obtain ⟨b', q'⟩ := q'
  dsimp only at h5 ⊢
  obtain ⟨rfl, h6, h7, h8⟩ := h5
  have h9 : OTk e k ss q q' := .inr ⟨h7, by rw [h8]; exact h2, h6⟩
  have h10 := h6.kd
  have h11 := h6.tail
  cases hf : keyFile o with
  | none => exact absurd hf hnc.2
  | some f =>
    cases f with
    | cert => exact absurd hf hnc.1
    | _ =>
      dsimp only
      rw [h11]
      cases b' <;> cases hk : q.keyData <;> cases hk' : q'.keyData <;> rw [hk, hk'] at h10 <;> first
        | exact ⟨rfl, rfl, h9⟩
        | cases h10
        | skip
      cases keyTail q <;> exact ⟨rfl, rfl, h9⟩

theorem tk_storeObjs {ss : List Session} (key : Bytes) {os os' : List Obj} (h : AllPairs (OTk e k ss) os os') (r : Nat) :
    AllPairs (OTk e k ss) (storeObjs e.store key r os).2.1 (storeObjs e.store key r os').2.1 ∧
    (storeObjs e.store key r os').2.2 = (storeObjs e.store key r os).2.2 := by
  induction h generalizing r with
  | nil => exact ⟨.nil, rfl⟩
  | @cons o o' os os' h hs ih =>
    obtain ⟨h1, h2, h3⟩ := tk_storeObj h key r os.length
    unfold storeObjs
    dsimp only
    rw [hs.len, h1, h2]
    split
    · obtain ⟨i1, i2⟩ := ih (storeObj e.store key r o os.length).rng
      exact ⟨.cons h3 i1, by rw [i2]⟩
    · exact ⟨.cons h3 hs, rfl⟩

theorem tk_store {l l' : Lib} (t : LTk e k l l') : LTk e k (Lib.store e l).1 (Lib.store e l').1 ∧ (Lib.store e l').2 = (Lib.store e l).2 := by
  obtain ⟨os, d, rfl⟩ : ∃ os d, l' = l.dress os d := ⟨_, _, t.eq⟩
  have h := tk_storeObjs (e := e) l.token.key t.objs l.rng
  refine ⟨⟨?_, h.1, t.cnt⟩, (congrArg Prod.snd h.2 :)⟩
  have h2 : (Lib.store e l).1.rng = (Lib.store e (l.dress os d)).1.rng := (congrArg Prod.fst h.2 :).symm
  unfold Lib.dress
  rw [h2]
  rfl

/-- A change of the token that leaves its objects alone. -/
theorem LTk.setToken {l l' : Lib} (t : LTk e k l l') (f : Token → Token) (hf : ∀ (m : Token) (os : List Obj), f { m with objs := os } = { f m with objs := os }) :
    LTk e k { l with token := f l.token } { l' with token := f l'.token } :=
  t.lift (fun m => { m with token := f m.token }) (fun m os d => by unfold Lib.dress; dsimp only; rw [hf]) (.refl _) t.cnt

theorem tk_encodeObj {ss : List Session} {o o' : Obj} (h : OTk e k ss o o') (key : Bytes) :
    (encodeObj e.store key true o').1 = (encodeObj e.store key true o).1 ∧
    OTk e k ss (encodeObj e.store key true o).2 (encodeObj e.store key true o').2 := by
  rcases h with rfl | ⟨h1, h2, h3⟩
  · exact ⟨rfl, .inl rfl⟩
  have hc : o.cls ≠ CKO_CERTIFICATE := by
    rcases h3.sec with ⟨hc, _⟩ | ⟨hc, _⟩ <;> rw [hc] <;> decide
  have hc' : o'.cls ≠ CKO_CERTIFICATE := by obtain ⟨d, kd, rfl⟩ := h3.only; exact hc
  unfold encodeObj
  rw [if_neg hc, if_neg hc']
  obtain ⟨g1, g2, _⟩ := h3.encode key
  obtain ⟨_, a, g4, _⟩ := encodeKey_is e.store key h3.sec
  have hu : (encodeKey e.store key o).2.handle = k ∧ (encodeKey e.store key o).2.uid = o.uid := by rw [g4]; exact ⟨h1, rfl⟩
  dsimp only
  generalize encodeKey e.store key o = q at *
  generalize encodeKey e.store key o' = q' at *
  rw [g1]
  split
  · refine ⟨rfl, .inr ⟨?_, ?_, g2.clear⟩⟩
    · have : (cleared q.2).handle = q.2.handle := by unfold cleared; repeat' split
                                                     all_goals rfl
      exact this.trans hu.1
    · have : (cleared q.2).uid = q.2.uid := by unfold cleared; repeat' split
                                               all_goals rfl
      dsimp only
      rw [this, hu.2]
      exact h2
  · exact ⟨g1, .inr ⟨hu.1, by rw [hu.2]; exact h2, g2⟩⟩

theorem tk_encodeAll {ss : List Session} (key : Bytes) {os os' : List Obj} (h : AllPairs (OTk e k ss) os os') :
    AllPairs (OTk e k ss) (encodeAll e.store key os) (encodeAll e.store key os') := by
  induction h with
  | nil => exact .nil
  | cons h hs ih =>
    obtain ⟨h1, h2⟩ := tk_encodeObj h key
    unfold encodeAll
    dsimp only
    rw [h1]
    split
    · exact .cons h2 ih
    · exact .cons h2 hs

theorem LTk.logout {l l' : Lib} (t : LTk e k l l') : LTk e k (Verif.logout e l) (Verif.logout e l') := by
  obtain ⟨os, d, rfl⟩ : ∃ os d, l' = l.dress os d := ⟨_, _, t.eq⟩
  refine ⟨rfl, ?_, t.cnt⟩
  unfold Verif.logout
  dsimp only
  have hl : (l.dress os d).token.login = l.token.login := rfl
  rw [hl]
  split
  · exact tk_encodeAll _ t.objs
  · exact t.objs

/-! ## Closing and opening -/

theorem noMore_closeOne (ss : List Session) (j : Nat) : NoMore ss (closeOne ss j) := by
  intro t ht
  unfold closeOne at ht
  split at ht
  · cases ht
  · split at ht
    · exact .inr ⟨t, List.mem_cons_of_mem _ (mem_dropUnused ht), rfl⟩
    · obtain ⟨t, htm, rfl⟩ := List.mem_map.mp ht
      split
      · exact .inl rfl
      · exact .inr ⟨t, htm, rfl⟩

theorem noMore_closeAll (ss : List Session) : NoMore ss (closeAll ss) := by
  intro t ht
  unfold closeAll at ht
  split at ht
  · cases ht
  · rename_i a as heq
    rcases List.mem_cons.mp ht with rfl | h1
    · exact .inl rfl
    · exact .inr ⟨t, mem_closeDown (heq ▸ List.mem_cons_of_mem _ h1), rfl⟩

theorem LTk.setSessions {l l' : Lib} (t : LTk e k l l') {ss : List Session} (hn : NoMore l.sessions ss) :
    LTk e k { l with sessions := ss } { l' with sessions := ss } :=
  t.lift (fun m => { m with sessions := ss }) (fun _ _ _ => rfl) hn t.cnt

theorem tk_close {l l' : Lib} (t : LTk e k l l') (j : Nat) : RTk e k (closeSession e l j) (closeSession e l' j) := by
  refine ⟨?_, rfl⟩
  unfold closeSession
  dsimp only
  rw [t.sessions]
  have t3 := t.setSessions (noMore_closeOne l.sessions j)
  split
  · exact t3
  · exact t3.logout

theorem tk_open {l l' : Lib} (t : LTk e k l l') (rw' : Bool) : RTk e k (openSession l rw') (openSession l' rw') := by
  unfold openSession
  dsimp only
  rw [t.login, t.sessions]
  split
  · exact ⟨t, rfl⟩
  cases l.sessions.find? fun s => s.use == .no with
  | some s => exact ⟨t.upd _ _ fun _ => rfl, rfl⟩
  | none =>
    dsimp only
    split
    · exact ⟨t, rfl⟩
    cases hss : l.sessions with
    | nil =>
      refine ⟨t.setSessions fun s hs => ?_, rfl⟩
      simp only [List.mem_cons, List.not_mem_nil, or_false] at hs
      subst hs
      exact .inl rfl
    | cons a as =>
      refine ⟨t.setSessions fun s hs => ?_, rfl⟩
      rcases List.mem_cons.mp hs with rfl | hs
      · exact .inl rfl
      · exact .inr ⟨s, hss ▸ hs, rfl⟩

/-! ## Objects -/

theorem tk_nextHandle {ss : List Session} {os os' : List Obj} (t : AllPairs (OTk e k ss) os os') (on : Nat) : nextHandle os' on = nextHandle os on := by
  cases t with
  | nil => rfl
  | cons u _ => obtain ⟨d, kd, rfl⟩ := u.fields; rfl

theorem LTk.setObjs {l l' : Lib} (t : LTk e k l l') {os os' : List Obj} (h : AllPairs (OTk e k l.sessions) os os') (n : Nat) (d d' : Disk) :
    LTk e k { l with uid := n, token := { l.token with objs := os }, disk := d } { l' with uid := n, token := { l'.token with objs := os' }, disk := d' } := by
  obtain ⟨qs, b, rfl⟩ : ∃ os d, l' = l.dress os d := ⟨_, _, t.eq⟩
  exact ⟨rfl, h, t.cnt⟩

theorem tk_sessAdd {l l' : Lib} (t : LTk e k l l') (s : Session) (on : Nat) (o : Obj) :
    LTk e k (sessAddObject e l s on o).1 (sessAddObject e l' s on o).1 ∧ (sessAddObject e l' s on o).2 = (sessAddObject e l s on o).2 := by
  unfold sessAddObject
  dsimp only
  have hk : ∀ p, encodeObj e.store l'.token.key false p = encodeObj e.store l.token.key false p := fun p => by rw [t.key]
  rw [t.uid, t.objs.len, tk_nextHandle t.objs, hk]
  split
  · split
    · exact ⟨t, rfl⟩
    split
    · exact ⟨(tk_store (t.setObjs (.cons (.inl rfl) t.objs) _ l.disk l'.disk)).1, rfl⟩
    · exact ⟨t, rfl⟩
  · split
    · exact ⟨t, rfl⟩
    · exact ⟨(t.setObjs t.objs (l.uid + 1) l.disk l'.disk).upd _ _ fun _ => rfl, rfl⟩

theorem tk_addObject {l l' : Lib} (t : LTk e k l l') (s : Session) (tm : List Entry) (o : Obj) :
    RTk e k (addObject e l s tm o) (addObject e l' s tm o) := by
  unfold addObject
  cases tokenByte tm 0 with
  | error rv => exact ⟨t, rfl⟩
  | ok on =>
    obtain ⟨h1, h2⟩ := tk_sessAdd (e := e) t s on o
    dsimp only
    generalize sessAddObject e l s on o = a at h1 h2
    generalize sessAddObject e l' s on o = b at h1 h2
    obtain ⟨a1, a2⟩ := a
    obtain ⟨b1, b2⟩ := b
    cases h2
    cases a2 <;> exact ⟨h1, rfl⟩

theorem tk_create {l l' : Lib} (t : LTk e k l l') (s : Session) (tm : Option (List Entry)) (ptr : Bool) :
    RTk e k (cCreate e l s tm ptr) (cCreate e l' s tm ptr) := by
  unfold cCreate
  cases tm with
  | none => exact ⟨t, rfl⟩
  | some tm =>
    dsimp only
    split
    · exact ⟨t, rfl⟩
    split
    · exact ⟨t, rfl⟩
    obtain ⟨rv, o⟩ := createObject e s tm
    cases rv <;> first
      | exact tk_addObject t ..
      | exact ⟨t, rfl⟩

theorem tk_copy (hx : e.key.Lawful) {l l' : Lib} (t : LTk e k l l') (s : Session) (i : Nat) (tm : Option (List Entry)) (ptr : Bool) :
    RTk e k (cCopy e l s i tm ptr) (cCopy e l' s i tm ptr) := by
  unfold cCopy
  cases tm with
  | none => exact ⟨t, rfl⟩
  | some tm =>
    dsimp only
    split
    · exact ⟨t, rfl⟩
    split
    · exact ⟨t, rfl⟩
    rcases t.findObj s i with ⟨h1, h2⟩ | ⟨o, o', h1, h2, h3, _⟩
    · rw [h1, h2]; exact ⟨t, rfl⟩
    rw [h1, h2]
    dsimp only
    have ht : o'.typ = o.typ := by obtain ⟨d, kd, rfl⟩ := h3.fields; rfl
    rw [(h3.shown hx tm).1, ht]
    cases tokenByte tm 0 with
    | error rv => exact ⟨t, rfl⟩
    | ok on =>
      dsimp only
      split
      · exact ⟨t, rfl⟩
      split
      · exact ⟨t, rfl⟩
      generalize (setAttributeValue e.key true (newObj 0 o.typ) (getAttributeValue e.key o tm).2).2 = n
      obtain ⟨h1, h2⟩ := tk_sessAdd (e := e) t s on n
      generalize sessAddObject e l s on n = a at h1 h2
      generalize sessAddObject e l' s on n = b at h1 h2
      obtain ⟨a1, a2⟩ := a
      obtain ⟨b1, b2⟩ := b
      cases h2
      cases a2 <;> exact ⟨h1, rfl⟩

theorem tk_destroy {l l' : Lib} (t : LTk e k l l') (s : Session) (i : Nat) :
    RTk e k (cDestroy e l s i) (cDestroy e l' s i) := by
  unfold cDestroy
  split
  · exact ⟨t, rfl⟩
  rcases t.findObj s i with ⟨h1, h2⟩ | ⟨o, o', h1, h2, h3, _⟩
  · rw [h1, h2]; exact ⟨t, rfl⟩
  rw [h1, h2]
  have hu : o'.uid = o.uid := by obtain ⟨d, kd, rfl⟩ := h3.fields; rfl
  have hon : o'.onToken = o.onToken := by obtain ⟨d, kd, rfl⟩ := h3.fields; rfl
  dsimp only
  rw [hon, hu]
  split
  · split
    · refine ⟨?_, rfl⟩
      unfold removeToken
      dsimp only
      rw [hu]
      have hf : AllPairs (OTk e k l.sessions) (l.token.objs.filter fun p => p.uid != o.uid) (l'.token.objs.filter fun p => p.uid != o.uid) :=
        t.objs.filter fun p q hpq => by obtain ⟨d, kd, rfl⟩ := hpq.fields; rfl
      have h4 := t.setObjs hf l.uid (l.disk.puts (unstore o ((l.token.objs.dropWhile fun p => p.uid != o.uid).length - 1)))
        (l'.disk.puts (unstore o' ((l'.token.objs.dropWhile fun p => p.uid != o.uid).length - 1)))
      rw [← t.uid] at h4
      have h5 := (tk_store h4).1
      simp only [t.uid] at h5
      rw [show ({ l' with uid := l.uid, token := { l'.token with objs := l'.token.objs.filter fun p => p.uid != o.uid }, disk := (l'.disk.puts (unstore o' ((l'.token.objs.dropWhile fun p => p.uid != o.uid).length - 1))) } : Lib) =
        { l' with token := { l'.token with objs := l'.token.objs.filter fun p => p.uid != o.uid }, disk := (l'.disk.puts (unstore o' ((l'.token.objs.dropWhile fun p => p.uid != o.uid).length - 1))) } by rw [← t.uid]] at h5
      exact h5
    · exact ⟨t.lift (fun m => { m with bad := true }) (fun _ _ _ => rfl) (.refl _) t.cnt, rfl⟩
  · exact ⟨t.upd _ _ fun _ => rfl, rfl⟩

theorem tk_getAttr (hx : e.key.Lawful) {l l' : Lib} (t : LTk e k l l') (s : Session) (i : Nat) (tm : Option (List Entry)) :
    RTk e k (cGetAttr e l s i tm) (cGetAttr e l' s i tm) := by
  unfold cGetAttr
  cases tm with
  | none => exact ⟨t, rfl⟩
  | some tm =>
    dsimp only
    rcases t.findObj s i with ⟨h1, h2⟩ | ⟨o, o', h1, h2, h3, _⟩
    · rw [h1, h2]; exact ⟨t, rfl⟩
    · rw [h1, h2]
      dsimp only
      rw [(h3.shown hx tm).1]
      exact ⟨t, rfl⟩

theorem tk_setAttr {l l' : Lib} (t : LTk e k l l') (hp : l.PopA) {s : Session} (hs : s ∈ l.sessions)
    {i : Nat} (hi : i ≠ k) (tm : Option (List Entry)) :
    RTk e k (cSetAttr e l s i tm) (cSetAttr e l' s i tm) := by
  unfold cSetAttr
  cases tm with
  | none => exact ⟨t, rfl⟩
  | some tm =>
    dsimp only
    rw [t.findOther s hi]
    split
    · exact ⟨t, rfl⟩
    cases ho : Verif.findObj l s i with
    | none => exact ⟨t, rfl⟩
    | some o =>
      dsimp only
      refine ⟨?_, rfl⟩
      have hk : (setAttributeValue e.key true o tm).2.uid = o.uid := by
        have := (setAttributeValue_key e.key true o tm).1
        exact (congrArg (fun z : Nat × Nat × Bool => z.2.1) this :)
      generalize (setAttributeValue e.key true o tm).2 = o2 at hk
      unfold putObj
      split
      · have hr : AllPairs (OTk e k l.sessions) (replObj o2 l.token.objs) (replObj o2 l'.token.objs) := by
          unfold replObj
          refine t.objs.map fun a ha b hab => ?_
          rcases hab with rfl | ⟨h1, h2, h3⟩
          · exact .inl rfl
          · have hne : ¬ a.uid = o2.uid := by
              intro hx
              rw [hk] at hx
              have e1 := uid_find hp hs (o := o) (findObj_memAll ho)
              have e2 := uid_find hp hs (o := a) (List.mem_append_right _ ha)
              rw [← hx] at e1
              have hoa : o = a := Option.some.inj (e1.symm.trans e2)
              subst hoa
              exact hi ((findObj_parts ho).1.symm.trans h1)
            have hb : b.uid = a.uid := by obtain ⟨d, kd, rfl⟩ := h3.only; rfl
            rw [hb]
            simp only [if_neg hne]
            exact .inr ⟨h1, h2, h3⟩
        obtain ⟨os, d, rfl⟩ : ∃ os d, l' = l.dress os d := ⟨_, _, t.eq⟩
        exact ⟨rfl, hr, t.cnt⟩
      · exact t.upd _ _ fun _ => rfl

theorem tk_findLoop (hx : e.key.Lawful) {ss : List Session} (lg : Login) (tm : List Entry) {os os' : List Obj} (t : AllPairs (OTk e k ss) os os') (acc : List Nat) :
    findLoop e.key lg tm os' acc = findLoop e.key lg tm os acc := by
  induction t generalizing acc with
  | nil => rfl
  | cons u _ ih =>
    unfold findLoop
    rw [(u.shown hx tm).2]
    obtain ⟨d, kd, rfl⟩ := u.fields
    simp only [ih]
    rfl

theorem tk_cycles {ss : List Session} {os os' : List Obj} (t : AllPairs (OTk e k ss) os os') : findCycles os' = findCycles os := by
  unfold findCycles
  congr 1
  induction t with
  | nil => rfl
  | cons u r ih =>
    cases r with
    | nil => obtain ⟨d, kd, rfl⟩ := u.fields; rfl
    | cons v w => rw [List.getLast?_cons_cons, List.getLast?_cons_cons]; exact ih

theorem tk_findInit (hx : e.key.Lawful) {l l' : Lib} (t : LTk e k l l') (s : Session) (tm : Option (List Entry)) :
    RTk e k (cFindInit e l s tm) (cFindInit e l' s tm) := by
  unfold cFindInit
  cases tm with
  | none => exact ⟨t, rfl⟩
  | some tm =>
    dsimp only
    rw [t.login, tk_cycles t.objs]
    have hu : ∀ f : FindSt, LTk e k (l.upd s.handle fun v => { v with find := f }) (l'.upd s.handle fun v => { v with find := f }) := fun f =>
      t.upd _ _ fun _ => rfl
    split
    · exact ⟨t, rfl⟩
    cases tokenByte tm 1 with
    | error rv => exact ⟨hu _, rfl⟩
    | ok on =>
      dsimp only
      have hl : findLoop e.key l.token.login tm (s.objs ++ if on ≠ 0 then l'.token.objs else []) [] =
          findLoop e.key l.token.login tm (s.objs ++ if on ≠ 0 then l.token.objs else []) [] := by
        refine tk_findLoop (k := k) (ss := l.sessions) hx _ _ ((AllPairs.diag fun _ _ => .inl rfl).append ?_) _
        split
        · exact t.objs
        · exact .nil
      rw [hl]
      split
      · exact ⟨hu _, rfl⟩
      split
      · exact ⟨hu _, rfl⟩
      · exact ⟨hu _, rfl⟩

theorem tk_findNext {l l' : Lib} (t : LTk e k l l') (s : Session) (ptr : Bool) (n : Nat) :
    RTk e k (cFindNext l s ptr n) (cFindNext l' s ptr n) := by
  unfold cFindNext
  split
  · exact ⟨t, rfl⟩
  · exact ⟨t.upd _ _ fun _ => rfl, rfl⟩

/-! ## Cryptographic calls -/

theorem tk_cryptInit {l l' : Lib} (t : LTk e k l l') (hp : l.PopA) {s : Session} (hs : s ∈ l.sessions)
    (kd : Kind) (m : Option (Mech × MechParam)) {i : Nat} (hi : i ≠ k) :
    RTk e k (cCryptInit e l s kd m i) (cCryptInit e l' s kd m i) := by
  unfold cCryptInit
  cases m with
  | none => exact ⟨t, rfl⟩
  | some m =>
    obtain ⟨m, p⟩ := m
    dsimp only
    rw [t.findOther s hi]
    cases ho : Verif.findObj l s i with
    | none => exact ⟨t, rfl⟩
    | some o =>
      dsimp only
      split
      · exact ⟨t, rfl⟩
      · exact ⟨t.updCurr hp hs hi ho _ _, rfl⟩

theorem tk_crypt {l l' : Lib} (t : LTk e k l l') {s : Session} (hs : s ∈ l.sessions) (c : DataCall) :
    RTk e k (cCrypt e l s c) (cCrypt e l' s c) := by
  unfold cCrypt
  rw [t.currKey hs]
  cases Verif.currKey l s with
  | null => exact ⟨t.upd _ _ fun _ => rfl, rfl⟩
  | obj o => exact ⟨t.upd _ _ fun _ => rfl, rfl⟩
  | freed =>
    dsimp only
    split <;> exact ⟨t, rfl⟩

theorem LTk.drew {l l' : Lib} (t : LTk e k l l') : LTk e k { l with rng := l.rng + 1 } { l' with rng := l'.rng + 1 } :=
  t.lift (fun m => { m with rng := m.rng + 1 }) (fun _ _ _ => rfl) (.refl _) t.cnt

theorem tk_genKey {l l' : Lib} (t : LTk e k l l') (s : Session) (m : Option (Mech × MechParam)) (tm : Option (List Entry))
    (ptr : Bool) : RTk e k (cGenKey e l s m tm ptr) (cGenKey e l' s m tm ptr) := by
  unfold cGenKey
  rcases m with _ | ⟨m, p⟩
  · exact ⟨t, rfl⟩
  rcases tm with _ | tm
  · exact ⟨t, rfl⟩
  dsimp only
  have t1 := t.drew
  rw [t.rng] at t1 ⊢
  split
  · exact ⟨t, rfl⟩
  split
  · exact ⟨t, rfl⟩
  split
  · exact ⟨t, rfl⟩
  obtain ⟨rv, o⟩ := newObject e s CKK_AES CKO_SECRET_KEY tm
  cases rv <;> first
    | exact tk_addObject t1 ..
    | exact ⟨t, rfl⟩

theorem tk_addPair {l l' : Lib} (t : LTk e k l l') (s : Session) (tp tq : List Entry) (p q : Obj) :
    RTk e k (addPair e l s tp tq p q) (addPair e l' s tp tq p q) := by
  unfold addPair
  obtain ⟨h1, h2⟩ := tk_addObject (e := e) t s tp p
  generalize addObject e l s tp p = a at h1 h2
  generalize addObject e l' s tp p = b at h1 h2
  obtain ⟨a1, a2⟩ := a
  obtain ⟨b1, b2⟩ := b
  cases h2
  dsimp only at h1 ⊢
  rw [h1.sessions]
  split
  · exact ⟨h1, rfl⟩
  cases a1.sessions.find? fun z => z.handle == s.handle with
  | none => exact ⟨h1, rfl⟩
  | some s1 =>
    dsimp only
    obtain ⟨i1, i2⟩ := tk_addObject (e := e) h1 s1 tq q
    generalize addObject e a1 s1 tq q = c at i1 i2
    generalize addObject e b1 s1 tq q = d at i1 i2
    obtain ⟨c1, c2⟩ := c
    obtain ⟨d1, d2⟩ := d
    cases i2
    dsimp only at i1 ⊢
    split
    · exact ⟨i1.lift (fun m => { m with bad := true }) (fun _ _ _ => rfl) (.refl _) i1.cnt, rfl⟩
    · exact ⟨i1, rfl⟩

theorem tk_genPair {l l' : Lib} (t : LTk e k l l') (s : Session) (m : Option (Mech × MechParam))
    (tp tq : Option (List Entry)) (ptrs : Bool) : RTk e k (cGenPair e l s m tp tq ptrs) (cGenPair e l' s m tp tq ptrs) := by
  unfold cGenPair
  rcases m with _ | ⟨m, p⟩
  · exact ⟨t, rfl⟩
  rcases tp with _ | tp
  · exact ⟨t, rfl⟩
  rcases tq with _ | tq
  · exact ⟨t, rfl⟩
  dsimp only
  have t1 := t.drew
  rw [t.rng] at t1 ⊢
  split
  · exact ⟨t, rfl⟩
  cases pairGen e l.rng m with
  | none => exact ⟨t, rfl⟩
  | some g =>
    obtain ⟨typ, gen⟩ := g
    dsimp only
    split
    · exact ⟨t, rfl⟩
    obtain ⟨rv, pub⟩ := newObject e s typ CKO_PUBLIC_KEY tp
    cases rv <;> try exact ⟨t, rfl⟩
    dsimp only
    obtain ⟨rv, priv⟩ := newObject e s typ CKO_PRIVATE_KEY tq
    cases rv <;> try exact ⟨t, rfl⟩
    dsimp only
    obtain ⟨rv, a, b⟩ := gen pub priv
    cases rv <;> first
      | exact ⟨t, rfl⟩
      | exact tk_addPair t1 ..
      | exact ⟨t1, rfl⟩

theorem tk_wrap {l l' : Lib} (t : LTk e k l l') (hp : l.PopA) {s : Session} (hs : s ∈ l.sessions)
    (m : Option (Mech × MechParam)) {wk i : Nat} (hw : wk ≠ k) (hi : i ≠ k) (ob : OutBuf) :
    RTk e k (cWrap e l s m wk i ob) (cWrap e l' s m wk i ob) := by
  unfold cWrap
  rcases m with _ | ⟨m, p⟩
  · exact ⟨t, rfl⟩
  dsimp only
  rw [t.findOther s hi, t.findOther s hw]
  split
  · exact ⟨t, rfl⟩
  split
  · exact ⟨t, rfl⟩
  cases Verif.findObj l s i with
  | none => exact ⟨t, rfl⟩
  | some kx =>
    cases ho : Verif.findObj l s wk with
    | none => exact ⟨t, rfl⟩
    | some w =>
      dsimp only
      split
      · exact ⟨t, rfl⟩
      cases e.pkcs8 kx.rsa with
      | none => exact ⟨t, rfl⟩
      | some der =>
        dsimp only
        split
        · exact ⟨t, rfl⟩
        split
        · exact ⟨t, rfl⟩
        split
        · exact ⟨t.upd _ _ fun _ => rfl, rfl⟩
        · exact ⟨t.updWith hp hs hw ho _, rfl⟩

theorem tk_addRsa {l l' : Lib} (t : LTk e k l l') (s : Session) (tm : List Entry) (der : Bytes) :
    RTk e k (addRsaPrivate e l s tm der) (addRsaPrivate e l' s tm der) := by
  unfold addRsaPrivate
  obtain ⟨rv, o⟩ := newObject e s CKK_RSA CKO_PRIVATE_KEY tm
  cases rv <;> try exact ⟨t, rfl⟩
  dsimp only
  cases e.parsePriv der with
  | none => exact ⟨t, rfl⟩
  | some kx =>
    obtain ⟨h1, h2⟩ := tk_addObject (e := e) t s tm { o with data := .rsa kx }
    exact ⟨h1, by dsimp only; rw [h2]⟩

theorem tk_unwrap {l l' : Lib} (t : LTk e k l l') (hp : l.PopA) {s : Session} (hs : s ∈ l.sessions)
    (m : Option (Mech × MechParam)) {wk : Nat} (hw : wk ≠ k) (d : Option Bytes) (tm : Option (List Entry))
    (ptr : Bool) : RTk e k (cUnwrap e l s m wk d tm ptr) (cUnwrap e l' s m wk d tm ptr) := by
  unfold cUnwrap
  split
  · exact ⟨t, rfl⟩
  rcases m with _ | ⟨m, p⟩
  · exact ⟨t, rfl⟩
  rcases d with _ | d
  · exact ⟨t, rfl⟩
  rcases tm with _ | tm
  · exact ⟨t, rfl⟩
  dsimp only
  rw [t.findOther s hw]
  split
  · exact ⟨t, rfl⟩
  cases ho : Verif.findObj l s wk with
  | none => exact ⟨t, rfl⟩
  | some w =>
    dsimp only
    split
    · exact ⟨t, rfl⟩
    split
    · exact ⟨t, rfl⟩
    split
    · exact ⟨t, rfl⟩
    split
    · exact ⟨t.upd _ _ fun _ => rfl, rfl⟩
    have t2 := t.updWith hp hs hw ho (decrypt e.crypto (decryptInit s.op w m p).1 (some w) (some d) (.buf 0) 0).1
    split
    · exact ⟨t2, rfl⟩
    · exact tk_addRsa t2 ..

theorem tk_derive {l l' : Lib} (t : LTk e k l l') (s : Session) (m : Option DeriveMech) {i : Nat} (hi : i ≠ k)
    (tm : Option (List Entry)) (ptr : Bool) : RTk e k (cDerive e l s m i tm ptr) (cDerive e l' s m i tm ptr) := by
  unfold cDerive
  rcases m with _ | m
  · exact ⟨t, rfl⟩
  rcases tm with _ | tm
  · exact ⟨t, rfl⟩
  dsimp only
  rw [t.findOther s hi]
  split
  · exact ⟨t, rfl⟩
  cases Verif.findObj l s i with
  | none => exact ⟨t, rfl⟩
  | some b =>
    dsimp only
    cases deriveSecret e b m with
    | error rv => exact ⟨t, rfl⟩
    | ok sec =>
      dsimp only
      obtain ⟨rv, o⟩ := createObject e s tm
      cases rv <;> try exact ⟨t, rfl⟩
      dsimp only
      cases (deriveTail e.key o sec).obj with
      | none => exact ⟨t, rfl⟩
      | some o => exact tk_addObject t ..

/-! ## PINs, login and the token -/

theorem tk_setSo {l l' : Lib} (t : LTk e k l l') (pin : Bytes) : RTk e k (pinSet (setSoPin e l pin)) (pinSet (setSoPin e l' pin)) := by
  have h : LTk e k { l with rng := l.rng + 1, token := { l.token with so := { l.token.so with pin := e.store.hash pin (e.store.rand l.rng 16), seed := e.store.rand l.rng 16 } } }
      { l' with rng := l'.rng + 1, token := { l'.token with so := { l'.token.so with pin := e.store.hash pin (e.store.rand l'.rng 16), seed := e.store.rand l'.rng 16 } } } :=
    t.lift (fun m => { m with rng := m.rng + 1, token := { m.token with so := { m.token.so with pin := e.store.hash pin (e.store.rand m.rng 16), seed := e.store.rand m.rng 16 } } })
      (fun _ _ _ => rfl) (.refl _) t.cnt
  have := tk_store h
  exact ⟨this.1, by unfold pinSet setSoPin; dsimp only; rw [this.2]⟩

theorem tk_setUser {l l' : Lib} (t : LTk e k l l') (pin : Bytes) : RTk e k (pinSet (setUserPin e l pin)) (pinSet (setUserPin e l' pin)) := by
  have h := t.lift (fun m => { m with rng := m.rng + 2, token := { m.token with
      user := { m.token.user with pin := e.store.hash pin (e.store.rand m.rng 16), seed := e.store.rand m.rng 16 }, seed := e.store.rand (m.rng + 1) 16,
      key := e.store.hash pin (e.store.rand (m.rng + 1) 16) } })
      (fun _ _ _ => rfl) (.refl _) t.cnt
  have := tk_store h
  exact ⟨this.1, by unfold pinSet setUserPin; dsimp only; rw [this.2]⟩

theorem LTk.checkPin {l l' : Lib} (t : LTk e k l l') (a : Account) (pin : Bytes) : Verif.checkPin e l'.token a pin = Verif.checkPin e l.token a pin := by
  rw [t.eq]; rfl

theorem tk_initToken {l l' : Lib} (t : LTk e k l l') (pin label : Option Bytes) : RTk e k (initToken e l pin label) (initToken e l' pin label) := by
  unfold initToken
  rcases pin with _ | pin
  · exact ⟨t, rfl⟩
  rcases label with _ | label
  · exact ⟨t, rfl⟩
  dsimp only
  have hi : l'.token.init = l.token.init := by rw [t.eq]; rfl
  have hso : l'.token.so = l.token.so := by rw [t.eq]; rfl
  rw [t.sessions, hi, hso, t.checkPin]
  split
  · exact ⟨t, rfl⟩
  split
  · exact ⟨t, rfl⟩
  split
  · exact ⟨t, rfl⟩
  · refine tk_setSo ?_ pin
    obtain ⟨os, d, rfl⟩ : ∃ os d, l' = l.dress os d := ⟨_, _, t.eq⟩
    exact ⟨rfl, .nil, t.cnt⟩

theorem tk_state {l l' : Lib} (t : LTk e k l l') (s : Session) : sessState l' s = sessState l s := by
  unfold sessState
  rw [t.login]

theorem tk_initPin {l l' : Lib} (t : LTk e k l l') (s : Session) (pin : Option Bytes) :
    RTk e k (initPin e l s pin) (initPin e l' s pin) := by
  unfold initPin
  rcases pin with _ | pin
  · exact ⟨t, rfl⟩
  dsimp only
  rw [tk_state t]
  split
  · exact ⟨t, rfl⟩
  split
  · exact ⟨t, rfl⟩
  · exact tk_setUser t pin

theorem tk_setPin {l l' : Lib} (t : LTk e k l l') (s : Session) (old new : Option Bytes) :
    RTk e k (setPin e l s old new) (setPin e l' s old new) := by
  unfold setPin
  rcases old with _ | old
  · exact ⟨t, rfl⟩
  rcases new with _ | new
  · exact ⟨t, rfl⟩
  dsimp only
  have hso : l'.token.so = l.token.so := by rw [t.eq]; rfl
  have hus : l'.token.user = l.token.user := by rw [t.eq]; rfl
  rw [tk_state t, hso, hus, t.checkPin, t.checkPin]
  split
  · exact ⟨t, rfl⟩
  split
  · exact ⟨t, rfl⟩
  cases sessState l s with
  | rwSo =>
    dsimp only
    cases Verif.checkPin e l.token l.token.so old with
    | ok => exact tk_setSo t new
    | notSet => exact ⟨t, rfl⟩
    | invalid => exact ⟨t, rfl⟩
  | rwUser =>
    dsimp only
    cases Verif.checkPin e l.token l.token.user old with
    | ok => exact tk_setUser t new
    | notSet => exact ⟨t, rfl⟩
    | invalid => exact ⟨t, rfl⟩
  | rwPublic =>
    dsimp only
    cases Verif.checkPin e l.token l.token.user old with
    | ok => exact tk_setUser t new
    | notSet => exact ⟨t, rfl⟩
    | invalid => exact ⟨t, rfl⟩
  | roUser => exact ⟨t, rfl⟩
  | roPublic => exact ⟨t, rfl⟩

theorem tk_soLogin {l l' : Lib} (t : LTk e k l l') (pin : Bytes) (now : Int) :
    LTk e k (soLogin e l pin now).1 (soLogin e l' pin now).1 ∧ (soLogin e l' pin now).2 = (soLogin e l pin now).2 := by
  obtain ⟨os, d, rfl⟩ : ∃ os d, l' = l.dress os d := ⟨_, _, t.eq⟩
  unfold soLogin
  have h1 : (l.dress os d).token.login = l.token.login := rfl
  have h2 : (l.dress os d).token.so = l.token.so := rfl
  rw [h1, h2]
  split
  · exact ⟨t, rfl⟩
  cases lockCheck l.token.so now with
  | none => exact ⟨t, rfl⟩
  | some a =>
    dsimp only
    have h3 : (l.dress os d).sessions = l.sessions := rfl
    rw [h3]
    have h4 : Verif.checkPin e { (l.dress os d).token with so := a } a pin = Verif.checkPin e { l.token with so := a } a pin := rfl
    rw [h4]
    split
    · exact ⟨t.setToken (fun m => { m with so := a }) fun _ _ => rfl, rfl⟩
    cases Verif.checkPin e { l.token with so := a } a pin with
    | ok => exact ⟨t.setToken (fun m => { m with so := succeeded a, login := .so }) fun _ _ => rfl, rfl⟩
    | notSet => exact ⟨t.setToken (fun m => { m with so := a }) fun _ _ => rfl, rfl⟩
    | invalid => exact ⟨t.setToken (fun m => { m with so := failed a now 600 }) fun _ _ => rfl, rfl⟩

theorem tk_login {l l' : Lib} (t : LTk e k l l') {u : UserType} (hu : u ≠ .user) (pin : Option Bytes) (now : Int) :
    RTk e k (login e l u pin now) (login e l' u pin now) := by
  unfold login
  rcases pin with _ | pin
  · exact ⟨t, rfl⟩
  dsimp only
  split
  · exact ⟨t, rfl⟩
  cases u with
  | so => exact ⟨(tk_soLogin t pin now).1, by dsimp only; rw [(tk_soLogin t pin now).2]⟩
  | user => exact absurd rfl hu
  | contextSpecific => exact ⟨t, rfl⟩
  | other => exact ⟨t, rfl⟩

theorem tk_random {l l' : Lib} (t : LTk e k l l') (ptr : Bool) (n : Nat) : RTk e k (cRandom e l ptr n) (cRandom e l' ptr n) := by
  unfold cRandom
  have t1 := t.drew
  rw [t.rng] at t1 ⊢
  split
  · exact ⟨t, rfl⟩
  split
  · exact ⟨t, rfl⟩
  · exact ⟨t1, rfl⟩

/-! ## The machine -/

theorem employs_of {i : Nat} {c : Call} (h : i = k → EmploysAny k c) (hc : ¬ EmploysAny k c) : i ≠ k := fun hi => hc (h hi)

theorem tk_sess (hx : e.key.Lawful) {l l' : Lib} (t : LTk e k l l') (hp : l.PopA) {s : Session} (hs : s ∈ l.sessions)
    (c : SessCall) (hc : ¬ EmploysAny k (.sess s.handle c)) (hr : ¬ Reopens (.sess s.handle c)) :
    RTk e k (sessCall e l s c) (sessCall e l' s c) := by
  cases c with
  | close => exact tk_close t _
  | info ptr =>
    unfold sessCall
    dsimp only
    rw [tk_state t]
    split <;> exact ⟨t, rfl⟩
  | login w pin now => exact tk_login t (fun hw => hr (by subst hw; trivial)) pin now
  | logout => exact ⟨t.logout, rfl⟩
  | initPin pin => exact tk_initPin t s pin
  | setPin old new => exact tk_setPin t s old new
  | create tm ptr => exact tk_create t s tm ptr
  | copy o tm ptr => exact tk_copy hx t s o tm ptr
  | destroy o => exact tk_destroy t s o
  | size o ptr =>
    unfold sessCall
    dsimp only
    split
    · exact ⟨t, rfl⟩
    · refine ⟨t, ?_⟩
      rcases t.findObj s o with ⟨h1, h2⟩ | ⟨a, b, h1, h2, _⟩
      · dsimp only; rw [h1, h2]
      · dsimp only; rw [h1, h2]; rfl
  | getAttr o tm => exact tk_getAttr hx t s o tm
  | setAttr o tm => exact tk_setAttr t hp hs (fun h => hc ⟨_, rfl, h⟩) tm
  | findInit tm => exact tk_findInit hx t s tm
  | findNext ptr n => exact tk_findNext t s ptr n
  | findFinal => exact ⟨t.upd _ _ fun _ => rfl, rfl⟩
  | cryptInit kd m key => exact tk_cryptInit t hp hs kd m fun h => hc ⟨_, rfl, h⟩
  | crypt c => exact tk_crypt t hs c
  | genKey m tm ptr => exact tk_genKey t s m tm ptr
  | genPair m tp tq ptrs => exact tk_genPair t s m tp tq ptrs
  | wrap m wk key ob => exact tk_wrap t hp hs m (fun hw => hc ⟨_, rfl, .inl hw⟩) (fun hw => hc ⟨_, rfl, .inr hw⟩) ob
  | unwrap m wk d tm ptr => exact tk_unwrap t hp hs m (fun h => hc ⟨_, rfl, h⟩) d tm ptr
  | derive m base tm ptr => exact tk_derive t s m (fun h => hc ⟨_, rfl, h⟩) tm ptr
  | random ptr n => exact tk_random t ptr n

theorem tk_slot {l l' : Lib} (t : LTk e k l l') (c : SlotCall) : RTk e k (slotCall e l c) (slotCall e l' c) := by
  cases c with
  | tokenInfo ptr now =>
    unfold slotCall
    dsimp only
    have : tokenInfo l' now = tokenInfo l now := by rw [t.eq]; rfl
    rw [this]
    split <;> exact ⟨t, rfl⟩
  | initToken pin label => exact tk_initToken t pin label
  | openSession w serial ptr =>
    unfold slotCall
    dsimp only
    split
    · exact ⟨t, rfl⟩
    split
    · exact ⟨t, rfl⟩
    · exact tk_open t w
  | closeAll =>
    refine ⟨?_, rfl⟩
    unfold slotCall
    dsimp only
    rw [t.sessions]
    exact t.setSessions (noMore_closeAll _)

theorem tk_body (hx : e.key.Lawful) {l l' : Lib} (t : LTk e k l l') (hp : l.PopA) (hn : SInv l) (c : Call) (hc : ¬ EmploysAny k c) (hr : ¬ Reopens c) :
    RTk e k (callBody e l c) (callBody e l' c) := by
  cases c with
  | cInit =>
    have h1 : l.count ≠ 0 := Int.ne_of_gt t.cnt
    unfold callBody cInitialize
    dsimp only
    rw [t.count, if_neg h1, if_neg h1]
    have := t.lift (fun m => { m with count := m.count + 1 }) (fun _ _ _ => rfl) (.refl _) (Int.add_pos t.cnt (by decide))
    exact ⟨this, rfl⟩
  | cFinal => exact absurd trivial hr
  | slot id c =>
    unfold callBody
    dsimp only
    rw [t.count]
    split
    · exact ⟨t, rfl⟩
    split
    · exact ⟨t, rfl⟩
    · exact tk_slot t c
  | sess j c =>
    unfold callBody
    dsimp only
    rw [t.count, t.getSession]
    split
    · exact ⟨t, rfl⟩
    cases h1 : Verif.getSession l j with
    | none => exact ⟨t, rfl⟩
    | some s =>
      obtain ⟨hm, hh, _⟩ := (getSession_iff hn).mp h1
      subst hh
      exact tk_sess hx t hp hm c hc hr

theorem tk_step (hx : e.key.Lawful) {l l' : Lib} (t : LTk e k l l') (hp : l.PopA) (hn : SInv l) (c : Call) (hc : ¬ EmploysAny k c) (hr : ¬ Reopens c) :
    RTk e k (step e l c) (step e l' c) := by
  unfold step
  rw [t.bad]
  split
  · exact ⟨t, rfl⟩
  have := tk_body hx t hp hn c hc hr
  dsimp only
  rw [this.2]
  split
  · exact ⟨this.1.lift (fun m => { m with bad := true }) (fun _ _ _ => rfl) (.refl _) this.1.cnt, rfl⟩
  · exact ⟨this.1, this.2⟩

end Verif
