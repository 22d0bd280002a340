import Verif.Proofs.Look
import Verif.Spec.Sealed

/-!
# The library without the encrypted forms of keys
-/

namespace Verif

variable {e : Env}

/-- The object with another encrypted form. -/
def Obj.kd (o : Obj) (k : Option Bytes) : Obj := { o with keyData := k }

/-- The object without what its encrypted form says. -/
def Obj.blind (o : Obj) : Obj := o.kd (o.keyData.map fun _ => [])

/-- The library without its files and what the encrypted forms of keys say. -/
def Lib.blind (l : Lib) : Lib :=
  { l with disk := fun _ => none, token := { l.token with objs := l.token.objs.map Obj.blind } }

/-- Two outcomes of a call that do not differ but in the files and in encrypted forms. -/
def Blind (r r' : Lib × Resp) : Prop := r.1.blind = r'.1.blind ∧ r.2 = r'.2

/-! ## Objects -/

theorem kd_blind (o : Obj) (k : Option Bytes) : (o.kd k).blind = o.kd (k.map fun _ => []) := rfl

theorem blind_blind (o : Obj) : o.blind.blind = o.blind := by
  unfold Obj.blind Obj.kd
  cases o.keyData <;> rfl

theorem lib_blind_blind (l : Lib) : l.blind.blind = l.blind := by
  unfold Lib.blind
  simp only [List.map_map]
  congr 3
  funext o
  exact blind_blind o

theorem getAttributeValue_kd (x : KeyExt) (o : Obj) (k : Option Bytes) (t : List Entry) :
    getAttributeValue x (o.kd k) t = getAttributeValue x o t := by
  rw [← view_getAttributeValue x o, ← view_getAttributeValue x (o.kd k)]
  rfl

theorem setAttr_kd (o : Obj) (k : Option Bytes) (en : Entry) :
    setAttr (o.kd k) en = ((setAttr o en).1, (setAttr o en).2.kd k) := by
  unfold setAttr
  cases en.typ <;> first | rfl | skip
  all_goals
    have h : ∀ c, reinterprets (o.kd k) c = reinterprets o c := fun _ => rfl
    simp only [h]
    split <;> rfl

theorem setAttrs_kd (t : List Entry) (o : Obj) (k : Option Bytes) :
    setAttrs (o.kd k) t = ((setAttrs o t).1, (setAttrs o t).2.kd k) := by
  induction t generalizing o with
  | nil => rfl
  | cons en t ih =>
    unfold setAttrs
    dsimp only
    rw [setAttr_kd]
    cases h : (setAttr o en).1 <;> simp only <;> first | exact ih _ | rfl

theorem setKey_kd (x : KeyExt) (o : Obj) (k : Option Bytes) (v : CKA → Option Bytes) :
    setKey x (o.kd k) v = ((setKey x o v).1, (setKey x o v).2.kd k) := by
  unfold setKey
  have h1 : (o.kd k).cls = o.cls := rfl
  have h2 : (o.kd k).typ = o.typ := rfl
  rw [h1, h2]
  split
  · unfold setCert
    cases o with | mk uid data => cases data <;> dsimp only [Obj.kd] <;>
      (cases v .certificateType <;> cases v .value <;> simp only <;> (repeat' split) <;> rfl)
  split
  · unfold setRsaKey
    split
    · dsimp only
      cases v .modulusBits <;> simp only <;> (repeat' split) <;> rfl
    · rfl
  split
  · unfold setEcKey
    dsimp only
    split <;> rfl
  split
  · unfold setDhKey
    have h3 : (o.kd k).dh = o.dh := rfl
    dsimp only
    rw [h3]
    split
    · rfl
    · cases v .value <;> simp only <;> (repeat' split) <;> rfl
  · unfold setSecretKey
    rw [h2]
    cases secretLen o.typ (v .valueLen) (v .value) <;> simp only
    · rfl
    · cases v .value <;> rfl

theorem setAttributeValue_kd (x : KeyExt) (rw' : Bool) (o : Obj) (k : Option Bytes) (t : List Entry) :
    setAttributeValue x rw' (o.kd k) t = ((setAttributeValue x rw' o t).1, (setAttributeValue x rw' o t).2.kd k) := by
  unfold setAttributeValue
  split
  · rfl
  dsimp only
  split
  · rfl
  have h1 : keyParams (o.kd k) = keyParams o := rfl
  rw [h1]
  split
  · rfl
  split
  · rfl
  rw [setKey_kd]
  cases h : (setKey x o (keyVals t)).1 <;> simp only <;> first | exact setAttrs_kd .. | rfl

theorem setAttributeValue_blind (x : KeyExt) (rw' : Bool) (o : Obj) (t : List Entry) :
    (setAttributeValue x rw' o.blind t).1 = (setAttributeValue x rw' o t).1 ∧
    (setAttributeValue x rw' o.blind t).2.blind = (setAttributeValue x rw' o t).2.blind := by
  have hk : (setAttributeValue x rw' o t).2.keyData = o.keyData := by
    have h := setAttributeValue_kd x rw' o o.keyData t
    have h' : o.kd o.keyData = o := rfl
    rw [h'] at h
    have := congrArg (fun r => r.2.keyData) h
    exact this
  unfold Obj.blind
  rw [setAttributeValue_kd]
  refine ⟨rfl, ?_⟩
  dsimp only
  rw [hk]
  unfold Obj.kd
  cases o.keyData <;> rfl

theorem findLoop_blind (x : KeyExt) (lg : Login) (t : List Entry) (os : List Obj) (acc : List Nat) :
    findLoop x lg t (os.map Obj.blind) acc = findLoop x lg t os acc := by
  have hm : ∀ (t : List Entry) (o : Obj), matchAll x o.blind t = matchAll x o t := by
    intro t o
    induction t with
    | nil => rfl
    | cons en t ih => unfold matchAll; rw [ih]; rfl
  induction os generalizing acc with
  | nil => rfl
  | cons o os ih =>
    simp only [List.map_cons, findLoop]
    rw [hm]
    simp only [ih]
    rfl

theorem find_blind (os : List Obj) (p : Obj → Bool) (hp : ∀ o, p o.blind = p o) :
    (os.map Obj.blind).find? p = (os.find? p).map Obj.blind := by
  induction os with
  | nil => rfl
  | cons o os ih =>
    simp only [List.map_cons, List.find?_cons, hp]
    cases p o
    · exact ih
    · rfl

/-! ## Storing -/

theorem storeObj_blind (x : StoreExt) (k : Bytes) (r : Nat) (o : Obj) (i : Nat) :
    (storeObj x k r o.blind i).obj.blind = (storeObj x k r o i).obj.blind ∧
    (storeObj x k r o.blind i).rng = (storeObj x k r o i).rng ∧ (storeObj x k r o.blind i).ok = (storeObj x k r o i).ok := by
  cases hk : o.keyData with
  | none =>
    have h : o.blind = o := by
      unfold Obj.blind Obj.kd; rw [hk]; cases o; cases hk; rfl
    rw [h]
    exact ⟨rfl, rfl, rfl⟩
  | some d =>
    have h : o.blind = o.kd (some []) := by unfold Obj.blind; rw [hk]; rfl
    have h1 : needsIv o = false := by unfold needsIv; rw [hk]; rfl
    have h2 : needsIv (o.kd (some [])) = false := rfl
    have h3 : keyFile (o.kd (some [])) = keyFile o := rfl
    have h4 : keyTail (o.kd (some [])) = keyTail o := rfl
    have h5 : (o.kd (some [])).keyData = some [] := rfl
    have h6 : (o.kd (some [])).certValue = o.certValue := rfl
    have hb : (o.kd (some [])).blind = o.blind := by rw [h]; rfl
    rw [h]
    unfold storeObj
    simp only [h1, h2, h3, h5, h6, hk, Bool.false_eq_true, if_false, Option.isNone_some, h4]
    split
    · exact ⟨hb, rfl, rfl⟩
    · split <;> exact ⟨hb, rfl, rfl⟩
    · cases keyTail o <;> exact ⟨hb, rfl, rfl⟩

theorem storeObjs_blind (x : StoreExt) (k : Bytes) (os : List Obj) (r : Nat) :
    (storeObjs x k r (os.map Obj.blind)).2.1.map Obj.blind = (storeObjs x k r os).2.1.map Obj.blind ∧
    (storeObjs x k r (os.map Obj.blind)).2.2 = (storeObjs x k r os).2.2 := by
  induction os generalizing r with
  | nil => exact ⟨rfl, rfl⟩
  | cons o os ih =>
    simp only [List.map_cons, storeObjs, List.length_map]
    obtain ⟨h1, h2, h3⟩ := storeObj_blind x k r o os.length
    rw [h2, h3]
    split
    · obtain ⟨i1, i2⟩ := ih (storeObj x k r o os.length).rng
      simp only [List.map_cons, h1, i1, i2]
      exact ⟨trivial, trivial⟩
    · simp only [List.map_cons, h1, List.map_map]
      refine ⟨?_, trivial⟩
      congr 1
      exact List.map_congr_left fun p _ => blind_blind p

theorem store_blind (l : Lib) :
    (Lib.store e l.blind).1.blind = (Lib.store e l).1.blind ∧ (Lib.store e l.blind).2 = (Lib.store e l).2 := by
  obtain ⟨h1, h2⟩ := storeObjs_blind e.store l.token.key l.token.objs l.rng
  unfold Lib.store storeToken Lib.blind
  dsimp only
  rw [h1, h2]
  exact ⟨rfl, rfl⟩

theorem store_blind_eq {l m : Lib} (h : l.blind = m.blind) :
    (Lib.store e l).1.blind = (Lib.store e m).1.blind ∧ (Lib.store e l).2 = (Lib.store e m).2 := by
  have h1 := store_blind (e := e) l
  have h2 := store_blind (e := e) m
  rw [h] at h1
  exact ⟨h1.1.symm.trans h2.1, h1.2.symm.trans h2.2⟩

theorem encodeObj_blind (x : StoreExt) (k : Bytes) (b : Bool) (o : Obj) :
    (encodeObj x k b o.blind).1 = (encodeObj x k b o).1 ∧
    (encodeObj x k b o.blind).2.blind = (encodeObj x k b o).2.blind := by
  unfold encodeObj
  have h1 : o.blind.cls = o.cls := rfl
  rw [h1]
  split
  · exact ⟨rfl, blind_blind o⟩
  have hk : (encodeKey x k o.blind).1 = (encodeKey x k o).1 ∧ (encodeKey x k o.blind).2.blind = (encodeKey x k o).2.blind := by
    unfold encodeKey
    have h2 : o.blind.typ = o.typ := rfl
    rw [h2]
    repeat' split
    · exact ⟨rfl, rfl⟩
    · exact ⟨rfl, rfl⟩
    · exact ⟨rfl, rfl⟩
    · exact ⟨rfl, rfl⟩
    · exact ⟨rfl, blind_blind o⟩
  have hc : ∀ p q : Obj, p.blind = q.blind → (cleared p).blind = (cleared q).blind := by
    intro p q hpq
    have : ∀ p : Obj, (cleared p).blind = (cleared p.blind) := by
      intro p
      unfold cleared
      have h1 : p.blind.cls = p.cls := rfl
      have h2 : p.blind.typ = p.typ := rfl
      rw [h1, h2]
      repeat' split
      all_goals rfl
    rw [this, this, hpq]
  dsimp only
  rw [hk.1]
  split
  · exact ⟨rfl, hc _ _ hk.2⟩
  · exact hk

theorem encodeAll_blind (x : StoreExt) (k : Bytes) (os : List Obj) :
    (encodeAll x k (os.map Obj.blind)).map Obj.blind = (encodeAll x k os).map Obj.blind := by
  induction os with
  | nil => rfl
  | cons o os ih =>
    simp only [List.map_cons, encodeAll]
    obtain ⟨h1, h2⟩ := encodeObj_blind x k true o
    rw [h1]
    split
    · simp only [List.map_cons, h2, ih]
    · simp only [List.map_cons, h2, List.map_map]
      congr 1
      exact List.map_congr_left fun p _ => blind_blind p

theorem logout_blind (l : Lib) : (logout e l.blind).blind = (logout e l).blind := by
  unfold logout
  have h1 : l.blind.token.login = l.token.login := rfl
  rw [h1]
  split
  · unfold Lib.blind
    dsimp only
    rw [encodeAll_blind]
  · have h := congrArg (fun m : Lib => m.token.objs) (lib_blind_blind l)
    unfold Lib.blind at h ⊢
    dsimp only at h ⊢
    rw [h]

/-! ## Calls -/

theorem Blind.refl {r : Lib × Resp} : Blind r r := ⟨rfl, rfl⟩

theorem Blind.trans {r r' r'' : Lib × Resp} (h : Blind r r') (h' : Blind r' r'') : Blind r r'' :=
  ⟨h.1.trans h'.1, h.2.trans h'.2⟩

theorem Blind.symm {r r' : Lib × Resp} (h : Blind r r') : Blind r' r := ⟨h.1.symm, h.2.symm⟩

theorem Blind.same (l : Lib) (r : Resp) : Blind (l.blind, r) (l, r) := ⟨lib_blind_blind l, rfl⟩

/-- A change of the library that treats the encrypted forms alike. -/
theorem blind_map {l m : Lib} (h : l.blind = m.blind) (f : Lib → Lib) (hf : ∀ l : Lib, (f l).blind = (f l.blind).blind) :
    (f l).blind = (f m).blind := by
  rw [hf l, hf m, h]

theorem upd_blind (l : Lib) (h : Nat) (f : Session → Session) : (l.blind.upd h f).blind = (l.upd h f).blind :=
  show (l.upd h f).blind.blind = _ from lib_blind_blind _

theorem Blind.upd (l : Lib) (h : Nat) (f : Session → Session) (r : Resp) : Blind (l.blind.upd h f, r) (l.upd h f, r) :=
  ⟨upd_blind l h f, rfl⟩

theorem findObj_blind (l : Lib) (s : Session) (h : Nat) :
    findObj l.blind s h = (findObj l s h).map (if handleOnToken h then Obj.blind else id) := by
  unfold findObj
  split
  · exact find_blind _ _ fun _ => rfl
  · simp only [Option.map_id]; rfl

/-- The object found, or the one without its encrypted form. -/
theorem findObj_cases (l : Lib) (s : Session) (h : Nat) :
    (findObj l s h = none ∧ findObj l.blind s h = none) ∨
    ∃ o o', findObj l s h = some o ∧ findObj l.blind s h = some o' ∧
      (o' = o.blind ∨ (o' = o ∧ handleOnToken h = false)) := by
  rw [findObj_blind]
  cases findObj l s h with
  | none => exact .inl ⟨rfl, rfl⟩
  | some o =>
    refine .inr ⟨o, _, rfl, rfl, ?_⟩
    cases hh : handleOnToken h
    · exact .inr ⟨rfl, rfl⟩
    · exact .inl rfl

theorem getSession_blind (l : Lib) (h : Nat) : getSession l.blind h = getSession l h := rfl

theorem currKey_blind (l : Lib) (s : Session) :
    currKey l.blind s = currKey l s ∨ ∃ o, currKey l s = .obj o ∧ currKey l.blind s = .obj o.blind := by
  unfold currKey
  cases s.curr with
  | none => exact .inl rfl
  | some u =>
    simp only [List.find?_append]
    cases s.objs.find? fun o => o.uid == u with
    | some o => exact .inl rfl
    | none =>
      have h : l.blind.token.objs.find? (fun o => o.uid == u) = (l.token.objs.find? fun o => o.uid == u).map Obj.blind :=
        find_blind _ _ fun _ => rfl
      simp only [Option.none_or]
      rw [h]
      cases l.token.objs.find? fun o => o.uid == u with
      | none => exact .inl rfl
      | some o => exact .inr ⟨o, rfl, rfl⟩

theorem data_blind (x : Crypto) (s : OpSt) (o : Obj) (c : DataCall) : c.run x s (some o.blind) = c.run x s (some o) := by
  cases c <;> rfl

theorem init_blind (x : Crypto) (k : Kind) (s : OpSt) (o : Obj) (m : Mech) (p : MechParam) :
    initCall x k s o.blind m p = initCall x k s o m p := by
  cases k <;> rfl

theorem getAttributeValue_blind (x : KeyExt) (o : Obj) (t : List Entry) :
    getAttributeValue x o.blind t = getAttributeValue x o t := getAttributeValue_kd ..

theorem nextHandle_blind (os : List Obj) (on : Nat) : nextHandle (os.map Obj.blind) on = nextHandle os on := by
  cases os <;> rfl

theorem sessAdd_blind (l : Lib) (s : Session) (on : Nat) (o : Obj) :
    (sessAddObject e l.blind s on o).1.blind = (sessAddObject e l s on o).1.blind ∧
    (sessAddObject e l.blind s on o).2 = (sessAddObject e l s on o).2 := by
  unfold sessAddObject
  have h1 : l.blind.uid = l.uid := rfl
  have h2 : l.blind.token.key = l.token.key := rfl
  have h3 : l.blind.token.objs.length = l.token.objs.length := List.length_map ..
  have h4 : nextHandle l.blind.token.objs on = nextHandle l.token.objs on := nextHandle_blind ..
  simp only [h1, h2, h3, h4]
  split
  · split
    · exact ⟨lib_blind_blind l, rfl⟩
    split
    · refine ⟨(store_blind_eq ?_).1, rfl⟩
      have h := congrArg (fun m : Lib => m.token.objs) (lib_blind_blind l)
      unfold Lib.blind at h ⊢
      dsimp only at h ⊢
      rw [List.map_cons, List.map_cons, h]
    · exact ⟨lib_blind_blind l, rfl⟩
  · split
    · exact ⟨lib_blind_blind l, rfl⟩
    · exact ⟨upd_blind { l with uid := l.uid + 1 } _ _, rfl⟩

theorem addObject_blind (l : Lib) (s : Session) (t : List Entry) (o : Obj) :
    Blind (addObject e l.blind s t o) (addObject e l s t o) := by
  unfold addObject
  cases tokenByte t 0 with
  | error rv => exact Blind.same ..
  | ok on =>
    obtain ⟨h1, h2⟩ := sessAdd_blind (e := e) l s on o
    dsimp only
    generalize sessAddObject e l.blind s on o = a at h1 h2
    generalize sessAddObject e l s on o = b at h1 h2
    obtain ⟨a1, a2⟩ := a
    obtain ⟨b1, b2⟩ := b
    cases h2
    cases a2 <;> exact ⟨h1, rfl⟩

theorem addObject_eq {l m : Lib} (h : l.blind = m.blind) (s : Session) (t : List Entry) (o : Obj) :
    Blind (addObject e l s t o) (addObject e m s t o) :=
  (h ▸ (addObject_blind l s t o).symm : Blind _ (addObject e m.blind s t o)).trans (addObject_blind m s t o)

theorem addPair_blind (l : Lib) (s : Session) (tp tq : List Entry) (p q : Obj) :
    Blind (addPair e l.blind s tp tq p q) (addPair e l s tp tq p q) := by
  unfold addPair
  obtain ⟨h1, h2⟩ := addObject_blind (e := e) l s tp p
  generalize addObject e l.blind s tp p = a at h1 h2
  generalize addObject e l s tp p = b at h1 h2
  obtain ⟨a1, a2⟩ := a
  obtain ⟨b1, b2⟩ := b
  cases h2
  dsimp only at h1 ⊢
  split
  · exact ⟨h1, rfl⟩
  have hs : a1.sessions = b1.sessions := by
    have := congrArg Lib.sessions h1
    exact this
  rw [hs]
  cases b1.sessions.find? fun t => t.handle == s.handle with
  | none => exact ⟨h1, rfl⟩
  | some s1 =>
    dsimp only
    obtain ⟨i1, i2⟩ := addObject_eq (e := e) h1 s1 tq q
    generalize addObject e a1 s1 tq q = c at i1 i2
    generalize addObject e b1 s1 tq q = d at i1 i2
    obtain ⟨c1, c2⟩ := c
    obtain ⟨d1, d2⟩ := d
    cases i2
    dsimp only at i1 ⊢
    split
    · exact ⟨blind_map i1 (fun l => { l with bad := true }) fun l => (lib_blind_blind { l with bad := true }).symm, rfl⟩
    · exact ⟨i1, rfl⟩

theorem replObj_blind (o o' : Obj) (h : o'.blind = o.blind) (os : List Obj) :
    (replObj o' (os.map Obj.blind)).map Obj.blind = (replObj o os).map Obj.blind := by
  have hu : o'.uid = o.uid := by
    have := congrArg Obj.uid h
    exact this
  unfold replObj
  simp only [List.map_map]
  refine List.map_congr_left fun p _ => ?_
  have hp : p.blind.uid = p.uid := rfl
  simp only [Function.comp_apply, hp, hu]
  split
  · exact h
  · exact blind_blind p

theorem putObj_blind (l : Lib) (s : Session) (k : Nat) (o o' : Obj) (h : o'.blind = o.blind)
    (ho : handleOnToken k = false → o' = o) : (putObj l.blind s k o').blind = (putObj l s k o).blind := by
  unfold putObj
  split
  · have h := replObj_blind o o' h l.token.objs
    unfold Lib.blind
    dsimp only
    rw [h]
  · rename_i hk
    rw [ho (by simpa using hk)]
    exact upd_blind ..

theorem filter_blind (os : List Obj) (u : Nat) :
    ((os.map Obj.blind).filter fun p => p.uid != u) = (os.filter fun p => p.uid != u).map Obj.blind := by
  rw [List.filter_map]
  rfl

theorem removeToken_blind (l : Lib) (o : Obj) : (removeToken e l.blind o.blind).blind = (removeToken e l o).blind := by
  unfold removeToken
  refine (store_blind_eq ?_).1
  have h1 : o.blind.uid = o.uid := rfl
  have h := filter_blind l.token.objs o.uid
  have h3 := congrArg (fun m : Lib => m.token.objs)
    (lib_blind_blind { l with token := { l.token with objs := l.token.objs.filter fun p => p.uid != o.uid } })
  unfold Lib.blind at h3 ⊢
  dsimp only at h3 ⊢
  rw [h1, h, h3]

theorem pinSet_blind {l m : Lib × Bool} (h1 : l.1.blind = m.1.blind) (h2 : l.2 = m.2) : Blind (pinSet l) (pinSet m) := by
  unfold pinSet
  exact ⟨h1, by rw [h2]⟩

theorem setSoPin_blind (l : Lib) (pin : Bytes) : Blind (pinSet (setSoPin e l.blind pin)) (pinSet (setSoPin e l pin)) := by
  unfold setSoPin
  have h := store_blind (e := e) { l with rng := l.rng + 1, token := { l.token with so :=
    { l.token.so with pin := e.store.hash pin (e.store.rand l.rng 16), seed := e.store.rand l.rng 16 } } }
  exact pinSet_blind h.1 h.2

theorem setUserPin_blind (l : Lib) (pin : Bytes) :
    Blind (pinSet (setUserPin e l.blind pin)) (pinSet (setUserPin e l pin)) := by
  unfold setUserPin
  have h := store_blind (e := e) { l with rng := l.rng + 2, token := { l.token with
    user := { l.token.user with pin := e.store.hash pin (e.store.rand l.rng 16), seed := e.store.rand l.rng 16 }
    seed := e.store.rand (l.rng + 1) 16, key := e.store.hash pin (e.store.rand (l.rng + 1) 16) } }
  exact pinSet_blind h.1 h.2

theorem lockCheck_pin {a b : Account} {now : Int} (h : lockCheck a now = some b) : b.pin = a.pin ∧ b.seed = a.seed := by
  unfold lockCheck at h
  repeat' split at h
  all_goals first
    | (cases h; exact ⟨rfl, rfl⟩)
    | cases h

theorem soLogin_blind (l : Lib) (pin : Bytes) (now : Int) :
    (soLogin e l.blind pin now).1.blind = (soLogin e l pin now).1.blind ∧
    (soLogin e l.blind pin now).2 = (soLogin e l pin now).2 := by
  have hs := lib_blind_blind l
  unfold soLogin
  have h1 : l.blind.token.login = l.token.login := rfl
  have h2 : l.blind.token.so = l.token.so := rfl
  rw [h1, h2]
  split
  · exact ⟨hs, rfl⟩
  cases lockCheck l.token.so now with
  | none => exact ⟨hs, rfl⟩
  | some a =>
    dsimp only
    have h3 : l.blind.sessions = l.sessions := rfl
    have h4 : checkPin e { l.blind.token with so := a } a pin = checkPin e { l.token with so := a } a pin := rfl
    rw [h3, h4]
    split
    · exact ⟨lib_blind_blind { l with token := { l.token with so := a } }, rfl⟩
    cases checkPin e { l.token with so := a } a pin with
    | notSet => exact ⟨lib_blind_blind { l with token := { l.token with so := a } }, rfl⟩
    | invalid => exact ⟨lib_blind_blind { l with token := { l.token with so := failed a now 600 } }, rfl⟩
    | ok => exact ⟨lib_blind_blind { l with token := { l.token with so := succeeded a, login := .so } }, rfl⟩

theorem userLogin_blind (l : Lib) (pin : Bytes) (now : Int) (hn : ¬ Matches e l.token.user pin) :
    (userLogin e l.blind pin now).1.blind = (userLogin e l pin now).1.blind ∧
    (userLogin e l.blind pin now).2 = (userLogin e l pin now).2 := by
  have hs := lib_blind_blind l
  unfold userLogin
  have h1 : l.blind.token.login = l.token.login := rfl
  have h2 : l.blind.token.user = l.token.user := rfl
  rw [h1, h2]
  split
  · exact ⟨hs, rfl⟩
  cases hl : lockCheck l.token.user now with
  | none => exact ⟨hs, rfl⟩
  | some a =>
    dsimp only
    have h4 : checkPin e l.blind.token a pin = checkPin e l.token a pin := rfl
    rw [h4]
    cases hc : checkPin e l.token a pin with
    | notSet => exact ⟨lib_blind_blind { l with token := { l.token with user := a } }, rfl⟩
    | invalid => exact ⟨lib_blind_blind { l with token := { l.token with user := failed a now 60 } }, rfl⟩
    | ok =>
      refine absurd ?_ hn
      unfold checkPin at hc
      obtain ⟨hp, hq⟩ := lockCheck_pin hl
      rw [hp, hq] at hc
      unfold Matches
      split at hc
      · cases hc
      · rename_i hx
        split at hc
        · rename_i hy
          exact ⟨fun h => hx (.inr h), hy⟩
        · cases hc

theorem login_blind (l : Lib) (u : UserType) (pin : Option Bytes) (now : Int)
    (hn : u = .user → ∀ p, pin = some p → ¬ Matches e l.token.user p) :
    Blind (login e l.blind u pin now) (login e l u pin now) := by
  unfold login
  cases pin with
  | none => exact Blind.same ..
  | some pin =>
    dsimp only
    split
    · exact Blind.same ..
    cases u with
    | so => exact ⟨(soLogin_blind l pin now).1, by rw [(soLogin_blind l pin now).2]⟩
    | user =>
      have h := userLogin_blind l pin now (hn rfl _ rfl)
      exact ⟨h.1, by rw [h.2]⟩
    | contextSpecific => exact Blind.same ..
    | other => exact Blind.same ..

theorem initPin_blind (l : Lib) (s : Session) (pin : Option Bytes) : Blind (initPin e l.blind s pin) (initPin e l s pin) := by
  unfold initPin
  have h1 : sessState l.blind s = sessState l s := rfl
  cases pin with
  | none => exact Blind.same ..
  | some pin =>
    dsimp only
    rw [h1]
    repeat' split
    · exact Blind.same ..
    · exact Blind.same ..
    · exact setUserPin_blind ..

theorem setPin_blind (l : Lib) (s : Session) (old new : Option Bytes) :
    Blind (setPin e l.blind s old new) (setPin e l s old new) := by
  unfold setPin
  have h1 : sessState l.blind s = sessState l s := rfl
  cases old with
  | none => exact Blind.same ..
  | some old =>
    cases new with
    | none => exact Blind.same ..
    | some new =>
      dsimp only
      have h2 : checkPin e l.blind.token l.blind.token.so old = checkPin e l.token l.token.so old := rfl
      have h3 : checkPin e l.blind.token l.blind.token.user old = checkPin e l.token l.token.user old := rfl
      rw [h1, h2, h3]
      split
      · exact Blind.same ..
      split
      · exact Blind.same ..
      have hso : Blind (match checkPin e l.token l.token.so old with
          | .notSet => (l.blind, { rv := .userPinNotInitialized })
          | .invalid => (l.blind, { rv := .pinIncorrect })
          | .ok => pinSet (setSoPin e l.blind new)) (match checkPin e l.token l.token.so old with
          | .notSet => (l, { rv := .userPinNotInitialized })
          | .invalid => (l, { rv := .pinIncorrect })
          | .ok => pinSet (setSoPin e l new)) := by
        cases checkPin e l.token l.token.so old with
        | notSet => exact Blind.same ..
        | invalid => exact Blind.same ..
        | ok => exact setSoPin_blind ..
      have hus : Blind (match checkPin e l.token l.token.user old with
          | .notSet => (l.blind, { rv := .userPinNotInitialized })
          | .invalid => (l.blind, { rv := .pinIncorrect })
          | .ok => pinSet (setUserPin e l.blind new)) (match checkPin e l.token l.token.user old with
          | .notSet => (l, { rv := .userPinNotInitialized })
          | .invalid => (l, { rv := .pinIncorrect })
          | .ok => pinSet (setUserPin e l new)) := by
        cases checkPin e l.token l.token.user old with
        | notSet => exact Blind.same ..
        | invalid => exact Blind.same ..
        | ok => exact setUserPin_blind ..
      cases sessState l s
      · exact Blind.same ..
      · exact Blind.same ..
      · exact hus
      · exact hus
      · exact hso

theorem initToken_blind (l : Lib) (pin label : Option Bytes) :
    Blind (initToken e l.blind pin label) (initToken e l pin label) := by
  unfold initToken
  cases pin with
  | none => exact Blind.same ..
  | some pin =>
    cases label with
    | none => exact Blind.same ..
    | some label =>
      dsimp only
      have h1 : l.blind.token.init = l.token.init := rfl
      have h2 : l.blind.sessions = l.sessions := rfl
      have h3 : checkPin e l.blind.token l.blind.token.so pin = checkPin e l.token l.token.so pin := rfl
      rw [h1, h2, h3]
      split
      · exact Blind.same ..
      split
      · exact Blind.same ..
      split
      · exact Blind.same ..
      · exact setSoPin_blind { l with token := { label := labelOf label, init := true } } pin

theorem close_blind (l : Lib) (h : Nat) : Blind (closeSession e l.blind h) (closeSession e l h) := by
  unfold closeSession
  have h2 : l.blind.sessions = l.sessions := rfl
  simp only [h2]
  split
  · exact ⟨lib_blind_blind { l with sessions := closeOne l.sessions h }, rfl⟩
  · exact ⟨logout_blind { l with sessions := closeOne l.sessions h }, rfl⟩

theorem create_blind (l : Lib) (s : Session) (t : Option (List Entry)) (ptr : Bool) :
    Blind (cCreate e l.blind s t ptr) (cCreate e l s t ptr) := by
  unfold cCreate
  cases t with
  | none => exact Blind.same ..
  | some t =>
    dsimp only
    split
    · exact Blind.same ..
    split
    · exact Blind.same ..
    obtain ⟨rv, o⟩ := createObject e s t
    cases rv <;> first
      | exact addObject_blind ..
      | exact Blind.same ..

theorem copy_blind (l : Lib) (s : Session) (k : Nat) (t : Option (List Entry)) (ptr : Bool) :
    Blind (cCopy e l.blind s k t ptr) (cCopy e l s k t ptr) := by
  unfold cCopy
  cases t with
  | none => exact Blind.same ..
  | some t =>
    dsimp only
    split
    · exact Blind.same ..
    split
    · exact Blind.same ..
    rcases findObj_cases l s k with ⟨h1, h2⟩ | ⟨o, o', h1, h2, h3⟩
    · rw [h1, h2]; exact Blind.same ..
    rw [h1, h2]
    dsimp only
    have hg : getAttributeValue e.key o' t = getAttributeValue e.key o t := by
      rcases h3 with rfl | ⟨rfl, _⟩
      · exact getAttributeValue_blind ..
      · rfl
    have ht : o'.typ = o.typ := by rcases h3 with rfl | ⟨rfl, _⟩ <;> rfl
    rw [hg, ht]
    cases tokenByte t 0 with
    | error rv => exact Blind.same ..
    | ok on =>
      dsimp only
      split
      · exact Blind.same ..
      split
      · exact Blind.same ..
      generalize (setAttributeValue e.key true (newObj 0 o.typ) (getAttributeValue e.key o t).2).2 = n
      obtain ⟨h1, h2⟩ := sessAdd_blind (e := e) l s on n
      generalize sessAddObject e l.blind s on n = a at h1 h2
      generalize sessAddObject e l s on n = b at h1 h2
      obtain ⟨a1, a2⟩ := a
      obtain ⟨b1, b2⟩ := b
      cases h2
      cases a2 <;> exact ⟨h1, rfl⟩

theorem destroy_blind (l : Lib) (s : Session) (k : Nat) : Blind (cDestroy e l.blind s k) (cDestroy e l s k) := by
  unfold cDestroy
  split
  · exact Blind.same ..
  rcases findObj_cases l s k with ⟨h1, h2⟩ | ⟨o, o', h1, h2, h3⟩
  · rw [h1, h2]; exact Blind.same ..
  rw [h1, h2]
  dsimp only
  have hu : o'.uid = o.uid := by rcases h3 with rfl | ⟨rfl, _⟩ <;> rfl
  have ht : o'.onToken = o.onToken := by rcases h3 with rfl | ⟨rfl, _⟩ <;> rfl
  rw [ht]
  split
  · rename_i hk
    split
    · rcases h3 with rfl | ⟨rfl, hk'⟩
      · exact ⟨removeToken_blind l o, rfl⟩
      · rw [hk] at hk'; cases hk'
    · exact ⟨lib_blind_blind { l with bad := true }, rfl⟩
  · rw [hu]
    exact Blind.upd ..

theorem getAttr_blind (l : Lib) (s : Session) (k : Nat) (t : Option (List Entry)) :
    Blind (cGetAttr e l.blind s k t) (cGetAttr e l s k t) := by
  unfold cGetAttr
  cases t with
  | none => exact Blind.same ..
  | some t =>
    dsimp only
    rcases findObj_cases l s k with ⟨h1, h2⟩ | ⟨o, o', h1, h2, h3⟩
    · rw [h1, h2]; exact Blind.same ..
    rw [h1, h2]
    dsimp only
    have hg : getAttributeValue e.key o' t = getAttributeValue e.key o t := by
      rcases h3 with rfl | ⟨rfl, _⟩
      · exact getAttributeValue_blind ..
      · rfl
    rw [hg]
    exact Blind.same ..

theorem setAttr_blind (l : Lib) (s : Session) (k : Nat) (t : Option (List Entry)) :
    Blind (cSetAttr e l.blind s k t) (cSetAttr e l s k t) := by
  unfold cSetAttr
  cases t with
  | none => exact Blind.same ..
  | some t =>
    dsimp only
    split
    · exact Blind.same ..
    rcases findObj_cases l s k with ⟨h1, h2⟩ | ⟨o, o', h1, h2, h3⟩
    · rw [h1, h2]; exact Blind.same ..
    rw [h1, h2]
    dsimp only
    rcases h3 with rfl | ⟨rfl, hk⟩
    · cases hk : handleOnToken k with
      | true =>
        obtain ⟨h4, h5⟩ := setAttributeValue_blind e.key true o t
        rw [h4]
        refine ⟨putObj_blind l s k _ _ h5 fun h => ?_, rfl⟩
        rw [hk] at h; cases h
      | false =>
        have h4 := findObj_blind l s k
        rw [h1, h2, hk] at h4
        have h5 : o.blind = o := Option.some.inj h4
        rw [h5]
        exact ⟨putObj_blind l s k _ _ rfl fun _ => rfl, rfl⟩
    · exact ⟨putObj_blind l s k _ _ rfl fun _ => rfl, rfl⟩

theorem findLoop_append_blind (x : KeyExt) (lg : Login) (t : List Entry) (os ps : List Obj) (acc : List Nat) :
    findLoop x lg t (os ++ ps.map Obj.blind) acc = findLoop x lg t (os ++ ps) acc := by
  induction os generalizing acc with
  | nil => exact findLoop_blind ..
  | cons o os ih =>
    simp only [List.cons_append, findLoop, ih]

theorem findInit_blind (l : Lib) (s : Session) (t : Option (List Entry)) :
    Blind (cFindInit e l.blind s t) (cFindInit e l s t) := by
  unfold cFindInit
  cases t with
  | none => exact Blind.same ..
  | some t =>
    dsimp only
    split
    · exact Blind.same ..
    cases tokenByte t 1 with
    | error rv => exact Blind.upd ..
    | ok on =>
      have hc : findCycles l.blind.token.objs = findCycles l.token.objs := by
        unfold findCycles
        have : l.blind.token.objs.getLast? = l.token.objs.getLast?.map Obj.blind := List.getLast?_map ..
        rw [this]
        cases l.token.objs.getLast? <;> rfl
      have hf : findLoop e.key l.blind.token.login t (s.objs ++ if on ≠ 0 then l.blind.token.objs else []) [] =
          findLoop e.key l.token.login t (s.objs ++ if on ≠ 0 then l.token.objs else []) [] := by
        by_cases h : on ≠ 0
        · simp only [if_pos h]
          exact findLoop_append_blind ..
        · simp only [if_neg h]
          rfl
      dsimp only
      rw [hc, hf]
      split
      · exact Blind.upd ..
      cases findLoop e.key l.token.login t (s.objs ++ if on ≠ 0 then l.token.objs else []) [] with
      | none => exact Blind.upd ..
      | some f => exact Blind.upd ..

theorem cryptInit_blind (l : Lib) (s : Session) (k : Kind) (m : Option (Mech × MechParam)) (key : Nat) :
    Blind (cCryptInit e l.blind s k m key) (cCryptInit e l s k m key) := by
  unfold cCryptInit
  cases m with
  | none => exact Blind.same ..
  | some m =>
    obtain ⟨m, p⟩ := m
    dsimp only
    rcases findObj_cases l s key with ⟨h1, h2⟩ | ⟨o, o', h1, h2, h3⟩
    · rw [h1, h2]; exact Blind.same ..
    rw [h1, h2]
    dsimp only
    have hi : initCall e.crypto k s.op o' m p = initCall e.crypto k s.op o m p := by
      rcases h3 with rfl | ⟨rfl, _⟩
      · exact init_blind ..
      · rfl
    have hc : o'.cls = o.cls := by rcases h3 with rfl | ⟨rfl, _⟩ <;> rfl
    have hu : o'.uid = o.uid := by rcases h3 with rfl | ⟨rfl, _⟩ <;> rfl
    rw [hi, hc, hu]
    split
    · exact Blind.same ..
    · exact Blind.upd ..

theorem crypt_blind (l : Lib) (s : Session) (c : DataCall) : Blind (cCrypt e l.blind s c) (cCrypt e l s c) := by
  unfold cCrypt
  rcases currKey_blind l s with h | ⟨o, h1, h2⟩
  · rw [h]
    cases currKey l s with
    | null => exact Blind.upd ..
    | obj o => exact Blind.upd ..
    | freed =>
      dsimp only
      split <;> exact Blind.same ..
  · rw [h1, h2]
    dsimp only
    rw [data_blind]
    exact Blind.upd ..

theorem genKey_blind (l : Lib) (s : Session) (m : Option (Mech × MechParam)) (t : Option (List Entry)) (ptr : Bool) :
    Blind (cGenKey e l.blind s m t ptr) (cGenKey e l s m t ptr) := by
  unfold cGenKey
  split
  · split
    · exact Blind.same ..
    split
    · exact Blind.same ..
    split
    · exact Blind.same ..
    rename_i t _ _ _
    obtain ⟨rv, o⟩ := newObject e s CKK_AES CKO_SECRET_KEY t
    cases rv <;> first
      | exact addObject_blind { l with rng := l.rng + 1 } ..
      | exact Blind.same ..
  · exact Blind.same ..

theorem genPair_blind (l : Lib) (s : Session) (m : Option (Mech × MechParam)) (tp tq : Option (List Entry)) (ptr : Bool) :
    Blind (cGenPair e l.blind s m tp tq ptr) (cGenPair e l s m tp tq ptr) := by
  unfold cGenPair
  split
  · rename_i m p tp tq
    split
    · exact Blind.same ..
    have hr : l.blind.rng = l.rng := rfl
    rw [hr]
    cases pairGen e l.rng m with
    | none => exact Blind.same ..
    | some g =>
      obtain ⟨typ, gen⟩ := g
      dsimp only
      split
      · exact Blind.same ..
      obtain ⟨rv, pub⟩ := newObject e s typ CKO_PUBLIC_KEY tp
      cases rv <;> try exact Blind.same ..
      obtain ⟨rv, priv⟩ := newObject e s typ CKO_PRIVATE_KEY tq
      cases rv <;> try exact Blind.same ..
      dsimp only
      obtain ⟨rv, p1, q1⟩ := gen pub priv
      cases rv <;> first
        | exact addPair_blind { l with rng := l.rng + 1 } ..
        | exact Blind.same ..
        | exact Blind.same { l with rng := l.rng + 1 } _
  · exact Blind.same ..

theorem wrap_blind (l : Lib) (s : Session) (m : Option (Mech × MechParam)) (wk key : Nat) (ob : OutBuf) :
    Blind (cWrap e l.blind s m wk key ob) (cWrap e l s m wk key ob) := by
  unfold cWrap
  cases m with
  | none => exact Blind.same ..
  | some m =>
    obtain ⟨m, p⟩ := m
    dsimp only
    split
    · exact Blind.same ..
    split
    · exact Blind.same ..
    rcases findObj_cases l s key with ⟨h1, h2⟩ | ⟨o, o', h1, h2, h3⟩
    · rw [h1, h2]; exact Blind.same ..
    rw [h1, h2]
    dsimp only
    rcases findObj_cases l s wk with ⟨i1, i2⟩ | ⟨w, w', i1, i2, i3⟩
    · rw [i1, i2]; exact Blind.same ..
    rw [i1, i2]
    dsimp only
    have e1 : o'.cls = o.cls := by rcases h3 with rfl | ⟨rfl, _⟩ <;> rfl
    have e2 : o'.typ = o.typ := by rcases h3 with rfl | ⟨rfl, _⟩ <;> rfl
    have e3 : o'.rsa = o.rsa := by rcases h3 with rfl | ⟨rfl, _⟩ <;> rfl
    have e4 : w'.typ = w.typ := by rcases i3 with rfl | ⟨rfl, _⟩ <;> rfl
    have e5 : w'.uid = w.uid := by rcases i3 with rfl | ⟨rfl, _⟩ <;> rfl
    have e6 : encryptInit s.op w' m p = encryptInit s.op w m p := by rcases i3 with rfl | ⟨rfl, _⟩ <;> rfl
    have e7 : ∀ op d, encrypt e.crypto op (some w') d ob 0 = encrypt e.crypto op (some w) d ob 0 := by
      intro op d; rcases i3 with rfl | ⟨rfl, _⟩ <;> rfl
    rw [e1, e2, e3, e4, e5, e6]
    split
    · exact Blind.same ..
    cases e.pkcs8 o.rsa with
    | none => exact Blind.same ..
    | some der =>
      dsimp only
      rw [e7]
      repeat' split
      · exact Blind.same ..
      · exact Blind.same ..
      · exact Blind.upd ..
      · exact Blind.upd ..

theorem addRsaPrivate_blind (l : Lib) (s : Session) (t : List Entry) (der : Bytes) :
    Blind (addRsaPrivate e l.blind s t der) (addRsaPrivate e l s t der) := by
  unfold addRsaPrivate
  obtain ⟨rv, o⟩ := newObject e s CKK_RSA CKO_PRIVATE_KEY t
  cases rv <;> try exact Blind.same ..
  dsimp only
  cases e.parsePriv der with
  | none => exact Blind.same ..
  | some k =>
    have h := addObject_blind (e := e) l s t { o with data := .rsa k }
    exact ⟨h.1, by dsimp only; rw [h.2]⟩

theorem addRsaPrivate_eq {l m : Lib} (h : l.blind = m.blind) (s : Session) (t : List Entry) (d : Bytes) :
    Blind (addRsaPrivate e l s t d) (addRsaPrivate e m s t d) :=
  (h ▸ (addRsaPrivate_blind l s t d).symm : Blind _ (addRsaPrivate e m.blind s t d)).trans (addRsaPrivate_blind m s t d)

theorem unwrap_blind (l : Lib) (s : Session) (m : Option (Mech × MechParam)) (wk : Nat) (data : Option Bytes)
    (t : Option (List Entry)) (ptr : Bool) :
    Blind (cUnwrap e l.blind s m wk data t ptr) (cUnwrap e l s m wk data t ptr) := by
  unfold cUnwrap
  split
  · exact Blind.same ..
  split
  · rename_i m p d t
    split
    · exact Blind.same ..
    rcases findObj_cases l s wk with ⟨i1, i2⟩ | ⟨w, w', i1, i2, i3⟩
    · rw [i1, i2]; exact Blind.same ..
    rw [i1, i2]
    dsimp only
    have e4 : w'.typ = w.typ := by rcases i3 with rfl | ⟨rfl, _⟩ <;> rfl
    have e5 : w'.uid = w.uid := by rcases i3 with rfl | ⟨rfl, _⟩ <;> rfl
    have e6 : decryptInit s.op w' m p = decryptInit s.op w m p := by rcases i3 with rfl | ⟨rfl, _⟩ <;> rfl
    have e7 : ∀ op d, decrypt e.crypto op (some w') d (.buf 0) 0 = decrypt e.crypto op (some w) d (.buf 0) 0 := by
      intro op d; rcases i3 with rfl | ⟨rfl, _⟩ <;> rfl
    rw [e4, e5, e6, e7]
    split
    · exact Blind.same ..
    split
    · exact Blind.same ..
    split
    · exact Blind.same ..
    split
    · exact Blind.upd ..
    split
    · exact Blind.upd ..
    · exact addRsaPrivate_eq (upd_blind ..) ..
  · exact Blind.same ..

theorem derive_blind (l : Lib) (s : Session) (m : Option DeriveMech) (base : Nat) (t : Option (List Entry)) (ptr : Bool) :
    Blind (cDerive e l.blind s m base t ptr) (cDerive e l s m base t ptr) := by
  unfold cDerive
  split
  · rename_i m t
    split
    · exact Blind.same ..
    rcases findObj_cases l s base with ⟨i1, i2⟩ | ⟨w, w', i1, i2, i3⟩
    · rw [i1, i2]; exact Blind.same ..
    rw [i1, i2]
    dsimp only
    have hd : deriveSecret e w' m = deriveSecret e w m := by rcases i3 with rfl | ⟨rfl, _⟩ <;> rfl
    rw [hd]
    cases deriveSecret e w m with
    | error rv => exact Blind.same ..
    | ok sec =>
      dsimp only
      obtain ⟨rv, o⟩ := createObject e s t
      cases rv <;> try exact Blind.same ..
      dsimp only
      cases (deriveTail e.key o sec).obj with
      | none => exact Blind.same ..
      | some o => exact addObject_blind ..
  · exact Blind.same ..

theorem sessCall_blind (l : Lib) (s : Session) (c : SessCall)
    (hn : ∀ pin now, c = .login .user (some pin) now → ¬ Matches e l.token.user pin) :
    Blind (sessCall e l.blind s c) (sessCall e l s c) := by
  cases c with
  | close => exact close_blind ..
  | info ptr => dsimp only [sessCall]; split <;> exact Blind.same ..
  | login u pin now =>
    refine login_blind l u pin now ?_
    rintro rfl p rfl
    exact hn p now rfl
  | logout => exact ⟨logout_blind l, rfl⟩
  | initPin pin => exact initPin_blind ..
  | setPin old new => exact setPin_blind ..
  | create t ptr => exact create_blind ..
  | copy o t ptr => exact copy_blind ..
  | destroy o => exact destroy_blind ..
  | size o ptr =>
    dsimp only [sessCall]
    split
    · exact Blind.same ..
    rw [findObj_blind, Option.isSome_map]
    exact Blind.same ..
  | getAttr o t => exact getAttr_blind ..
  | setAttr o t => exact setAttr_blind ..
  | findInit t => exact findInit_blind ..
  | findNext ptr max => dsimp only [sessCall, cFindNext]; split <;> first | exact Blind.same .. | exact Blind.upd ..
  | findFinal => exact Blind.upd ..
  | cryptInit k m key => exact cryptInit_blind ..
  | crypt c => exact crypt_blind ..
  | genKey m t ptr => exact genKey_blind ..
  | genPair m tp tq ptrs => exact genPair_blind ..
  | wrap m wk key ob => exact wrap_blind ..
  | unwrap m wk d t ptr => exact unwrap_blind ..
  | derive m base t ptr => exact derive_blind ..
  | random ptr len =>
    dsimp only [sessCall, cRandom]
    split
    · exact Blind.same ..
    split
    · exact Blind.same ..
    · exact Blind.same { l with rng := l.rng + 1 } _

theorem open_blind (l : Lib) (rw' : Bool) : Blind (openSession l.blind rw') (openSession l rw') := by
  unfold openSession
  have h1 : l.blind.token.login = l.token.login := rfl
  have h2 : l.blind.sessions = l.sessions := rfl
  dsimp only
  rw [h1, h2]
  split
  · exact Blind.same ..
  cases l.sessions.find? fun s => s.use == .no with
  | some s => exact Blind.upd ..
  | none =>
    dsimp only
    split
    · exact Blind.same ..
    cases addSession l.sessions with
    | nil => exact Blind.same ..
    | cons s ss =>
      exact Blind.same { l with sessions := { s with use := if rw' then Use.rw else Use.ro } :: ss } _

theorem slotCall_blind (l : Lib) (c : SlotCall) : Blind (slotCall e l.blind c) (slotCall e l c) := by
  cases c with
  | tokenInfo ptr now => dsimp only [slotCall]; split <;> exact Blind.same ..
  | initToken pin label => exact initToken_blind ..
  | openSession rw' serial ptr =>
    dsimp only [slotCall]
    split
    · exact Blind.same ..
    split
    · exact Blind.same ..
    · exact open_blind ..
  | closeAll => exact Blind.same { l with sessions := closeAll l.sessions } _

theorem step_blind (l : Lib) (hc : 0 < l.count) (c : Call) (hf : c ≠ .cFinal)
    (hn : ∀ h pin now, c = loginCall h .user pin now → ¬ Matches e l.token.user pin) :
    Blind (step e l.blind c) (step e l c) := by
  unfold step
  have h1 : l.blind.bad = l.bad := rfl
  rw [h1]
  split
  · exact Blind.same ..
  have hb : Blind (callBody e l.blind c) (callBody e l c) := by
    unfold callBody
    have h2 : l.blind.count = l.count := rfl
    cases c with
    | cInit =>
      unfold cInitialize
      dsimp only
      rw [h2]
      have h0 : l.count ≠ 0 := by omega
      simp only [if_neg h0]
      exact Blind.same { l with count := l.count + 1 } _
    | cFinal => exact absurd rfl hf
    | slot id c =>
      dsimp only
      rw [h2]
      split
      · exact Blind.same ..
      split
      · exact Blind.same ..
      · exact slotCall_blind ..
    | sess h c =>
      dsimp only
      rw [h2, getSession_blind]
      split
      · exact Blind.same ..
      cases getSession l h with
      | none => exact Blind.same ..
      | some s =>
        refine sessCall_blind l s c ?_
        rintro pin now rfl
        exact hn h pin now rfl
  dsimp only
  rw [hb.2]
  split
  · exact ⟨blind_map hb.1 (fun l => { l with bad := true }) fun l => (lib_blind_blind { l with bad := true }).symm, rfl⟩
  · exact ⟨hb.1, hb.2⟩

theorem step_blind_eq {l m : Lib} (h : l.blind = m.blind) (hc : 0 < l.count) (c : Call) (hf : c ≠ .cFinal)
    (hn : ∀ h pin now, c = loginCall h .user pin now → ¬ Matches e l.token.user pin) :
    Blind (step e l c) (step e m c) := by
  have h1 : m.count = l.count := (congrArg Lib.count h).symm
  have h2 : m.token.user = l.token.user := by
    have := congrArg (fun l : Lib => l.token.user) h
    exact this.symm
  have h3 := step_blind l hc c hf hn
  rw [h] at h3
  exact h3.symm.trans (step_blind m (h1 ▸ hc) c hf (h2 ▸ hn))

end Verif
