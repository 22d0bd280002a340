import Verif.Proofs.Run
import Verif.Proofs.AttrSet
import Verif.Spec.Objs

/-!
# What the calls do to the populations of objects

Every call on a session is a sequence of few kinds of changes: nothing but values of
objects, storing the token, adding or removing an object.
-/

namespace Verif

/-- What identifies an object. -/
def Obj.key (o : Obj) : Nat × Nat × Bool := (o.handle, o.uid, o.onToken)

/-- What identifies a session and its objects. -/
def Session.key (s : Session) : Nat × Use × List (Nat × Nat × Bool) := (s.handle, s.use, s.objs.map Obj.key)

/-- All IVs have 12 bytes. -/
def Ivs (os : List Obj) : Prop := ∀ o ∈ os, o.iv.length = 12

/-- The populations and the directory are the same. -/
structure Quiet (l l' : Lib) : Prop where
  tok : l'.token.objs.map Obj.key = l.token.objs.map Obj.key
  sess : l'.sessions.map Session.key = l.sessions.map Session.key
  disk : l'.disk = l.disk
  count : l'.count = l.count
  uid : l'.uid = l.uid
  ivs : Ivs l.token.objs → Ivs l'.token.objs

theorem Quiet.refl (l : Lib) : Quiet l l := ⟨rfl, rfl, rfl, rfl, rfl, id⟩

/-- Sequences of changes; `ok` is what is known of the bytes of `CKA_TOKEN`, the number is
that of objects added. -/
inductive Eff (e : Env) (ok : Nat → Prop) : Nat → Lib → Lib → Prop
  | quiet {l l' : Lib} : Quiet l l' → Eff e ok 0 l l'
  | store (l : Lib) : Eff e ok 0 l (Lib.store e l).1
  | addTok {l : Lib} {o : Obj} (on : Nat) : ok on → on ≠ 0 → l.token.objs.length < 64 →
      o.handle = nextHandle l.token.objs on → o.uid = l.uid → o.onToken = decide (on % 2 = 1) →
      o.iv.length = 12 →
      Eff e ok 1 l (Lib.store e
        { l with uid := l.uid + 1, token := { l.token with objs := o :: l.token.objs } }).1
  | addSess {l : Lib} {s : Session} {o : Obj} : s ∈ l.sessions → s.objs.length < 8 →
      o.handle = nextHandle s.objs 0 → o.uid = l.uid → o.onToken = false →
      Eff e ok 1 l ({ l with uid := l.uid + 1 }.upd s.handle fun t => { t with objs := o :: t.objs })
  | delTok {l : Lib} {o : Obj} : o ∈ l.token.objs → o.onToken = true → Eff e ok 0 l (removeToken e l o)
  | delSess {l : Lib} {s : Session} (u : Nat) : s ∈ l.sessions →
      Eff e ok 0 l (l.upd s.handle fun t => { t with objs := t.objs.filter fun p => p.uid != u })
  | trans {n m : Nat} {a b c : Lib} : Eff e ok n a b → Eff e ok m b c → Eff e ok (n + m) a c

variable {e : Env} {ok : Nat → Prop}

theorem Eff.refl (l : Lib) : Eff e ok 0 l l := .quiet (.refl l)

/-- At most two objects added. -/
def Eff2 (e : Env) (ok : Nat → Prop) (k : Nat) (l l' : Lib) : Prop := ∃ n, n ≤ k ∧ Eff e ok n l l'

theorem Eff2.of {n k : Nat} {l l' : Lib} (h : Eff e ok n l l') (hn : n ≤ k := by omega) : Eff2 e ok k l l' := ⟨n, hn, h⟩

theorem Eff2.refl (k : Nat) (l : Lib) : Eff2 e ok k l l := .of (.refl l)

theorem Eff2.mono {k m : Nat} {l l' : Lib} (h : Eff2 e ok k l l') (hk : k ≤ m := by omega) : Eff2 e ok m l l' := by
  obtain ⟨n, hn, h⟩ := h
  exact ⟨n, by omega, h⟩

theorem Eff2.trans {j k : Nat} {a b c : Lib} (h1 : Eff2 e ok j a b) (h2 : Eff2 e ok k b c) :
    Eff2 e ok (j + k) a c := by
  obtain ⟨n, hn, h1⟩ := h1
  obtain ⟨m, hm, h2⟩ := h2
  exact ⟨n + m, by omega, h1.trans h2⟩

theorem Eff2.after {k : Nat} {a b c : Lib} (h2 : Eff2 e ok k b c) (h1 : Quiet a b) : Eff2 e ok k a c := by
  have := Eff2.trans (.of (k := 0) (.quiet (e := e) (ok := ok) h1)) h2
  exact this.mono

theorem quiet_upd (l : Lib) (h : Nat) (f : Session → Session) (hf : ∀ t, (f t).key = t.key) :
    Quiet l (l.upd h f) := by
  refine ⟨rfl, ?_, rfl, rfl, rfl, id⟩
  simp only [Lib.upd, List.map_map]
  refine List.map_congr_left fun t _ => ?_
  simp only [Function.comp_apply]
  split
  · exact hf t
  · rfl

/-- Closes goals where populations and directory are the same. -/
macro "quiet" : tactic => `(tactic| first
  | exact Eff2.refl _ _
  | exact Eff2.of (Eff.quiet ⟨rfl, rfl, rfl, rfl, rfl, id⟩)
  | exact Eff2.of (Eff.quiet (quiet_upd _ _ _ (fun _ => rfl))))

/-! ## Encoding, decoding -/

theorem encodeObj_key (x : StoreExt) (k : Bytes) (p : Bool) (o : Obj) :
    (encodeObj x k p o).2.key = o.key ∧ (encodeObj x k p o).2.iv = o.iv := by
  have h1 : (encodeKey x k o).2.key = o.key ∧ (encodeKey x k o).2.iv = o.iv := by
    unfold encodeKey
    repeat' split
    all_goals exact ⟨rfl, rfl⟩
  have h2 : ∀ o : Obj, (cleared o).key = o.key ∧ (cleared o).iv = o.iv := by
    intro o
    unfold cleared
    repeat' split
    all_goals exact ⟨rfl, rfl⟩
  unfold encodeObj
  dsimp only
  repeat' split
  · exact ⟨rfl, rfl⟩
  · exact ⟨(h2 _).1.trans h1.1, (h2 _).2.trans h1.2⟩
  · exact h1

theorem decodeKey_key (x : StoreExt) (k : Bytes) (o : Obj) :
    (decodeKey x k o).2.key = o.key ∧ (decodeKey x k o).2.iv = o.iv := by
  unfold decodeKey decodeRsa decodeEcc decodeDh decodeSymm decoded
  repeat' split
  all_goals exact ⟨rfl, rfl⟩

theorem decodeObj_key (x : StoreExt) (k : Bytes) (o : Obj) :
    (decodeObj x k o).2.key = o.key ∧ (decodeObj x k o).2.iv = o.iv := decodeKey_key x k o

/-- Lists of objects that differ in values only. -/
def SameObjs (os os' : List Obj) : Prop := os'.map Obj.key = os.map Obj.key ∧ (Ivs os → Ivs os')

theorem SameObjs.refl (os : List Obj) : SameObjs os os := ⟨rfl, id⟩

theorem SameObjs.cons {o o' : Obj} {os os' : List Obj} (hk : o'.key = o.key)
    (hi : o.iv.length = 12 → o'.iv.length = 12) (h : SameObjs os os') : SameObjs (o :: os) (o' :: os') := by
  refine ⟨by simp [hk, h.1], fun hx p hp => ?_⟩
  rcases List.mem_cons.mp hp with rfl | hp
  · exact hi (hx _ List.mem_cons_self)
  · exact h.2 (fun q hq => hx q (List.mem_cons_of_mem _ hq)) p hp

theorem sameObjs_decodeAll (x : StoreExt) (k : Bytes) (os : List Obj) : SameObjs os (decodeAll x k os).2 := by
  induction os with
  | nil => exact .refl _
  | cons o os ih =>
    have hd := decodeObj_key x k o
    simp only [decodeAll]
    split
    · exact .cons hd.1 (by rw [hd.2]; exact id) ih
    · exact .cons hd.1 (by rw [hd.2]; exact id) (.refl _)

theorem sameObjs_encodeAll (x : StoreExt) (k : Bytes) (os : List Obj) : SameObjs os (encodeAll x k os) := by
  induction os with
  | nil => exact .refl _
  | cons o os ih =>
    have hd := encodeObj_key x k true o
    simp only [encodeAll]
    split
    · exact .cons hd.1 (by rw [hd.2]; exact id) ih
    · exact .cons hd.1 (by rw [hd.2]; exact id) (.refl _)

theorem Quiet.objs {l : Lib} {os : List Obj} (h : SameObjs l.token.objs os) (f : Token → Token)
    (hf : ∀ t, (f t).objs = t.objs) : Quiet l { l with token := f { l.token with objs := os } } :=
  ⟨by simp only [hf]; exact h.1, rfl, rfl, rfl, rfl, by simp only [hf]; exact h.2⟩

theorem eff_logout (l : Lib) : Eff2 e ok 0 l (logout e l) := by
  unfold logout
  dsimp only
  split
  · exact .of (.quiet ⟨(sameObjs_encodeAll ..).1, rfl, rfl, rfl, rfl, (sameObjs_encodeAll ..).2⟩)
  · quiet

theorem eff_login (l : Lib) (u : UserType) (pin : Option Bytes) (now : Int) :
    Eff2 e ok 0 l (login e l u pin now).1 := by
  unfold login
  repeat' split
  all_goals try quiet
  · unfold soLogin; dsimp only
    repeat' split
    all_goals quiet
  · unfold userLogin; dsimp only
    repeat' split
    all_goals try quiet
    all_goals exact .of (.quiet ⟨(sameObjs_decodeAll ..).1, rfl, rfl, rfl, rfl, (sameObjs_decodeAll ..).2⟩)

theorem eff_setSoPin (l : Lib) (p : Bytes) : Eff2 e ok 0 l (setSoPin e l p).1 :=
  Eff2.after (.of (.store _)) ⟨rfl, rfl, rfl, rfl, rfl, id⟩

theorem eff_setUserPin (l : Lib) (p : Bytes) : Eff2 e ok 0 l (setUserPin e l p).1 :=
  Eff2.after (.of (.store _)) ⟨rfl, rfl, rfl, rfl, rfl, id⟩

theorem eff_initPin (l : Lib) (s : Session) (p : Option Bytes) : Eff2 e ok 0 l (initPin e l s p).1 := by
  unfold initPin pinSet
  repeat' split
  all_goals first | quiet | exact eff_setUserPin ..

theorem eff_setPin (l : Lib) (s : Session) (o n : Option Bytes) : Eff2 e ok 0 l (setPin e l s o n).1 := by
  unfold setPin pinSet
  repeat' split
  all_goals first | quiet | exact eff_setUserPin .. | exact eff_setSoPin ..

/-! ## Adding and removing objects -/

/-- The session record the call works with is the one in the library, as far as its
objects go. -/
def Here (l : Lib) (s : Session) : Prop := ∃ t ∈ l.sessions, t.handle = s.handle ∧ t.objs = s.objs

theorem Here.of_mem {l : Lib} {s : Session} (h : s ∈ l.sessions) : Here l s := ⟨s, h, rfl, rfl⟩

theorem Here.upd {l : Lib} {s : Session} (h : Here l s) (k : Nat) (f : Session → Session)
    (hf : ∀ t, (f t).handle = t.handle ∧ (f t).objs = t.objs) : Here (l.upd k f) s := by
  obtain ⟨t, ht, h1, h2⟩ := h
  refine ⟨if t.handle = k then f t else t, List.mem_map.mpr ⟨t, ht, rfl⟩, ?_, ?_⟩
  · split
    · exact (hf t).1.trans h1
    · exact h1
  · split
    · exact (hf t).2.trans h2
    · exact h2

theorem eff_sessAddObject {l : Lib} {s : Session} (hs : Here l s) (on : Nat) (o : Obj) (hok : ok on)
    (hiv : o.iv.length = 12) : Eff2 e ok 1 l (sessAddObject e l s on o).1 := by
  unfold sessAddObject
  dsimp only
  split
  · rename_i hon
    split
    · quiet
    rename_i hlt
    have hk := encodeObj_key e.store l.token.key false { o with onToken := decide (on % 2 = 1), uid := l.uid }
    split
    · refine .of (.addTok on hok hon (by simp only [tokenObjMax] at hlt; omega) rfl ?_ ?_ ?_)
      · exact congrArg (·.2.1) hk.1
      · exact congrArg (·.2.2) hk.1
      · show (encodeObj _ _ _ _).2.iv.length = 12
        rw [hk.2]; exact hiv
    · quiet
  · rename_i hon
    have hon : on = 0 := by simpa using hon
    subst hon
    split
    · quiet
    rename_i hlt
    obtain ⟨t, ht, h1, h2⟩ := hs
    rw [← h1, ← h2]
    rw [← h2] at hlt
    exact .of (.addSess ht (by simp only [sessObjMax] at hlt; omega) rfl rfl rfl)

theorem eff_add_eq {l l' : Lib} {s : Session} (hs : Here l s) {on : Nat} {o : Obj} {r : Option Nat} (hok : ok on)
    (hiv : o.iv.length = 12) (h : sessAddObject e l s on o = (l', r)) : Eff2 e ok 1 l l' := by
  have := eff_sessAddObject (e := e) hs on o hok hiv
  rwa [h] at this

/-- What is known of the bytes of `CKA_TOKEN` of a template. -/
def TokOk (ok : Nat → Prop) (t : List Entry) : Prop := ∀ on, tokenByte t 0 = .ok on → ok on

theorem eff_addObject {l : Lib} {s : Session} (hs : Here l s) (t : List Entry) (o : Obj) (ht : TokOk ok t)
    (hiv : o.iv.length = 12) : Eff2 e ok 1 l (addObject e l s t o).1 := by
  unfold addObject
  split
  · quiet
  · rename_i on hon
    split <;> rename_i heq <;> exact eff_add_eq hs (ht on hon) hiv heq

/-- The identity of an object and its IV are not attributes. -/
theorem setAttributeValue_key (x : KeyExt) (rw' : Bool) (o : Obj) (t : List Entry) :
    (setAttributeValue x rw' o t).2.key = o.key ∧ (setAttributeValue x rw' o t).2.iv = o.iv := by
  refine setAttributeValue_inv (P := fun p => p.key = o.key ∧ p.iv = o.iv) x rw' o t ?_ ?_ ⟨rfl, rfl⟩
  · intro p v hp
    obtain ⟨d, s, h⟩ := setKey_frame x p v
    rw [h]; exact hp
  · intro p en _ hp
    have h := setAttr_rest p en
    refine ⟨?_, h.iv.trans hp.2⟩
    rw [← hp.1]
    simp only [Obj.key, h.handle, h.uid, h.onToken]

theorem newObject_iv (s : Session) (typ cls : Nat) (t : List Entry) : (newObject e s typ cls t).2.iv.length = 12 := by
  unfold newObject
  rw [(setAttributeValue_key ..).2]; rfl

theorem newObject_iv' {s : Session} {typ cls : Nat} {t : List Entry} {rv : RV} {o : Obj}
    (h : newObject e s typ cls t = (rv, o)) : o.iv.length = 12 := by
  have := newObject_iv (e := e) s typ cls t
  rwa [h] at this

theorem createObject_iv {s : Session} {t : List Entry} {rv : RV} {o : Obj} (h : createObject e s t = (rv, o)) :
    o.iv.length = 12 := by
  unfold createObject at h
  repeat' split at h
  all_goals first
    | exact newObject_iv' h
    | (obtain ⟨_, rfl⟩ := Prod.mk.inj h; rfl)

theorem eff_cCreate {l : Lib} {s : Session} (hs : Here l s) (t : Option (List Entry)) (p : Bool)
    (ht : ∀ q, t = some q → TokOk ok q) : Eff2 e ok 1 l (cCreate e l s t p).1 := by
  unfold cCreate
  split
  · quiet
  repeat' split
  all_goals try quiet
  rename_i heq
  exact eff_addObject hs _ _ (ht _ rfl) (createObject_iv heq)

theorem eff_cCopy {l : Lib} {s : Session} (hs : Here l s) (h : Nat) (t : Option (List Entry)) (p : Bool)
    (ht : ∀ q, t = some q → TokOk ok q) : Eff2 e ok 1 l (cCopy e l s h t p).1 := by
  unfold cCopy
  split
  · quiet
  dsimp only
  split; · quiet
  split; · quiet
  split; · quiet
  split; · quiet
  rename_i on hon
  split; · quiet
  split; · quiet
  have hiv : ∀ x : List Entry, (setAttributeValue e.key true (newObj 0 ‹Obj›.typ) x).2.iv.length = 12 := by
    intro x; rw [(setAttributeValue_key ..).2]; rfl
  split <;> rename_i heq <;> exact eff_add_eq hs (ht _ rfl on hon) (hiv _) heq

theorem findObj_mem {l : Lib} {s : Session} {h : Nat} {o : Obj} (hf : findObj l s h = some o) :
    o.handle = h ∧ (handleOnToken h = true → o ∈ l.token.objs) ∧ (handleOnToken h = false → o ∈ s.objs) := by
  unfold findObj at hf
  have h1 := List.find?_some hf
  have h2 := List.mem_of_find?_eq_some hf
  refine ⟨by simpa using h1, fun hh => ?_, fun hh => ?_⟩
  · rw [if_pos hh] at h2; exact h2
  · rw [if_neg (by rw [hh]; simp)] at h2; exact h2

theorem eff_cDestroy {l : Lib} {s : Session} (hs : Here l s) (h : Nat) : Eff2 e ok 0 l (cDestroy e l s h).1 := by
  unfold cDestroy
  split; · quiet
  split; · quiet
  rename_i o hf
  split
  · rename_i hh
    split
    · rename_i ht
      exact .of (.delTok ((findObj_mem hf).2.1 hh) ht)
    · quiet
  · obtain ⟨t, ht, h1, h2⟩ := hs
    rw [← h1]
    exact .of (.delSess _ ht)

theorem replObj_same (o : Obj) (os : List Obj) (h : ∀ p ∈ os, p.uid = o.uid → p.key = o.key ∧
    (p.iv.length = 12 → o.iv.length = 12)) : SameObjs os (replObj o os) := by
  induction os with
  | nil => exact .refl _
  | cons p os ih =>
    have ih := ih (fun q hq => h q (List.mem_cons_of_mem _ hq))
    have hp := h p List.mem_cons_self
    simp only [replObj, List.map_cons]
    by_cases hu : p.uid = o.uid
    · rw [if_pos hu]; exact .cons (hp hu).1.symm (hp hu).2 ih
    · rw [if_neg hu]; exact .cons rfl id ih

/-- The objects of every list have different identities. -/
def UidOk (l : Lib) : Prop :=
  (l.token.objs.map (·.uid)).Nodup ∧ ∀ s ∈ l.sessions, (s.objs.map (·.uid)).Nodup

theorem uid_inj {os : List Obj} (h : (os.map (·.uid)).Nodup) {p q : Obj} (hp : p ∈ os) (hq : q ∈ os)
    (hu : p.uid = q.uid) : p = q := by
  induction os with
  | nil => cases hp
  | cons o os ih =>
    simp only [List.map_cons, List.nodup_cons] at h
    rcases List.mem_cons.mp hp with rfl | hp' <;> rcases List.mem_cons.mp hq with rfl | hq'
    · rfl
    · exact absurd (List.mem_map.mpr ⟨q, hq', hu.symm⟩) h.1
    · exact absurd (List.mem_map.mpr ⟨p, hp', hu⟩) h.1
    · exact ih h.2 hp' hq'

theorem eff_putObj {l : Lib} {s : Session} (hs : Here l s) (hn : (handles l.sessions).Nodup) (hu : UidOk l)
    {h : Nat} {o o' : Obj} (hf : findObj l s h = some o) (hk : o'.key = o.key) (hi : o'.iv = o.iv) :
    Eff2 e ok 0 l (putObj l s h o') := by
  have hm := findObj_mem hf
  have huid : o'.uid = o.uid := congrArg (·.2.1) hk
  unfold putObj
  split
  · rename_i hh
    have hsame := replObj_same o' l.token.objs (by
      intro p hp hpu
      have := uid_inj hu.1 hp (hm.2.1 hh) (hpu.trans huid)
      subst this
      exact ⟨hk.symm, by rw [hi]; exact id⟩)
    exact .of (.quiet ⟨hsame.1, rfl, rfl, rfl, rfl, hsame.2⟩)
  · rename_i hh
    have hh : handleOnToken h = false := by simpa using hh
    obtain ⟨t, ht, h1, h2⟩ := hs
    refine .of (.quiet ⟨rfl, ?_, rfl, rfl, rfl, id⟩)
    simp only [Lib.upd, List.map_map]
    refine List.map_congr_left fun u hum => ?_
    simp only [Function.comp_apply]
    split
    · rename_i hus
      have hut : u = t := by
        have hf1 : l.sessions.find? (fun s => s.handle == t.handle) = some u :=
          (find_iff hn).mpr ⟨hum, hus.trans h1.symm⟩
        have hf2 : l.sessions.find? (fun s => s.handle == t.handle) = some t :=
          (find_iff hn).mpr ⟨ht, rfl⟩
        rw [hf1] at hf2
        exact Option.some.inj hf2
      subst hut
      have hsame := replObj_same o' u.objs (by
        intro p hp hpu
        have := uid_inj (hu.2 u hum) hp (h2 ▸ hm.2.2 hh) (hpu.trans huid)
        subst this
        exact ⟨hk.symm, by rw [hi]; exact id⟩)
      simp only [Session.key, hsame.1]
    · rfl

/-! ## The calls -/

theorem eff_cSetAttr {l : Lib} {s : Session} (hs : Here l s) (hn : (handles l.sessions).Nodup) (hu : UidOk l)
    (h : Nat) (t : Option (List Entry)) : Eff2 e ok 0 l (cSetAttr e l s h t).1 := by
  unfold cSetAttr
  split; · quiet
  split; · quiet
  split; · quiet
  rename_i hf
  exact eff_putObj hs hn hu hf (setAttributeValue_key ..).1 (setAttributeValue_key ..).2

theorem eff_cFindInit (l : Lib) (s : Session) (t : Option (List Entry)) : Eff2 e ok 0 l (cFindInit e l s t).1 := by
  unfold cFindInit
  split; · quiet
  split; · quiet
  dsimp only
  repeat' split
  all_goals quiet

theorem eff_cFindNext (l : Lib) (s : Session) (p : Bool) (n : Nat) : Eff2 e ok 0 l (cFindNext l s p n).1 := by
  unfold cFindNext
  split <;> quiet

theorem eff_cCryptInit (l : Lib) (s : Session) (k : Kind) (m : Option (Mech × MechParam)) (key : Nat) :
    Eff2 e ok 0 l (cCryptInit e l s k m key).1 := by
  unfold cCryptInit
  dsimp only
  repeat' split
  all_goals quiet

theorem eff_cCrypt (l : Lib) (s : Session) (c : DataCall) : Eff2 e ok 0 l (cCrypt e l s c).1 := by
  unfold cCrypt
  split
  · quiet
  · quiet
  · dsimp only
    split <;> quiet

theorem eff_cGenKey {l : Lib} {s : Session} (hs : Here l s) (m : Option (Mech × MechParam))
    (t : Option (List Entry)) (p : Bool) (ht : ∀ q, t = some q → TokOk ok q) :
    Eff2 e ok 1 l (cGenKey e l s m t p).1 := by
  unfold cGenKey
  repeat' split
  all_goals try quiet
  rename_i heq
  refine Eff2.after (b := { l with rng := l.rng + 1 }) (eff_addObject ?_ _ _ (ht _ rfl) ?_) ⟨rfl, rfl, rfl, rfl, rfl, id⟩
  · exact hs
  · have := newObject_iv' heq
    exact this

theorem deriveTail_iv {x : KeyExt} {o o' : Obj} {b : Bytes} (h : (deriveTail x o b).obj = some o') : o'.iv = o.iv := by
  have hs : ∀ v, (setSecretKey o v).2.iv = o.iv := by
    intro v
    unfold setSecretKey
    repeat' split
    all_goals rfl
  unfold deriveTail at h
  split at h
  · cases h
  dsimp only at h
  split at h
  · cases h
  split at h
  · rename_i heq
    cases h
    have := hs (fun a => if a = .value then some (b.drop (b.length - ‹Nat›)) else none)
    rw [heq] at this
    exact this
  · cases h
  · cases h

theorem eff_cDerive {l : Lib} {s : Session} (hs : Here l s) (m : Option DeriveMech) (b : Nat)
    (t : Option (List Entry)) (p : Bool) (ht : ∀ q, t = some q → TokOk ok q) :
    Eff2 e ok 1 l (cDerive e l s m b t p).1 := by
  unfold cDerive
  split
  rotate_left; · quiet
  split; · quiet
  split; · quiet
  split; · quiet
  split
  rotate_left; · quiet
  rename_i o heq
  dsimp only
  split; · quiet
  rename_i o' hd
  refine eff_addObject hs _ _ (ht _ rfl) ?_
  have hiv := createObject_iv heq
  have := deriveTail_iv hd
  rw [this]; exact hiv

theorem eff_addPair {l : Lib} {s : Session} (hs : Here l s) (tp tq : List Entry) (a b : Obj) (h1 : TokOk ok tp)
    (h2 : TokOk ok tq) (ha : a.iv.length = 12) (hb : b.iv.length = 12) :
    Eff2 e ok 2 l (addPair e l s tp tq a b).1 := by
  have e1 := eff_addObject (e := e) hs tp a h1 ha
  unfold addPair
  dsimp only
  generalize hr : addObject e l s tp a = r at e1
  split
  · exact e1.mono
  split
  · exact e1.mono
  rename_i s1 hf
  have hm := List.mem_of_find?_eq_some hf
  have e2 := eff_addObject (e := e) (Here.of_mem hm) tq b h2 hb
  split
  · exact Eff2.mono (k := 1 + (1 + 0)) (e1.trans (Eff2.trans e2 (.of (.quiet ⟨rfl, rfl, rfl, rfl, rfl, id⟩))))
  · exact e1.trans e2

theorem pairGen_iv {rng : Nat} {m : Mech} {typ : Nat} {gen : Obj → Obj → IRet × Obj × Obj}
    (h : pairGen e rng m = some (typ, gen)) {a b a' b' : Obj} {r : IRet} (hg : gen a b = (r, a', b')) :
    a'.iv = a.iv ∧ b'.iv = b.iv := by
  unfold pairGen at h
  split at h
  · obtain ⟨_, rfl⟩ := Prod.mk.inj (Option.some.inj h)
    unfold rsaGenerate at hg
    dsimp only at hg
    repeat' split at hg
    all_goals obtain ⟨_, hh⟩ := Prod.mk.inj hg; obtain ⟨rfl, rfl⟩ := Prod.mk.inj hh; exact ⟨rfl, rfl⟩
  · obtain ⟨_, rfl⟩ := Prod.mk.inj (Option.some.inj h)
    unfold ecGenerate at hg
    repeat' split at hg
    all_goals obtain ⟨_, hh⟩ := Prod.mk.inj hg; obtain ⟨rfl, rfl⟩ := Prod.mk.inj hh; exact ⟨rfl, rfl⟩
  · obtain ⟨_, rfl⟩ := Prod.mk.inj (Option.some.inj h)
    unfold dhGenerate at hg
    dsimp only at hg
    repeat' split at hg
    all_goals obtain ⟨_, hh⟩ := Prod.mk.inj hg; obtain ⟨rfl, rfl⟩ := Prod.mk.inj hh; exact ⟨rfl, rfl⟩
  · cases h

theorem eff_cGenPair {l : Lib} {s : Session} (hs : Here l s) (m : Option (Mech × MechParam))
    (tp tq : Option (List Entry)) (p : Bool) (h1 : ∀ q, tp = some q → TokOk ok q)
    (h2 : ∀ q, tq = some q → TokOk ok q) : Eff2 e ok 2 l (cGenPair e l s m tp tq p).1 := by
  unfold cGenPair
  split
  rotate_left; · quiet
  split; · quiet
  split; · quiet
  rename_i typ gen hp
  split; · quiet
  split
  rotate_left; · quiet
  rename_i pub hpub
  split
  rotate_left; · quiet
  rename_i priv hpriv
  split
  · rename_i pub' priv' hg
    have hiv := pairGen_iv hp hg
    refine Eff2.after (b := { l with rng := l.rng + 1 }) (eff_addPair ?_ _ _ _ _ (h1 _ rfl) (h2 _ rfl) ?_ ?_)
      ⟨rfl, rfl, rfl, rfl, rfl, id⟩
    · exact hs
    · rw [hiv.1]; exact newObject_iv' hpub
    · rw [hiv.2]; exact newObject_iv' hpriv
  · quiet
  · quiet

theorem eff_cWrap (l : Lib) (s : Session) (m : Option (Mech × MechParam)) (wk key : Nat) (ob : OutBuf) :
    Eff2 e ok 0 l (cWrap e l s m wk key ob).1 := by
  unfold cWrap
  split; · quiet
  split; · quiet
  split; · quiet
  split; · quiet
  split; · quiet
  split; · quiet
  split; · quiet
  split; · quiet
  split; · quiet
  dsimp only
  split <;> quiet

theorem eff_addRsaPrivate {l : Lib} {s : Session} (hs : Here l s) (t : List Entry) (d : Bytes) (ht : TokOk ok t) :
    Eff2 e ok 1 l (addRsaPrivate e l s t d).1 := by
  unfold addRsaPrivate
  split
  rotate_left; · quiet
  rename_i heq
  split; · quiet
  have := newObject_iv' heq
  exact eff_addObject hs _ _ ht this

theorem eff_cUnwrap {l : Lib} {s : Session} (hs : Here l s) (m : Option (Mech × MechParam)) (wk : Nat)
    (d : Option Bytes) (t : Option (List Entry)) (p : Bool) (ht : ∀ q, t = some q → TokOk ok q) :
    Eff2 e ok 1 l (cUnwrap e l s m wk d t p).1 := by
  unfold cUnwrap
  split; · quiet
  split
  rotate_left; · quiet
  split; · quiet
  split; · quiet
  split; · quiet
  dsimp only
  split; · quiet
  split; · quiet
  split; · quiet
  split; · quiet
  refine Eff2.after (eff_addRsaPrivate ?_ _ _ (ht _ rfl)) (quiet_upd _ _ _ (fun _ => rfl))
  exact hs.upd _ _ (fun _ => ⟨rfl, rfl⟩)

theorem eff_sessCall {l : Lib} {s : Session} (hs : s ∈ l.sessions) (hn : (handles l.sessions).Nodup) (hu : UidOk l)
    (c : SessCall) (hc : c ≠ .close) (hok : ∀ t ∈ c.creates, TokOk ok t) :
    Eff2 e ok 2 l (sessCall e l s c).1 := by
  have hh := Here.of_mem hs
  cases c with
  | close => exact absurd rfl hc
  | info p => unfold sessCall; dsimp only; split <;> quiet
  | login u p now => exact (eff_login ..).mono
  | logout => exact (eff_logout ..).mono
  | initPin p => exact (eff_initPin ..).mono
  | setPin o n => exact (eff_setPin ..).mono
  | create t p => exact (eff_cCreate hh t p (fun q hq => hok q (by simp [SessCall.creates, hq]))).mono
  | copy o t p => exact (eff_cCopy hh o t p (fun q hq => hok q (by simp [SessCall.creates, hq]))).mono
  | destroy o => exact (eff_cDestroy hh o).mono
  | size o p => unfold sessCall; dsimp only; split <;> quiet
  | getAttr o t => unfold sessCall cGetAttr; dsimp only; repeat' split
                   all_goals quiet
  | setAttr o t => exact (eff_cSetAttr hh hn hu o t).mono
  | findInit t => exact (eff_cFindInit ..).mono
  | findNext p n => exact (eff_cFindNext ..).mono
  | findFinal => quiet
  | cryptInit k m key => exact (eff_cCryptInit ..).mono
  | crypt c => exact (eff_cCrypt ..).mono
  | genKey m t p => exact (eff_cGenKey hh m t p (fun q hq => hok q (by simp [SessCall.creates, hq]))).mono
  | genPair m p q b =>
    exact eff_cGenPair hh m p q b (fun t ht => hok t (by simp [SessCall.creates, ht]))
      (fun t ht => hok t (by simp [SessCall.creates, ht]))
  | wrap m a b o => exact (eff_cWrap ..).mono
  | unwrap m w d t p => exact (eff_cUnwrap hh m w d t p (fun q hq => hok q (by simp [SessCall.creates, hq]))).mono
  | derive m b t p => exact (eff_cDerive hh m b t p (fun q hq => hok q (by simp [SessCall.creates, hq]))).mono
  | random p n => unfold sessCall cRandom; dsimp only; repeat' split
                  all_goals quiet

end Verif
