import Verif.Proofs.Look
import Verif.Proofs.Pop
import Verif.Proofs.Disk
/-!
# A property of every object

A property `P` of objects that all functions creating or changing objects keep holds of
every object of every reachable library; with it a property `G` of the storage key and a
property `D` of the directory.  `T` restricts the templates.
-/
namespace Verif

variable {e : Env} {P : Obj → Prop} {G : Bytes → Prop} {D : Disk → Prop} {T S : List Entry → Prop}

/-- `P` is kept by everything that makes or changes an object. -/
structure Closed (e : Env) (P : Obj → Prop) (G : Bytes → Prop) (D : Disk → Prop) (T S : List Entry → Prop) : Prop where
  name : ∀ o h u b, P o → P { o with handle := h, uid := u, onToken := b }
  new : ∀ typ cls b t, typ < 2 ^ 64 → T t → cls = CKO_PUBLIC_KEY ∨ cls = CKO_PRIVATE_KEY ∨ cls = CKO_SECRET_KEY ∨ templClass t = .ok cls →
    (setAttributeValue e.key b { newObj 0 typ with cls } t).1 = .ok → P (setAttributeValue e.key b { newObj 0 typ with cls } t).2
  set : ∀ o b t, S t → P o → P (setAttributeValue e.key b o t).2
  copy : ∀ o t, P o → (getAttributeValue e.key o t).1 = .ok →
    (setAttributeValue e.key true (newObj 0 o.typ) (getAttributeValue e.key o t).2).1 = .ok → P (setAttributeValue e.key true (newObj 0 o.typ) (getAttributeValue e.key o t).2).2
  enc : ∀ o k b, G k → P o → P (encodeObj e.store k b o).2
  dec : ∀ o k, P o → P (decodeObj e.store k o).2
  sto : ∀ o k r i, G k → P o → P (storeObj e.store k r o i).obj
  symm : ∀ o k, o.typ = CKK_AES → o.cls ≠ CKO_CERTIFICATE → P o → P { o with data := .symm (e.store.rand k o.symm.length) }
  rsa : ∀ o d k, o.typ = CKK_RSA → o.cls ≠ CKO_CERTIFICATE → P o → e.parsePriv d = some k → P { o with data := .rsa k }
  pair : ∀ r m typ gen a b a' b', pairGen e r m = some (typ, gen) → gen a b = (.ok, a', b') →
    a.typ = typ → a.cls ≠ CKO_CERTIFICATE → b.typ = typ → b.cls ≠ CKO_CERTIFICATE → P a → P b → P a' ∧ P b'
  der : ∀ o b o', (o.cls = CKO_CERTIFICATE → o.typ ≤ 2) → P o → (deriveTail e.key o b).obj = some o' → P o'
  load : ∀ d u typ i o, typ < 2 ^ 64 → D d → loadObj e.store d (newObj u typ) i = some o → P o
  key0 : G (List.replicate 32 0)
  keyH : ∀ pin seed, pinLenOk pin = true → G (e.store.hash pin seed)
  tokFile : ∀ d b, D d → D (d.put ((.token, 0), b))
  objFile : ∀ d o k r i, G k → P o → D d → D (d.puts (storeObj e.store k r o i).wr)
  delFile : ∀ d o i, P o → D d → D (d.puts (unstore o i))

/-- Every object has the property, the storage key and the directory have theirs. -/
structure AllObj (P : Obj → Prop) (G : Bytes → Prop) (D : Disk → Prop) (l : Lib) : Prop where
  objs : ∀ o ∈ l.token.objs, P o
  sess : ∀ s ∈ l.sessions, ∀ o ∈ s.objs, P o
  key : G l.token.key
  disk : D l.disk

theorem AllObj.of {l l' : Lib} (h : AllObj P G D l) (h1 : l'.token = l.token)
    (h2 : l'.sessions = l.sessions) (h3 : l'.disk = l.disk) : AllObj P G D l' := by
  refine ⟨?_, ?_, ?_, ?_⟩
  · rw [h1]; exact h.objs
  · rw [h2]; exact h.sess
  · rw [h1]; exact h.key
  · rw [h3]; exact h.disk

theorem AllObj.tok {l : Lib} (h : AllObj P G D l) {t : Token} (ht : ∀ o ∈ t.objs, P o) (hk : G t.key) :
    AllObj P G D { l with token := t } := ⟨ht, h.sess, hk, h.disk⟩

theorem AllObj.upd {l : Lib} (h : AllObj P G D l) {k : Nat} {f : Session → Session}
    (hf : ∀ s ∈ l.sessions, ∀ o ∈ (f s).objs, P o) : AllObj P G D (l.upd k f) := by
  refine ⟨h.objs, ?_, h.key, h.disk⟩
  intro s hs
  obtain ⟨t, ht, rfl⟩ := List.mem_map.mp hs
  split
  · exact hf t ht
  · exact h.sess t ht

theorem AllObj.upd_same {l : Lib} (h : AllObj P G D l) {k : Nat} {f : Session → Session}
    (hf : ∀ s, (f s).objs = s.objs) : AllObj P G D (l.upd k f) :=
  h.upd fun s hs => by rw [hf]; exact h.sess s hs

theorem newObject_kept {s : Session} {typ cls : Nat} {t : List Entry} {rv : RV} {o : Obj}
    (hc : cls ≠ CKO_CERTIFICATE) (h : newObject e s typ cls t = (rv, o)) :
    o.typ = typ ∧ o.cls ≠ CKO_CERTIFICATE := by
  unfold newObject setAttributeValue at h
  dsimp only at h
  split at h; · cases h; exact ⟨rfl, hc⟩
  split at h; · cases h; exact ⟨rfl, hc⟩
  split at h; · cases h; exact ⟨rfl, hc⟩
  split at h; · cases h; exact ⟨rfl, hc⟩
  obtain ⟨d, z, hk⟩ := setKey_frame e.key { newObj 0 typ with cls } (keyVals t)
  rw [hk] at h
  split at h
  · have := setAttrs_kept { newObj 0 typ with cls, data := d, size := z } t hc
    rw [h] at this; exact this
  all_goals (cases h; exact ⟨rfl, hc⟩)

theorem newObject_typ {s : Session} {typ cls : Nat} {t : List Entry} {rv : RV} {o : Obj}
    (h : newObject e s typ cls t = (rv, o)) : o.typ = typ := by
  have := setAttributeValue_inv (P := fun o => o.typ = typ) e.key (s.use == .rw) { newObj 0 typ with cls } t
    (fun p v hp => by obtain ⟨d, z, h⟩ := setKey_frame e.key p v; rw [h]; exact hp)
    (fun p en _ hp => by rw [(setAttr_rest p en).typ]; exact hp) rfl
  unfold newObject at h
  rw [h] at this
  exact this

variable (hP : Closed e P G D T S)
include hP

theorem storeObjs_all {k : Bytes} (hk : G k) (r : Nat) {os : List Obj} (h : ∀ o ∈ os, P o) :
    ∀ o ∈ (storeObjs e.store k r os).2.1, P o := by
  induction os generalizing r with
  | nil => intro o ho; cases ho
  | cons a os ih =>
    have ha := hP.sto a k r os.length hk (h a List.mem_cons_self)
    have hos : ∀ o ∈ os, P o := fun o ho => h o (List.mem_cons_of_mem _ ho)
    simp only [storeObjs]
    split
    · intro o ho
      rcases List.mem_cons.mp ho with rfl | ho
      · exact ha
      · exact ih _ hos o ho
    · intro o ho
      rcases List.mem_cons.mp ho with rfl | ho
      · exact ha
      · exact hos o ho

theorem storeObjs_disk {k : Bytes} (hk : G k) (r : Nat) {os : List Obj} (h : ∀ o ∈ os, P o) {d : Disk} (hd : D d) :
    D (d.puts (storeObjs e.store k r os).1) := by
  induction os generalizing r d with
  | nil => exact hd
  | cons a os ih =>
    have ha := hP.objFile d a k r os.length hk (h a List.mem_cons_self) hd
    simp only [storeObjs]
    split
    · rw [puts_append]
      exact ih _ (fun o ho => h o (List.mem_cons_of_mem _ ho)) ha
    · exact ha

theorem all_store {l : Lib} (h : AllObj P G D l) : AllObj P G D (Lib.store e l).1 :=
  ⟨storeObjs_all hP h.key _ h.objs, h.sess, h.key, storeObjs_disk hP h.key _ h.objs (hP.tokFile _ _ h.disk)⟩

theorem decodeAll_all (k : Bytes) {os : List Obj} (h : ∀ o ∈ os, P o) : ∀ o ∈ (decodeAll e.store k os).2, P o := by
  induction os with
  | nil => intro o ho; cases ho
  | cons a os ih =>
    have ha := hP.dec a k (h a List.mem_cons_self)
    have hos : ∀ o ∈ os, P o := fun o ho => h o (List.mem_cons_of_mem _ ho)
    simp only [decodeAll]
    split
    · intro o ho
      rcases List.mem_cons.mp ho with rfl | ho
      · exact ha
      · exact ih hos o ho
    · intro o ho
      rcases List.mem_cons.mp ho with rfl | ho
      · exact ha
      · exact hos o ho

theorem encodeAll_all {k : Bytes} (hk : G k) {os : List Obj} (h : ∀ o ∈ os, P o) : ∀ o ∈ encodeAll e.store k os, P o := by
  induction os with
  | nil => intro o ho; cases ho
  | cons a os ih =>
    have ha := hP.enc a k true hk (h a List.mem_cons_self)
    have hos : ∀ o ∈ os, P o := fun o ho => h o (List.mem_cons_of_mem _ ho)
    simp only [encodeAll]
    split
    · intro o ho
      rcases List.mem_cons.mp ho with rfl | ho
      · exact ha
      · exact ih hos o ho
    · intro o ho
      rcases List.mem_cons.mp ho with rfl | ho
      · exact ha
      · exact hos o ho

theorem all_logout {l : Lib} (h : AllObj P G D l) : AllObj P G D (logout e l) := by
  unfold logout
  refine h.tok ?_ h.key
  dsimp only
  split
  · exact encodeAll_all hP h.key h.objs
  · exact h.objs

theorem all_setSoPin {l : Lib} (h : AllObj P G D l) (p : Bytes) : AllObj P G D (setSoPin e l p).1 := by
  unfold setSoPin
  exact all_store hP ⟨h.objs, h.sess, h.key, h.disk⟩

theorem all_setUserPin {l : Lib} (h : AllObj P G D l) {p : Bytes} (hp : pinLenOk p = true) :
    AllObj P G D (setUserPin e l p).1 := by
  unfold setUserPin
  exact all_store hP ⟨h.objs, h.sess, hP.keyH _ _ hp, h.disk⟩

theorem all_login {l : Lib} (h : AllObj P G D l) (u : UserType) (pin : Option Bytes) (now : Int) :
    AllObj P G D (login e l u pin now).1 := by
  unfold login
  split; · exact h
  split; · exact h
  rename_i p hp
  have hp : pinLenOk p = true := by simpa using hp
  split
  · unfold soLogin
    dsimp only
    repeat' split
    all_goals exact ⟨h.objs, h.sess, h.key, h.disk⟩
  · unfold userLogin
    dsimp only
    split; · exact h
    split; · exact h
    split
    · exact ⟨h.objs, h.sess, h.key, h.disk⟩
    · exact ⟨h.objs, h.sess, h.key, h.disk⟩
    · have hd := decodeAll_all hP (e.store.hash p l.token.seed) h.objs
      split <;> exact ⟨hd, h.sess, hP.keyH _ _ hp, h.disk⟩
  · exact h
  · exact h

theorem all_initPin {l : Lib} (h : AllObj P G D l) (s : Session) (p : Option Bytes) : AllObj P G D (initPin e l s p).1 := by
  unfold initPin
  split; · exact h
  split; · exact h
  split; · exact h
  rename_i p _ hp
  exact all_setUserPin hP h (by simpa using hp)

theorem all_setPin {l : Lib} (h : AllObj P G D l) (s : Session) (o n : Option Bytes) :
    AllObj P G D (setPin e l s o n).1 := by
  unfold setPin
  split
  rotate_left; · exact h
  split; · exact h
  split; · exact h
  rename_i q _ hn
  have hn : pinLenOk q = true := by simpa using hn
  repeat' split
  all_goals first | exact h | exact all_setSoPin hP h _ | exact all_setUserPin hP h hn

theorem all_sessAdd {l : Lib} (h : AllObj P G D l) (s : Session) (on : Nat) {o : Obj} (ho : P o) :
    AllObj P G D (sessAddObject e l s on o).1 := by
  unfold sessAddObject
  dsimp only
  split
  · split; · exact h
    split
    · refine all_store hP ⟨?_, h.sess, h.key, h.disk⟩
      intro q hq
      rcases List.mem_cons.mp hq with rfl | hq
      · have h1 := hP.enc _ l.token.key false h.key (hP.name o o.handle l.uid (decide (on % 2 = 1)) ho)
        exact hP.name _ _ _ _ h1
      · exact h.objs q hq
    · exact h
  · split; · exact h
    refine AllObj.upd (l := { l with uid := l.uid + 1 }) ⟨h.objs, h.sess, h.key, h.disk⟩ ?_
    intro t ht q hq
    rcases List.mem_cons.mp hq with rfl | hq
    · exact hP.name _ _ _ _ ho
    · exact h.sess t ht q hq

theorem all_addObject {l : Lib} (h : AllObj P G D l) (s : Session) (t : List Entry) {o : Obj} (ho : P o) :
    AllObj P G D (addObject e l s t o).1 := by
  unfold addObject
  split
  · exact h
  · rename_i on _
    have := all_sessAdd hP h s on ho
    split <;> (rename_i heq; rw [heq] at this; exact this)

theorem newObject_all {s : Session} {typ cls : Nat} {t : List Entry} {o : Obj} (hty : typ < 2 ^ 64) (ht : T t)
    (hc : cls = CKO_PUBLIC_KEY ∨ cls = CKO_PRIVATE_KEY ∨ cls = CKO_SECRET_KEY ∨ templClass t = .ok cls)
    (h : newObject e s typ cls t = (.ok, o)) : P o := by
  have := hP.new typ cls (s.use == .rw) t hty ht hc
  unfold newObject at h
  rw [h] at this; exact this rfl

omit hP in
theorem templClass_error {t : List Entry} {rv : RV} (h : templClass t = .error rv) : rv ≠ .ok := by
  unfold templClass at h
  repeat' split at h
  all_goals first | (cases h; exact RV.noConfusion) | cases h

omit hP in
theorem templUlong_error {t : List Entry} {a : CKA} {rv : RV} (h : templUlong t a = .error rv) : rv ≠ .ok := by
  unfold templUlong at h
  repeat' split at h
  all_goals first | (cases h; exact RV.noConfusion) | cases h

omit hP in
theorem keyTypeOk_lt {k : Nat} (h : keyTypeOk k = true) : k < 2 ^ 64 := by
  unfold keyTypeOk at h
  simp only [Bool.or_eq_true, beq_iff_eq] at h
  rcases h with (((h | h) | h) | h) | h <;> (rw [h]; decide)

omit hP in
theorem pairGen_lt {r : Nat} {m : Mech} {typ : Nat} {gen} (h : pairGen e r m = some (typ, gen)) : typ < 2 ^ 64 := by
  unfold pairGen at h
  repeat' split at h
  all_goals first | (cases h; decide) | cases h

theorem createObject_all {s : Session} {t : List Entry} {o : Obj} (ht : T t)
    (h : createObject e s t = (.ok, o)) : P o := by
  unfold createObject at h
  split at h
  · rename_i hr; exact absurd (congrArg Prod.fst h) (templClass_error hr)
  rename_i hc
  repeat' split at h
  all_goals first
    | exact newObject_all hP (by rename_i h'; exact Nat.lt_of_le_of_lt h' (by decide)) ht (.inr (.inr (.inr hc))) h
    | exact newObject_all hP (keyTypeOk_lt (by assumption)) ht (.inr (.inr (.inr hc))) h
    | (rename_i hr; exact absurd (congrArg Prod.fst h) (templUlong_error hr))
    | (exact absurd (congrArg Prod.fst h) RV.noConfusion)

omit hP in
theorem createObject_type {s : Session} {t : List Entry} {o : Obj} (h : createObject e s t = (.ok, o)) :
    o.cls = CKO_CERTIFICATE → o.typ ≤ 2 := by
  have key : ∀ typ cls, newObject e s typ cls t = (.ok, o) → (cls = CKO_CERTIFICATE → typ ≤ 2) →
      o.cls = CKO_CERTIFICATE → o.typ ≤ 2 := by
    intro typ cls hn hc ho
    by_cases h : cls = CKO_CERTIFICATE
    · rw [(newObject_typ hn)]; exact hc h
    · exact absurd ho (newObject_kept h hn).2
  unfold createObject at h
  split at h
  · cases h; exact fun _ => Nat.zero_le _
  split at h
  · split at h
    · cases h; exact fun _ => Nat.zero_le _
    split at h
    · rename_i ht; exact key _ _ h fun _ => ht
    · cases h
  · rename_i hc
    split at h
    · cases h; exact fun _ => Nat.zero_le _
    split at h
    · exact key _ _ h fun h => absurd h hc
    · cases h

theorem all_cCreate {l : Lib} (h : AllObj P G D l) (s : Session) (t : Option (List Entry)) (p : Bool)
    (ht : ∀ q, t = some q → T q) :
    AllObj P G D (cCreate e l s t p).1 := by
  unfold cCreate
  split; · exact h
  split; · exact h
  split; · exact h
  split
  · rename_i heq; exact all_addObject hP h s _ (createObject_all hP (ht _ rfl) heq)
  · exact h

theorem all_cCopy {l : Lib} (h : AllObj P G D l) {s : Session} (hs : s ∈ l.sessions) (k : Nat) (t : Option (List Entry)) (p : Bool) :
    AllObj P G D (cCopy e l s k t p).1 := by
  unfold cCopy
  split; · exact h
  split; · exact h
  split; · exact h
  split; · exact h
  split; · exact h
  dsimp only
  split; · exact h
  rename_i hg
  split; · exact h
  rename_i hn
  rename_i t _ _ _ o _ _ on _
  have hpo : P o := by
    have hm := List.mem_of_find?_eq_some (show ((if handleOnToken k then l.token.objs else s.objs).find?
      fun o => o.handle == k) = some o from ‹_›)
    split at hm
    · exact h.objs o hm
    · exact h.sess s hs o hm
  have := all_sessAdd hP h s on (hP.copy o t hpo (Classical.not_not.mp hg) (Classical.not_not.mp hn))
  split <;> (rename_i heq; rw [heq] at this; exact this)

theorem all_removeToken {l : Lib} (h : AllObj P G D l) {o : Obj} (ho : P o) : AllObj P G D (removeToken e l o) := by
  unfold removeToken
  refine all_store hP ⟨?_, h.sess, h.key, hP.delFile _ _ _ ho h.disk⟩
  intro q hq
  exact h.objs q (List.mem_filter.mp hq).1

theorem all_cDestroy {l : Lib} (h : AllObj P G D l) (s : Session) (k : Nat) : AllObj P G D (cDestroy e l s k).1 := by
  unfold cDestroy
  split; · exact h
  split; · exact h
  rename_i o ho
  split
  · rename_i hk
    split
    · refine all_removeToken hP h (h.objs o ?_)
      have : l.token.objs.find? (fun o => o.handle == k) = some o := by
        unfold findObj at ho; rw [if_pos hk] at ho; exact ho
      exact List.mem_of_find?_eq_some this
    · exact h.of rfl rfl rfl
  · exact h.upd fun t ht q hq => h.sess t ht q (List.mem_filter.mp hq).1

omit hP in
theorem all_setAttr {l : Lib} (h : AllObj P G D l) {s : Session} (hs : s ∈ l.sessions) (k : Nat)
    (t : Option (List Entry)) (ht : ∀ q o, t = some q → findObj l s k = some o → P o → P (setAttributeValue e.key true o q).2) :
    AllObj P G D (cSetAttr e l s k t).1 := by
  unfold cSetAttr
  split; · exact h
  split; · exact h
  split; · exact h
  rename_i o ho
  have hpo : P o := by
    have hm := List.mem_of_find?_eq_some (show ((if handleOnToken k then l.token.objs else s.objs).find?
      fun o => o.handle == k) = some o from ho)
    split at hm
    · exact h.objs o hm
    · exact h.sess s hs o hm
  have hset := ht _ o rfl ho hpo
  have key : ∀ (q : Obj) (os : List Obj), P q → (∀ o ∈ os, P o) → ∀ o ∈ replObj q os, P o := by
    intro q os hq hos o ho
    obtain ⟨a, ha, rfl⟩ := List.mem_map.mp ho
    split
    · exact hq
    · exact hos a ha
  dsimp only
  unfold putObj
  split
  · exact ⟨key _ _ hset h.objs, h.sess, h.key, h.disk⟩
  · exact h.upd fun u hu => key _ _ hset (h.sess u hu)

theorem all_cSetAttr {l : Lib} (h : AllObj P G D l) {s : Session} (hs : s ∈ l.sessions) (k : Nat)
    (t : Option (List Entry)) (ht : ∀ q, t = some q → S q) : AllObj P G D (cSetAttr e l s k t).1 :=
  all_setAttr h hs k t fun q _ hq _ hp => hP.set _ true _ (ht q hq) hp

omit hP in
theorem all_cFindInit {l : Lib} (h : AllObj P G D l) (s : Session) (t : Option (List Entry)) :
    AllObj P G D (cFindInit e l s t).1 := by
  unfold cFindInit
  dsimp only
  repeat' split
  all_goals first | exact h | exact h.upd_same (by intro _; rfl)

omit hP in
theorem all_cFindNext {l : Lib} (h : AllObj P G D l) (s : Session) (p : Bool) (n : Nat) :
    AllObj P G D (cFindNext l s p n).1 := by
  unfold cFindNext
  dsimp only
  split
  · exact h
  · exact h.upd_same (by intro _; rfl)

omit hP in
theorem all_cCryptInit {l : Lib} (h : AllObj P G D l) (s : Session) (k : Kind) (m : Option (Mech × MechParam)) (key : Nat) :
    AllObj P G D (cCryptInit e l s k m key).1 := by
  unfold cCryptInit
  dsimp only
  repeat' split
  all_goals first | exact h | exact h.upd_same (by intro _; rfl)

omit hP in
theorem all_cCrypt {l : Lib} (h : AllObj P G D l) (s : Session) (c : DataCall) : AllObj P G D (cCrypt e l s c).1 := by
  unfold cCrypt
  dsimp only
  repeat' split
  all_goals first | exact h | exact h.upd_same (by intro _; rfl)

theorem all_cGenKey {l : Lib} (h : AllObj P G D l) (s : Session) (m : Option (Mech × MechParam))
    (t : Option (List Entry)) (p : Bool) (ht : ∀ q, t = some q → T q) : AllObj P G D (cGenKey e l s m t p).1 := by
  unfold cGenKey
  split
  rotate_left; · exact h
  split; · exact h
  split; · exact h
  split; · exact h
  split
  · rename_i heq
    exact all_addObject hP (l := { l with rng := l.rng + 1 }) (h.of rfl rfl rfl) s _ 
      (hP.symm _ _ (newObject_kept (by decide) heq).1 (newObject_kept (by decide) heq).2
        (newObject_all hP (by decide) (ht _ rfl) (.inr (.inr (.inl rfl))) heq))
  · exact h

theorem all_addPair {l : Lib} (h : AllObj P G D l) (s : Session) (tp tq : List Entry) {a b : Obj} (ha : P a) (hb : P b) :
    AllObj P G D (addPair e l s tp tq a b).1 := by
  have h1 := all_addObject hP h s tp ha
  unfold addPair
  dsimp only
  split
  · exact h1
  split
  · exact h1
  rename_i s1 _
  have h2 := all_addObject hP h1 s1 tq hb
  split
  · exact h2.of rfl rfl rfl
  · exact h2

theorem all_cGenPair {l : Lib} (h : AllObj P G D l) (s : Session) (m : Option (Mech × MechParam))
    (tp tq : Option (List Entry)) (p : Bool) (h1 : ∀ q, tp = some q → T q) (h2 : ∀ q, tq = some q → T q) :
    AllObj P G D (cGenPair e l s m tp tq p).1 := by
  unfold cGenPair
  split
  rotate_left; · exact h
  split; · exact h
  split; · exact h
  rename_i typ gen hp
  split; · exact h
  split
  rotate_left; · exact h
  rename_i pub hpub
  split
  rotate_left; · exact h
  rename_i priv hpriv
  split
  · rename_i pub' priv' hg
    obtain ⟨h1, h2⟩ := hP.pair _ _ _ _ _ _ _ _ hp hg (newObject_kept (by decide) hpub).1
      (newObject_kept (by decide) hpub).2 (newObject_kept (by decide) hpriv).1 (newObject_kept (by decide) hpriv).2
      (newObject_all hP (pairGen_lt hp) (h1 _ rfl) (.inl rfl) hpub)
      (newObject_all hP (pairGen_lt hp) (h2 _ rfl) (.inr (.inl rfl)) hpriv)
    exact all_addPair hP (l := { l with rng := l.rng + 1 }) (h.of rfl rfl rfl) s _ _ h1 h2
  · exact h
  · exact h.of rfl rfl rfl

omit hP in
theorem all_cWrap {l : Lib} (h : AllObj P G D l) (s : Session) (m : Option (Mech × MechParam)) (wk key : Nat)
    (ob : OutBuf) : AllObj P G D (cWrap e l s m wk key ob).1 := by
  unfold cWrap
  dsimp only
  repeat' split
  all_goals first | exact h | exact h.upd_same (by intro _; rfl)

theorem all_addRsaPrivate {l : Lib} (h : AllObj P G D l) (s : Session) (t : List Entry) (d : Bytes) (ht : T t) :
    AllObj P G D (addRsaPrivate e l s t d).1 := by
  unfold addRsaPrivate
  split
  · rename_i heq
    split
    · exact h
    · rename_i hk
      exact all_addObject hP h s t (hP.rsa _ _ _ (newObject_kept (by decide) heq).1
        (newObject_kept (by decide) heq).2 (newObject_all hP (by decide) ht (.inr (.inl rfl)) heq) hk)
  · exact h

theorem all_cUnwrap {l : Lib} (h : AllObj P G D l) (s : Session) (m : Option (Mech × MechParam)) (wk : Nat)
    (d : Option Bytes) (t : Option (List Entry)) (p : Bool) (ht : ∀ q, t = some q → T q) : AllObj P G D (cUnwrap e l s m wk d t p).1 := by
  unfold cUnwrap
  dsimp only
  repeat' split
  all_goals first
    | exact h
    | exact h.upd_same (by intro _; rfl)
    | exact all_addRsaPrivate hP (h.upd_same (by intro _; rfl)) s _ _ (ht _ rfl)

theorem all_cDerive {l : Lib} (h : AllObj P G D l) (s : Session) (m : Option DeriveMech) (b : Nat)
    (t : Option (List Entry)) (p : Bool) (ht : ∀ q, t = some q → T q) : AllObj P G D (cDerive e l s m b t p).1 := by
  unfold cDerive
  split
  rotate_left; · exact h
  split; · exact h
  split; · exact h
  split; · exact h
  split
  · rename_i heq
    dsimp only
    split
    · exact h
    · rename_i ho
      exact all_addObject hP h s _ (hP.der _ _ _ (createObject_type heq) (createObject_all hP (ht _ rfl) heq) ho)
  · exact h

omit hP in
theorem all_sub {l : Lib} (h : AllObj P G D l) {ss : List Session}
    (hs : ∀ s ∈ ss, s.objs = [] ∨ ∃ t ∈ l.sessions, s.objs = t.objs) : AllObj P G D { l with sessions := ss } := by
  refine ⟨h.objs, ?_, h.key, h.disk⟩
  intro s hm
  rcases hs s hm with h1 | ⟨t, ht, h1⟩
  · rw [h1]; intro o ho; cases ho
  · rw [h1]; exact h.sess t ht

omit hP in
theorem sessFinal_or (s : Session) : (sessFinal s).objs = [] ∨ (sessFinal s).objs = s.objs := by
  unfold sessFinal; dsimp only; split
  · exact .inr rfl
  · exact .inl rfl

theorem all_close {l : Lib} (h : AllObj P G D l) (k : Nat) : AllObj P G D (closeSession e l k).1 := by
  have h1 : AllObj P G D { l with sessions := closeOne l.sessions k } := by
    refine all_sub h ?_
    cases hss : l.sessions with
    | nil => intro s hs; cases hs
    | cons a ss =>
      unfold closeOne
      dsimp only
      split
      · intro s hs
        exact .inr ⟨s, List.mem_cons_of_mem _ ((dropUnused_suffix ss).subset hs), rfl⟩
      · intro s hs
        obtain ⟨t, ht, rfl⟩ := List.mem_map.mp hs
        split
        · rcases sessFinal_or t with h2 | h2
          · exact .inl h2
          · exact .inr ⟨t, ht, h2⟩
        · exact .inr ⟨t, ht, rfl⟩
  unfold closeSession
  dsimp only
  split
  · exact h1
  · exact all_logout hP h1

theorem all_sessCall {l : Lib} (h : AllObj P G D l) {s : Session} (hs : s ∈ l.sessions) (c : SessCall)
    (hT : ∀ t ∈ c.creates, T t) (hS : ∀ t ∈ c.sets, S t) :
    AllObj P G D (sessCall e l s c).1 := by
  cases c with
  | close => exact all_close hP h _
  | info p => simp only [sessCall]; split <;> exact h
  | login u p n => exact all_login hP h u p n
  | logout => exact all_logout hP h
  | initPin p => exact all_initPin hP h s p
  | setPin o n => exact all_setPin hP h s o n
  | create t p => exact all_cCreate hP h s t p (fun q hq => hT q (by rw [hq]; exact List.mem_singleton.mpr rfl))
  | copy o t p => exact all_cCopy hP h hs o t p
  | destroy o => exact all_cDestroy hP h s o
  | size o p => simp only [sessCall]; repeat' split
                all_goals exact h
  | getAttr o t => simp only [sessCall, cGetAttr]; repeat' split
                   all_goals exact h
  | setAttr o t => exact all_cSetAttr hP h hs o t (fun q hq => hS q (by rw [hq]; exact List.mem_singleton.mpr rfl))
  | findInit t => exact all_cFindInit h s t
  | findNext p n => exact all_cFindNext h s p n
  | findFinal => exact h.upd_same (by intro _; rfl)
  | cryptInit k m key => exact all_cCryptInit h s k m key
  | crypt c => exact all_cCrypt h s c
  | genKey m t p => exact all_cGenKey hP h s m t p (fun q hq => hT q (by rw [hq]; exact List.mem_singleton.mpr rfl))
  | genPair m a b p =>
    exact all_cGenPair hP h s m a b p
      (fun q hq => hT q (List.mem_append_left _ (by rw [hq]; exact List.mem_singleton.mpr rfl)))
      (fun q hq => hT q (List.mem_append_right _ (by rw [hq]; exact List.mem_singleton.mpr rfl)))
  | wrap m a b o => exact all_cWrap h s m a b o
  | unwrap m w d t p =>
    exact all_cUnwrap hP h s m w d t p (fun q hq => hT q (by rw [hq]; exact List.mem_singleton.mpr rfl))
  | derive m b t p =>
    exact all_cDerive hP h s m b t p (fun q hq => hT q (by rw [hq]; exact List.mem_singleton.mpr rfl))
  | random p n => simp only [sessCall, cRandom]; repeat' split
                  all_goals exact h.of rfl rfl rfl

theorem loadObjs_all {d : Disk} (hd : D d) {u : Nat} {ts : List Nat} {os : List Obj} (hts : ∀ k ∈ ts, k < 2 ^ 64)
    (h : loadObjs e.store d u ts = some os) : ∀ o ∈ os, P o := by
  induction ts generalizing u os with
  | nil => simp only [loadObjs, Option.some.injEq] at h; subst h; intro o ho; cases ho
  | cons t ts ih =>
    simp only [loadObjs, Option.bind_eq_some_iff, Option.map_eq_some_iff] at h
    obtain ⟨a, ha, os', hos, rfl⟩ := h
    intro o ho
    rcases List.mem_cons.mp ho with rfl | ho
    · exact hP.load _ _ _ _ _ (hts _ List.mem_cons_self) hd ha
    · exact ih (fun k hk => hts k (List.mem_cons_of_mem _ hk)) hos o ho

omit hP in
theorem loadToken_key (x : StoreExt) (d : Disk) (u : Nat) : (loadToken x d u).key = List.replicate 32 0 := by
  unfold loadToken
  repeat' split
  all_goals rfl

omit hP in
theorem rdTypes_lt {n : Nat} {b : Bytes} {ts : List Nat} {rest : Bytes} (h : rdTypes n b = some (ts, rest)) :
    ∀ k ∈ ts, k < 2 ^ 64 := by
  induction n generalizing b ts with
  | zero => cases h; intro k hk; cases hk
  | succ n ih =>
    obtain ⟨t, b1, h1, h⟩ := rd_bind h
    obtain ⟨ts', b2, h2, h⟩ := rd_bind h
    cases h
    intro k hk
    rcases List.mem_cons.mp hk with rfl | hk
    · unfold Rd.ulong at h1
      split at h1
      · cases h1
      · rename_i w r hf
        cases h1
        have h8 := rd_fixed hf
        have := ofBytes_lt w
        rw [h8] at this
        exact this
    · exact ih h2 k hk

omit hP in
theorem rdToken_types {b : Bytes} {r : TokenRec} {rest : Bytes} (h : rdToken b = some (r, rest)) : ∀ k ∈ r.types, k < 2 ^ 64 := by
  obtain ⟨_, _, _, h⟩ := rd_bind h
  obtain ⟨_, _, _, h⟩ := rd_bind h
  obtain ⟨_, _, _, h⟩ := rd_bind h
  obtain ⟨_, _, _, h⟩ := rd_bind h
  obtain ⟨_, _, _, h⟩ := rd_bind h
  obtain ⟨_, _, h6, h⟩ := rd_bind h
  cases h
  exact rdTypes_lt h6

theorem loadToken_all {d : Disk} (hd : D d) (u : Nat) : ∀ o ∈ (loadToken e.store d u).objs, P o := by
  unfold loadToken
  split; · intro o ho; cases ho
  split; · intro o ho; cases ho
  rename_i hr
  split; · intro o ho; cases ho
  rename_i h
  exact loadObjs_all hP hd (rdToken_types hr) h

theorem all_callBody {l : Lib} (h : AllObj P G D l) (c : Call) (hT : ∀ t ∈ c.creates, T t) (hS : ∀ t ∈ c.sets, S t) : AllObj P G D (callBody e l c).1 := by
  cases c with
  | cInit =>
    simp only [callBody, cInitialize]
    split
    · refine ⟨loadToken_all hP h.disk _, ?_, by rw [loadToken_key]; exact hP.key0, h.disk⟩
      intro s hs
      simp only [addSession, List.mem_cons, List.not_mem_nil, or_false] at hs
      rcases hs with rfl | rfl <;> (intro o ho; cases ho)
    · exact h.of rfl rfl rfl
  | cFinal =>
    simp only [callBody, cFinalize]
    split
    · exact ⟨(fun o ho => by cases ho), (fun s hs => by cases hs), hP.key0, (all_store hP h).disk⟩
    · exact h.of rfl rfl rfl
  | slot id c =>
    simp only [callBody]
    split; · exact h
    split; · exact h
    cases c with
    | tokenInfo p n => simp only [slotCall]; split <;> exact h
    | initToken p lab =>
      simp only [slotCall, initToken]
      repeat' split
      all_goals first | exact h | skip
      exact all_store hP ⟨(fun o ho => by cases ho), h.sess, hP.key0, h.disk⟩
    | closeAll =>
      refine all_sub h ?_
      unfold closeAll
      cases hc : closeDown l.sessions.length l.sessions with
      | nil => intro s hs; cases hs
      | cons a ss =>
        have hm : ∀ t ∈ a :: ss, t ∈ l.sessions := fun t ht => mem_closeDown (by rw [hc]; exact ht)
        intro s hs
        rcases List.mem_cons.mp hs with rfl | hs
        · rcases sessFinal_or a with h2 | h2
          · exact .inl h2
          · exact .inr ⟨a, hm a List.mem_cons_self, h2⟩
        · exact .inr ⟨s, hm s (List.mem_cons_of_mem _ hs), rfl⟩
    | openSession rw2 serial ptr =>
      simp only [slotCall, openSession]
      split; · exact h
      split; · exact h
      split; · exact h
      split; · exact h.upd_same (by intro _; rfl)
      split; · exact h
      split
      · rename_i s rest heq
        refine ⟨h.objs, ?_, h.key, h.disk⟩
        intro t ht
        unfold addSession at heq
        split at heq
        · cases heq
          rcases List.mem_cons.mp ht with rfl | ht
          · intro o ho; cases ho
          · cases ht
        · cases heq
          rcases List.mem_cons.mp ht with rfl | ht
          · intro o ho; cases ho
          · exact h.sess t ht
      · exact h
  | sess k c =>
    simp only [callBody]
    split; · exact h
    split
    · exact h
    · rename_i s hg
      exact all_sessCall hP h (getSession_handle hg).2.2 c hT hS

theorem all_step {l : Lib} (h : AllObj P G D l) (c : Call) (hT : ∀ t ∈ c.creates, T t) (hS : ∀ t ∈ c.sets, S t) : AllObj P G D (step e l c).1 := by
  unfold step
  split
  · exact h
  · have := all_callBody hP h c hT hS
    dsimp only
    split
    · exact this.of rfl rfl rfl
    · exact this

theorem all_run {l : Lib} (h : AllObj P G D l) (cs : List Call) (hT : ∀ c ∈ cs, ∀ t ∈ c.creates, T t)
    (hS : ∀ c ∈ cs, ∀ t ∈ c.sets, S t) :
    AllObj P G D (run e l cs) := by
  induction cs generalizing l with
  | nil => exact h
  | cons c cs ih =>
    exact ih (all_step hP h c (hT c List.mem_cons_self) (hS c List.mem_cons_self)) (fun d hd => hT d (List.mem_cons_of_mem _ hd))
      (fun d hd => hS d (List.mem_cons_of_mem _ hd))

end Verif
