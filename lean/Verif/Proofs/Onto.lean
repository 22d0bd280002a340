import Verif.Proofs.Disk
import Verif.Spec.Erase

/-!
# The library on a directory that holds further files
-/

namespace Verif

variable {e : Env}

/-- The first directory has every file of the second, with the same contents. -/
def Ext (d d' : Disk) : Prop := ∀ f, d' f ≠ none → d f = d' f

theorem Ext.puts {d d' : Disk} (h : Ext d d') (ws : List Write) : Ext (d.puts ws) (d'.puts ws) := by
  unfold Disk.puts
  induction ws generalizing d d' with
  | nil => exact h
  | cons w ws ih =>
    refine ih fun f hf => ?_
    unfold Disk.put at hf ⊢
    split
    · rfl
    · rename_i hne
      rw [if_neg hne] at hf
      exact h f hf

/-- The library with another directory. -/
def Lib.on (l : Lib) (d : Disk) : Lib := { l with disk := d }

/-- Two outcomes that do not differ but in further files. -/
def Onto {α : Type} (r r' : Lib × α) : Prop := ∃ d, Ext d r'.1.disk ∧ r = (r'.1.on d, r'.2)

theorem findObj_on (l : Lib) (d : Disk) (s : Session) (h : Nat) : findObj (l.on d) s h = findObj l s h := rfl
theorem currKey_on (l : Lib) (d : Disk) (s : Session) : currKey (l.on d) s = currKey l s := rfl
theorem sessState_on (l : Lib) (d : Disk) (s : Session) : sessState (l.on d) s = sessState l s := rfl
theorem getSession_on (l : Lib) (d : Disk) (h : Nat) : getSession (l.on d) h = getSession l h := rfl
theorem on_token (l : Lib) (d : Disk) : (l.on d).token = l.token := rfl
theorem on_sessions (l : Lib) (d : Disk) : (l.on d).sessions = l.sessions := rfl
theorem on_rng (l : Lib) (d : Disk) : (l.on d).rng = l.rng := rfl
theorem on_uid (l : Lib) (d : Disk) : (l.on d).uid = l.uid := rfl
theorem on_count (l : Lib) (d : Disk) : (l.on d).count = l.count := rfl
theorem on_bad (l : Lib) (d : Disk) : (l.on d).bad = l.bad := rfl
theorem on_disk (l : Lib) (d : Disk) : (l.on d).disk = d := rfl

/-- A call that writes no file. -/
macro "quiet" h:ident : tactic => `(tactic| exact ⟨_, $h, rfl⟩)

theorem onto_store {l : Lib} {d : Disk} (h : Ext d l.disk) : Onto (Lib.store e (l.on d)) (Lib.store e l) :=
  ⟨_, h.puts (storeToken e.store l.rng l.token).wr, rfl⟩

theorem Onto.pin {r r' : Lib × Bool} (h : Onto r r') : Onto (pinSet r) (pinSet r') := by
  obtain ⟨d, h1, rfl⟩ := h
  exact ⟨d, h1, rfl⟩

theorem onto_soPin {l : Lib} {d : Disk} (h : Ext d l.disk) (pin : Bytes) : Onto (setSoPin e (l.on d) pin) (setSoPin e l pin) :=
  ⟨_, h.puts (storeToken e.store (l.rng + 1) { l.token with so :=
    { l.token.so with pin := e.store.hash pin (e.store.rand l.rng 16), seed := e.store.rand l.rng 16 } }).wr, rfl⟩

theorem onto_userPin {l : Lib} {d : Disk} (h : Ext d l.disk) (pin : Bytes) :
    Onto (setUserPin e (l.on d) pin) (setUserPin e l pin) :=
  ⟨_, h.puts (storeToken e.store (l.rng + 2) { l.token with user :=
    { l.token.user with pin := e.store.hash pin (e.store.rand l.rng 16), seed := e.store.rand l.rng 16 }, seed := e.store.rand (l.rng + 1) 16, key := e.store.hash pin (e.store.rand (l.rng + 1) 16) }).wr, rfl⟩

theorem onto_soLogin {l : Lib} {d : Disk} (h : Ext d l.disk) (pin : Bytes) (now : Int) :
    Onto (soLogin e (l.on d) pin now) (soLogin e l pin now) := by
  unfold soLogin
  try dsimp only
  try rw [on_token]
  try rw [on_sessions]
  repeat' split
  all_goals quiet h

theorem onto_userLogin {l : Lib} {d : Disk} (h : Ext d l.disk) (pin : Bytes) (now : Int) :
    Onto (userLogin e (l.on d) pin now) (userLogin e l pin now) := by
  unfold userLogin
  try dsimp only
  try rw [on_token]
  try rw [on_sessions]
  repeat' split
  all_goals quiet h

theorem onto_login {l : Lib} {d : Disk} (h : Ext d l.disk) (u : UserType) (pin : Option Bytes) (now : Int) :
    Onto (login e (l.on d) u pin now) (login e l u pin now) := by
  unfold login
  split
  · quiet h
  split
  · quiet h
  cases u with
  | so =>
    obtain ⟨d', h1, h2⟩ := onto_soLogin (e := e) h _ now
    exact ⟨d', h1, by dsimp only; rw [h2]⟩
  | user =>
    obtain ⟨d', h1, h2⟩ := onto_userLogin (e := e) h _ now
    exact ⟨d', h1, by dsimp only; rw [h2]⟩
  | contextSpecific => quiet h
  | other => quiet h

theorem onto_initPin {l : Lib} {d : Disk} (h : Ext d l.disk) (s : Session) (pin : Option Bytes) :
    Onto (initPin e (l.on d) s pin) (initPin e l s pin) := by
  unfold initPin
  try dsimp only
  try rw [sessState_on]
  repeat' split
  all_goals first | quiet h | exact (onto_userPin h _).pin

theorem onto_setPin {l : Lib} {d : Disk} (h : Ext d l.disk) (s : Session) (old new : Option Bytes) :
    Onto (setPin e (l.on d) s old new) (setPin e l s old new) := by
  cases old with
  | none => quiet h
  | some old =>
    cases new with
    | none => quiet h
    | some new =>
      unfold setPin
      dsimp only
      rw [sessState_on, on_token]
      split
      · quiet h
      split
      · quiet h
      cases sessState l s with
      | rwSo =>
        dsimp only
        split
        · quiet h
        · quiet h
        · exact (onto_soPin h new).pin
      | rwUser =>
        dsimp only
        split
        · quiet h
        · quiet h
        · exact (onto_userPin h new).pin
      | rwPublic =>
        dsimp only
        split
        · quiet h
        · quiet h
        · exact (onto_userPin h new).pin
      | roPublic => quiet h
      | roUser => quiet h

theorem onto_initToken {l : Lib} {d : Disk} (h : Ext d l.disk) (pin label : Option Bytes) :
    Onto (initToken e (l.on d) pin label) (initToken e l pin label) := by
  unfold initToken
  try dsimp only
  try rw [on_sessions]
  try rw [on_token]
  repeat' split
  all_goals first
    | quiet h
    | exact (onto_soPin (l := { l with token := { label := labelOf _, init := true } }) h _).pin

theorem onto_close {l : Lib} {d : Disk} (h : Ext d l.disk) (k : Nat) : Onto (closeSession e (l.on d) k) (closeSession e l k) := by
  unfold closeSession
  try dsimp only
  try rw [on_sessions]
  split
  all_goals quiet h

theorem onto_add {l : Lib} {d : Disk} (h : Ext d l.disk) (s : Session) (on : Nat) (o : Obj) :
    Onto (sessAddObject e (l.on d) s on o) (sessAddObject e l s on o) := by
  unfold sessAddObject
  try dsimp only
  try rw [on_token]
  try rw [on_uid]
  repeat' split
  all_goals first
    | quiet h
    | exact ⟨_, h.puts (storeToken e.store _ _).wr, rfl⟩

theorem onto_addObject {l : Lib} {d : Disk} (h : Ext d l.disk) (s : Session) (t : List Entry) (o : Obj) :
    Onto (addObject e (l.on d) s t o) (addObject e l s t o) := by
  unfold addObject
  split
  · quiet h
  rename_i on _
  obtain ⟨d', h1, h2⟩ := onto_add (e := e) h s on o
  rw [h2]
  generalize sessAddObject e l s on o = r at h1
  obtain ⟨r1, r2⟩ := r
  cases r2 <;> exact ⟨d', h1, rfl⟩

theorem onto_addPair {l : Lib} {d : Disk} (h : Ext d l.disk) (s : Session) (tp tq : List Entry) (p q : Obj) :
    Onto (addPair e (l.on d) s tp tq p q) (addPair e l s tp tq p q) := by
  unfold addPair
  obtain ⟨d', h1, h2⟩ := onto_addObject (e := e) h s tp p
  rw [h2]
  generalize addObject e l s tp p = r at h1
  obtain ⟨r1, r2⟩ := r
  dsimp only at h1 ⊢
  rw [on_sessions]
  split
  · exact ⟨d', h1, rfl⟩
  cases r1.sessions.find? fun t => t.handle == s.handle with
  | none => exact ⟨d', h1, rfl⟩
  | some s1 =>
    dsimp only
    obtain ⟨d2, i1, i2⟩ := onto_addObject (e := e) h1 s1 tq q
    rw [i2]
    generalize addObject e r1 s1 tq q = r3 at i1
    obtain ⟨r3, r4⟩ := r3
    dsimp only at i1 ⊢
    split
    · exact ⟨d2, i1, rfl⟩
    · exact ⟨d2, i1, rfl⟩

theorem onto_create {l : Lib} {d : Disk} (h : Ext d l.disk) (s : Session) (t : Option (List Entry)) (ptr : Bool) :
    Onto (cCreate e (l.on d) s t ptr) (cCreate e l s t ptr) := by
  unfold cCreate
  repeat' split
  all_goals first | quiet h | exact onto_addObject h ..

theorem onto_copy {l : Lib} {d : Disk} (h : Ext d l.disk) (s : Session) (k : Nat) (t : Option (List Entry)) (ptr : Bool) :
    Onto (cCopy e (l.on d) s k t ptr) (cCopy e l s k t ptr) := by
  unfold cCopy
  cases t with
  | none => quiet h
  | some t =>
    dsimp only
    split
    · quiet h
    split
    · quiet h
    rw [findObj_on]
    cases findObj l s k with
    | none => quiet h
    | some o =>
      dsimp only
      cases tokenByte t 0 with
      | error rv => quiet h
      | ok on =>
        dsimp only
        split
        · quiet h
        split
        · quiet h
        generalize (setAttributeValue e.key true (newObj 0 o.typ) (getAttributeValue e.key o t).2).2 = n
        obtain ⟨d', h1, h2⟩ := onto_add (e := e) h s on n
        rw [h2]
        generalize sessAddObject e l s on n = r at h1
        obtain ⟨r1, r2⟩ := r
        cases r2 <;> exact ⟨d', h1, rfl⟩

theorem onto_remove {l : Lib} {d : Disk} (h : Ext d l.disk) (o : Obj) (r : Resp) :
    Onto (removeToken e (l.on d) o, r) (removeToken e l o, r) := by
  unfold removeToken
  dsimp only
  rw [on_token, on_disk]
  have h' := h.puts (unstore o ((l.token.objs.dropWhile fun p => p.uid != o.uid).length - 1))
  obtain ⟨d', h1, h2⟩ := onto_store (e := e) (l := { l with
    token := { l.token with objs := l.token.objs.filter fun p => p.uid != o.uid }
    disk := l.disk.puts (unstore o ((l.token.objs.dropWhile fun p => p.uid != o.uid).length - 1)) }) h'
  exact ⟨d', h1, congrArg (fun x => (x.1, r)) h2⟩

theorem onto_destroy {l : Lib} {d : Disk} (h : Ext d l.disk) (s : Session) (k : Nat) :
    Onto (cDestroy e (l.on d) s k) (cDestroy e l s k) := by
  unfold cDestroy
  try dsimp only
  try rw [findObj_on]
  repeat' split
  all_goals first | quiet h | exact onto_remove h ..

theorem onto_setAttr {l : Lib} {d : Disk} (h : Ext d l.disk) (s : Session) (k : Nat) (t : Option (List Entry)) :
    Onto (cSetAttr e (l.on d) s k t) (cSetAttr e l s k t) := by
  unfold cSetAttr putObj
  try dsimp only
  try rw [findObj_on]
  try rw [on_token]
  repeat' split
  all_goals quiet h

theorem onto_getAttr {l : Lib} {d : Disk} (h : Ext d l.disk) (s : Session) (k : Nat) (t : Option (List Entry)) :
    Onto (cGetAttr e (l.on d) s k t) (cGetAttr e l s k t) := by
  unfold cGetAttr
  try dsimp only
  try rw [findObj_on]
  try rw [on_token]
  repeat' split
  all_goals quiet h

theorem onto_findInit {l : Lib} {d : Disk} (h : Ext d l.disk) (s : Session) (t : Option (List Entry)) :
    Onto (cFindInit e (l.on d) s t) (cFindInit e l s t) := by
  unfold cFindInit
  try dsimp only
  try rw [on_token]
  repeat' split
  all_goals quiet h

theorem onto_cryptInit {l : Lib} {d : Disk} (h : Ext d l.disk) (s : Session) (k : Kind) (m : Option (Mech × MechParam)) (key : Nat) :
    Onto (cCryptInit e (l.on d) s k m key) (cCryptInit e l s k m key) := by
  unfold cCryptInit
  try dsimp only
  try rw [findObj_on]
  repeat' split
  all_goals quiet h

theorem onto_crypt {l : Lib} {d : Disk} (h : Ext d l.disk) (s : Session) (c : DataCall) :
    Onto (cCrypt e (l.on d) s c) (cCrypt e l s c) := by
  unfold cCrypt
  try dsimp only
  try rw [currKey_on]
  repeat' split
  all_goals quiet h

theorem onto_genKey {l : Lib} {d : Disk} (h : Ext d l.disk) (s : Session) (m : Option (Mech × MechParam)) (t : Option (List Entry))
    (ptr : Bool) : Onto (cGenKey e (l.on d) s m t ptr) (cGenKey e l s m t ptr) := by
  unfold cGenKey
  try dsimp only
  try rw [on_rng]
  repeat' split
  all_goals first | quiet h | exact onto_addObject (l := { l with rng := l.rng + 1 }) h ..

theorem onto_genPair {l : Lib} {d : Disk} (h : Ext d l.disk) (s : Session) (m : Option (Mech × MechParam))
    (tp tq : Option (List Entry)) (ptr : Bool) : Onto (cGenPair e (l.on d) s m tp tq ptr) (cGenPair e l s m tp tq ptr) := by
  unfold cGenPair
  try dsimp only
  try rw [on_rng]
  repeat' split
  all_goals first | quiet h | exact onto_addPair (l := { l with rng := l.rng + 1 }) h ..

theorem onto_wrap {l : Lib} {d : Disk} (h : Ext d l.disk) (s : Session) (m : Option (Mech × MechParam)) (wk key : Nat) (ob : OutBuf) :
    Onto (cWrap e (l.on d) s m wk key ob) (cWrap e l s m wk key ob) := by
  unfold cWrap
  try dsimp only
  repeat rw [findObj_on]
  repeat' split
  all_goals quiet h

theorem onto_addRsa {l : Lib} {d : Disk} (h : Ext d l.disk) (s : Session) (t : List Entry) (der : Bytes) :
    Onto (addRsaPrivate e (l.on d) s t der) (addRsaPrivate e l s t der) := by
  unfold addRsaPrivate
  split
  · split
    · quiet h
    · obtain ⟨d', h1, h2⟩ := onto_addObject (e := e) h s t _
      exact ⟨d', h1, by dsimp only; rw [h2]⟩
  · quiet h

theorem onto_unwrap {l : Lib} {d : Disk} (h : Ext d l.disk) (s : Session) (m : Option (Mech × MechParam)) (wk : Nat)
    (data : Option Bytes) (t : Option (List Entry)) (ptr : Bool) :
    Onto (cUnwrap e (l.on d) s m wk data t ptr) (cUnwrap e l s m wk data t ptr) := by
  unfold cUnwrap
  try dsimp only
  try rw [findObj_on]
  repeat' split
  all_goals first | quiet h | exact onto_addRsa (l := Lib.upd l _ _) h ..

theorem onto_derive {l : Lib} {d : Disk} (h : Ext d l.disk) (s : Session) (m : Option DeriveMech) (base : Nat)
    (t : Option (List Entry)) (ptr : Bool) : Onto (cDerive e (l.on d) s m base t ptr) (cDerive e l s m base t ptr) := by
  unfold cDerive
  try dsimp only
  try rw [findObj_on]
  repeat' split
  all_goals first | quiet h | exact onto_addObject h ..

theorem onto_sessCall {l : Lib} {d : Disk} (h : Ext d l.disk) (s : Session) (c : SessCall) :
    Onto (sessCall e (l.on d) s c) (sessCall e l s c) := by
  cases c with
  | close => exact onto_close h ..
  | info ptr => dsimp only [sessCall]; split <;> quiet h
  | login u pin now => exact onto_login h ..
  | logout => quiet h
  | initPin pin => exact onto_initPin h ..
  | setPin old new => exact onto_setPin h ..
  | create t ptr => exact onto_create h ..
  | copy o t ptr => exact onto_copy h ..
  | destroy o => exact onto_destroy h ..
  | size o ptr => dsimp only [sessCall]; split <;> quiet h
  | getAttr o t => exact onto_getAttr h ..
  | setAttr o t => exact onto_setAttr h ..
  | findInit t => exact onto_findInit h ..
  | findNext ptr max => dsimp only [sessCall, cFindNext]; split <;> quiet h
  | findFinal => quiet h
  | cryptInit k m key => exact onto_cryptInit h ..
  | crypt c => exact onto_crypt h ..
  | genKey m t ptr => exact onto_genKey h ..
  | genPair m tp tq ptrs => exact onto_genPair h ..
  | wrap m wk key ob => exact onto_wrap h ..
  | unwrap m wk d t ptr => exact onto_unwrap h ..
  | derive m base t ptr => exact onto_derive h ..
  | random ptr len =>
    dsimp only [sessCall, cRandom]
    repeat' split
    all_goals quiet h

theorem onto_slotCall {l : Lib} {d : Disk} (h : Ext d l.disk) (c : SlotCall) : Onto (slotCall e (l.on d) c) (slotCall e l c) := by
  cases c with
  | tokenInfo ptr now => dsimp only [slotCall]; split <;> quiet h
  | initToken pin label => exact onto_initToken h ..
  | openSession rw' serial ptr =>
    dsimp only [slotCall, openSession]
    rw [on_token, on_sessions]
    repeat' split
    all_goals quiet h
  | closeAll => quiet h

theorem loadObj_ext {x : StoreExt} {d d' : Disk} (h : Ext d d') {o o1 : Obj} {i : Nat} (h1 : loadObj x d' o i = some o1) :
    loadObj x d o i = some o1 := by
  have key : ∀ {α : Type} (f : FName) (r : Rd α) (v : α), readFile d' f r = some v → readFile d f r = some v := by
    intro α f r v hv
    unfold readFile at hv ⊢
    have : d' f ≠ none := fun hn => by rw [hn] at hv; cases hv
    rw [h f this]
    exact hv
  unfold loadObj at h1 ⊢
  cases ho : readFile d' (.object, i) (rdObject o) with
  | none => rw [ho] at h1; cases h1
  | some o2 =>
    rw [ho] at h1
    rw [key _ _ _ ho]
    dsimp only [Option.bind] at h1 ⊢
    split at h1
    · cases h1
    · rename_i f hf
      split at h1
      · rename_i hc
        rw [if_pos hc]
        cases hr : readFile d' (f, i) rdDhFile with
        | none => rw [hr] at h1; cases h1
        | some r => rw [hr] at h1; rw [key _ _ _ hr]; exact h1
      · rename_i hc
        rw [if_neg hc]
        cases hr : readFile d' (f, i) Rd.allocArray with
        | none => rw [hr] at h1; cases h1
        | some r => rw [hr] at h1; rw [key _ _ _ hr]; exact h1

theorem loadObjs_ext {x : StoreExt} {d d' : Disk} (h : Ext d d') {ts : List Nat} {u : Nat} {os : List Obj}
    (h1 : loadObjs x d' u ts = some os) : loadObjs x d u ts = some os := by
  induction ts generalizing u os with
  | nil => exact h1
  | cons t ts ih =>
    unfold loadObjs at h1 ⊢
    cases ho : loadObj x d' (newObj u t) ts.length with
    | none => rw [ho] at h1; cases h1
    | some o =>
      rw [ho] at h1
      rw [loadObj_ext h ho]
      dsimp only [Option.bind] at h1 ⊢
      cases hr : loadObjs x d' (u + 1) ts with
      | none => rw [hr] at h1; cases h1
      | some os' => rw [hr] at h1; rw [ih hr]; exact h1

/-- What `C_Initialize` loads does not depend on further files, if the files of the token are all there. -/
theorem load_ext {l : Lib} {d : Disk} (h : Ext d l.disk) (ht : l.disk (.token, 0) ≠ none) (hr : Readable e l) :
    loadToken e.store d l.uid = loadToken e.store l.disk l.uid := by
  rcases hr with hn | ⟨b, r, rest, os, h1, h2, h3⟩
  · exact absurd hn ht
  unfold loadToken
  rw [h _ ht, h1]
  dsimp only
  rw [h2]
  dsimp only
  rw [h3, loadObjs_ext h h3]

theorem puts_keeps {d : Disk} {ws : List Write} {f : FName} (h : d f ≠ none) : d.puts ws f ≠ none := by
  unfold Disk.puts
  induction ws generalizing d with
  | nil => exact h
  | cons w ws ih =>
    refine ih ?_
    unfold Disk.put
    split
    · exact Option.some_ne_none _
    · exact h

theorem onto_final {l : Lib} {d : Disk} (h : Ext d l.disk) : Onto (cFinalize e (l.on d)) (cFinalize e l) := by
  unfold cFinalize
  dsimp only
  rw [on_count]
  split
  · exact ⟨_, h.puts (storeToken e.store l.rng l.token).wr, rfl⟩
  · quiet h

theorem onto_init {l : Lib} {d : Disk} (h : Ext d l.disk) (hl : loadToken e.store d l.uid = loadToken e.store l.disk l.uid) :
    Onto (cInitialize e (l.on d)) (cInitialize e l) := by
  unfold cInitialize
  dsimp only
  rw [on_count, on_uid, on_disk, hl]
  split
  all_goals quiet h

theorem onto_body {l : Lib} {d : Disk} (h : Ext d l.disk) (c : Call)
    (hl : c = .cInit → loadToken e.store d l.uid = loadToken e.store l.disk l.uid) : Onto (callBody e (l.on d) c) (callBody e l c) := by
  cases c with
  | cInit => exact onto_init h (hl rfl)
  | cFinal => exact onto_final h
  | slot id c =>
    dsimp only [callBody]
    rw [on_count]
    split
    · quiet h
    split
    · quiet h
    · exact onto_slotCall h c
  | sess k c =>
    dsimp only [callBody]
    rw [on_count, getSession_on]
    split
    · quiet h
    cases getSession l k with
    | none => quiet h
    | some s => exact onto_sessCall h s c

theorem onto_step {l : Lib} {d : Disk} (h : Ext d l.disk) (c : Call)
    (hl : c = .cInit → loadToken e.store d l.uid = loadToken e.store l.disk l.uid) : Onto (step e (l.on d) c) (step e l c) := by
  unfold step
  rw [on_bad]
  split
  · quiet h
  obtain ⟨d', h1, h2⟩ := onto_body (e := e) h c hl
  rw [h2]
  dsimp only
  split
  · exact ⟨d', h1, rfl⟩
  · exact ⟨d', h1, rfl⟩

end Verif
