import Verif.Props.Reload
import Verif.Proofs.Isolated
import Verif.Proofs.KeyInv
import Verif.Spec.KeyKept

/-!
# A key of the token through logouts, logins and restarts
-/

namespace Verif

variable {e : Env}

/-! ## Objects -/

/-- `q` keeps what `ov` shows: the same object, the key perhaps only in its kept form. -/
def Shut (x : StoreExt) (key : Bytes) (ov q : Obj) : Prop :=
  ∃ p : Obj, p.shown = ov ∧ p.IsKey ∧ p.KeptUnder x key ∧ (∃ d b, q = { p with data := d, encoded := b }) ∧
    (p.typ = CKK_DH → q.dh.p = p.dh.p ∧ q.dh.g = p.dh.g)

theorem Shut.handle {x : StoreExt} {key : Bytes} {ov q : Obj} (h : Shut x key ov q) : q.handle = ov.handle := by
  obtain ⟨p, rfl, _, _, ⟨d, b, rfl⟩, _⟩ := h
  rfl

theorem Shut.keyData {x : StoreExt} {key : Bytes} {ov q : Obj} (h : Shut x key ov q) : ∃ c, q.keyData = some c := by
  obtain ⟨p, _, _, ⟨c, _, hc⟩, ⟨d, b, rfl⟩, _⟩ := h
  exact ⟨c, hc⟩

/-- Decoding with the key. -/
theorem Shut.decode {x : StoreExt} (hx : StoreLaws x) {key : Bytes} {ov q : Obj} (h : Shut x key ov q) :
    ∃ q', decodeObj x key q = (.ok, q') ∧ q'.shown = ov ∧ Shut x key ov q' := by
  obtain ⟨p, hp, h1, h2, ⟨d, b, hq⟩, h3⟩ := h
  refine ⟨_, decodeObj_kept hx h1 h2 (by rw [hq]) (by rw [hq]) (by rw [hq]) (by rw [hq]) h3, ?_, ?_⟩
  · rw [hq, ← hp]; rfl
  · refine ⟨p, hp, h1, h2, ⟨p.data, false, by rw [hq]⟩, fun ht => ?_⟩
    rw [hq]
    exact ⟨rfl, rfl⟩

/-- Encoding and clearing. -/
theorem Shut.of_encode {x : StoreExt} {key : Bytes} {o : Obj} (h1 : o.IsKey) (h2 : (o.keyBytes x).isSome) :
    Shut x key o.shown (cleared (o.sealUnder x key)) := by
  obtain ⟨b, hb⟩ := Option.isSome_iff_exists.mp h2
  have hs : o.sealedKey x key = some (if o.isSecret then x.aeadEnc key o.iv b else b) := by
    unfold Obj.sealedKey; rw [hb]; rfl
  have he : o.sealUnder x key = { o with keyData := o.sealedKey x key } := if_neg h1.1
  obtain ⟨d, b', h3, h4⟩ := cleared_eq (o.sealUnder x key)
  rw [he] at h3 h4 ⊢
  exact ⟨{ o with keyData := o.sealedKey x key }, rfl, h1, ⟨_, hs, hs⟩, ⟨d, b', h3⟩, h4⟩

/-- Loading after storing. -/
theorem Shut.reload {x : StoreExt} {key : Bytes} {ov q : Obj} (h : Shut x key ov q) (u : Nat) :
    Shut x key ov (q.reloaded u) := by
  obtain ⟨p, hp, h1, h2, ⟨d, b, hq⟩, h3⟩ := h
  refine ⟨{ p with uid := u, size := 0 }, hp, h1, h2, ?_, ?_⟩
  · rw [hq]
    exact ⟨_, _, rfl⟩
  · intro ht
    have ht : p.typ = CKK_DH := ht
    have : q.typ = CKK_DH := by rw [hq]; exact ht
    unfold Obj.reloaded
    rw [if_pos this]
    exact h3 ht

/-- Storing leaves it as it is. -/
theorem storeObj_unchanged (x : StoreExt) (k : Bytes) (r : Nat) {o : Obj} {c : Bytes} (h : o.keyData = some c) (i : Nat) :
    (storeObj x k r o i).obj = o := by
  have hiv : needsIv o = false := by simp [needsIv, h]
  have hn : o.keyData.isNone = false := by simp [h]
  unfold storeObj
  simp only [hiv, Bool.false_eq_true, if_false, hn]
  repeat' split
  all_goals rfl

theorem shown_of_view {o p : Obj} (h : o.view = p.view) : o.shown = p.shown := by
  have h1 : ∀ q : Obj, q.shown = ({ q.view with uid := 0, size := 0, encoded := false, iv := [], keyData := none } : Obj) := fun _ => rfl
  rw [h1, h1, h]

/-! ## The token's list -/

/-- The list has an object with the property. -/
def Somewhere (P : Obj → Prop) (os : List Obj) : Prop := ∃ o ∈ os, P o

/-- A property of the object with handle `k` that storing keeps. -/
structure StoreStable (x : StoreExt) (k : Nat) (P : Obj → Prop) : Prop where
  store : ∀ key r o i, P o → P (storeObj x key r o i).obj
  handle : ∀ o, P o → o.handle = k

theorem stable_shown (x : StoreExt) (ov : Obj) : StoreStable x ov.handle (fun o => o.shown = ov) where
  store := fun key r o i h => (shown_of_view (storeObj_view x key r o i)).trans h
  handle := fun o h => by rw [← h]; rfl

theorem stable_shut (x : StoreExt) (key : Bytes) (ov : Obj) : StoreStable x ov.handle (Shut x key ov) where
  store := fun k r o i h => by
    obtain ⟨c, hc⟩ := h.keyData
    rw [storeObj_unchanged x k r hc]; exact h
  handle := fun _ h => h.handle

/-- An object with the property stays in the token's list. -/
structure Carries (P : Obj → Prop) (l l' : Lib) : Prop where
  go : Somewhere P l.token.objs → Somewhere P l'.token.objs

variable {k : Nat} {P : Obj → Prop}

theorem Carries.same {l l' : Lib} (h : l'.token.objs = l.token.objs) : Carries P l l' := by
  constructor; rw [h]; exact id

theorem Carries.refl (l : Lib) : Carries P l l := ⟨id⟩

theorem Carries.trans {a b c : Lib} (h1 : Carries P a b) (h2 : Carries P b c) : Carries P a c := ⟨fun h => h2.go (h1.go h)⟩

theorem StoreStable.objs (hP : StoreStable e.store k P) (key : Bytes) (r : Nat) {os : List Obj} (h : Somewhere P os) :
    Somewhere P (storeObjs e.store key r os).2.1 := by
  induction os generalizing r with
  | nil => exact h
  | cons o os ih =>
    obtain ⟨p, hp, hpp⟩ := h
    simp only [storeObjs]
    rcases List.mem_cons.mp hp with rfl | hp
    · split
      · exact ⟨_, List.mem_cons_self, hP.store _ _ _ _ hpp⟩
      · exact ⟨_, List.mem_cons_self, hP.store _ _ _ _ hpp⟩
    · split
      · obtain ⟨q, hq, hqq⟩ := ih (storeObj e.store key r o os.length).rng ⟨p, hp, hpp⟩
        exact ⟨q, List.mem_cons_of_mem _ hq, hqq⟩
      · exact ⟨p, List.mem_cons_of_mem _ hp, hpp⟩

theorem StoreStable.lib (hP : StoreStable e.store k P) (l : Lib) : Carries P l (Lib.store e l).1 := ⟨fun h => hP.objs _ _ h⟩

theorem StoreStable.sessAdd (hP : StoreStable e.store k P) (l : Lib) (s : Session) (on : Nat) (o : Obj) :
    Carries P l (sessAddObject e l s on o).1 := by
  unfold sessAddObject
  dsimp only
  repeat' split
  all_goals first
    | exact .refl l
    | exact .same rfl
    | (refine Carries.trans (b := { l with uid := l.uid + 1, token := { l.token with objs := _ :: l.token.objs } }) ?_ (hP.lib _)
       constructor; rintro ⟨p, hp, hpp⟩; exact ⟨p, List.mem_cons_of_mem _ hp, hpp⟩)

theorem StoreStable.add_eq (hP : StoreStable e.store k P) {l l' : Lib} {s : Session} {on : Nat} {o : Obj} {r : Option Nat}
    (he : sessAddObject e l s on o = (l', r)) : Carries P l l' := by
  have := hP.sessAdd l s on o
  rwa [he] at this

theorem StoreStable.add (hP : StoreStable e.store k P) (l : Lib) (s : Session) (t : List Entry) (o : Obj) :
    Carries P l (addObject e l s t o).1 := by
  unfold addObject
  split
  · exact .refl l
  · split <;> rename_i heq <;> exact hP.add_eq heq

theorem StoreStable.addPair (hP : StoreStable e.store k P) (l : Lib) (s : Session) (tp tq : List Entry) (a b : Obj) :
    Carries P l (addPair e l s tp tq a b).1 := by
  have h1 := hP.add l s tp a
  unfold Verif.addPair
  dsimp only
  split
  · exact h1
  split
  · exact h1
  rename_i s1 _
  have h2 := hP.add (addObject e l s tp a).1 s1 tq b
  split
  · exact h1.trans (h2.trans (.same rfl))
  · exact h1.trans h2

theorem StoreStable.unwrap (hP : StoreStable e.store k P) (l : Lib) (s : Session) (m : Option (Mech × MechParam)) (wk : Nat)
    (d : Option Bytes) (t : Option (List Entry)) (p : Bool) : Carries P l (cUnwrap e l s m wk d t p).1 := by
  have h1 : ∀ (l : Lib) (t : List Entry) (d : Bytes), Carries P l (addRsaPrivate e l s t d).1 := by
    intro l t d
    unfold addRsaPrivate
    repeat' split
    all_goals first | exact .refl _ | exact hP.add ..
  unfold cUnwrap
  dsimp only
  repeat' split
  all_goals first
    | exact .refl _
    | exact .same rfl
    | exact Carries.trans (b := l.upd _ _) (.same rfl) (h1 ..)

theorem StoreStable.other (hP : StoreStable e.store k P) {l : Lib} (hp : l.PopA) {o p : Obj} (ho : o ∈ l.token.objs)
    (hq : p ∈ l.token.objs) (hpp : P p) (hk : o.handle ≠ k) : p.uid ≠ o.uid := by
  intro hu
  have := uid_inj hp.uidOk.1 hq ho hu
  rw [← this] at hk
  exact hk (hP.handle p hpp)

theorem StoreStable.destroy (hP : StoreStable e.store k P) {l : Lib} (hp : l.PopA) (s : Session) {i : Nat} (hi : i ≠ k) :
    Carries P l (cDestroy e l s i).1 := by
  unfold cDestroy removeToken
  split; · exact .refl l
  split; · exact .refl l
  rename_i o hf
  obtain ⟨h1, h2, h3⟩ := findObj_parts hf
  split
  · rename_i ht
    split
    · dsimp only
      refine Carries.trans ?_ (hP.lib _)
      constructor
      rintro ⟨p, hq, hpp⟩
      have := hP.other hp (h2 ht) hq hpp (by rw [h1]; exact hi)
      exact ⟨p, List.mem_filter.mpr ⟨hq, by simpa using this⟩, hpp⟩
    · exact .same rfl
  · exact .same rfl

theorem StoreStable.setAttr (hP : StoreStable e.store k P) {l : Lib} (hp : l.PopA) (s : Session) {i : Nat} (hi : i ≠ k)
    (t : Option (List Entry)) : Carries P l (cSetAttr e l s i t).1 := by
  unfold cSetAttr putObj
  split; · exact .refl l
  rename_i t
  split; · exact .refl l
  split; · exact .refl l
  rename_i o hf
  obtain ⟨h1, h2, h3⟩ := findObj_parts hf
  have hu : (setAttributeValue e.key true o t).2.uid = o.uid :=
    congrArg (fun k : OKey => k.2.1) (setAttributeValue_key e.key true o t).1
  dsimp only
  split
  · rename_i ht
    constructor
    rintro ⟨p, hq, hpp⟩
    have := hP.other hp (h2 ht) hq hpp (by rw [h1]; exact hi)
    refine ⟨p, ?_, hpp⟩
    unfold replObj
    exact List.mem_map.mpr ⟨p, hq, by simp only [hu, this, if_false]⟩
  · exact .same rfl

/-- A call on a session that is not about login or PINs. -/
theorem StoreStable.sessCall (hP : StoreStable e.store k P) {l : Lib} (hp : l.PopA) (s : Session) {c : SessCall}
    (hc : c.isAccount = false) (h1 : ∀ i, c = .destroy i → i ≠ k) (h2 : ∀ i t, c = .setAttr i t → i ≠ k) :
    Carries P l (sessCall e l s c).1 := by
  cases c with
  | close => cases hc
  | info p => simp only [Verif.sessCall]; split <;> exact .refl _
  | login u p n => cases hc
  | logout => cases hc
  | initPin p => cases hc
  | setPin o n => cases hc
  | create t p =>
    simp only [Verif.sessCall, cCreate]
    repeat' split
    all_goals first | exact .refl _ | exact hP.add ..
  | copy o t p =>
    simp only [Verif.sessCall, cCopy]
    repeat' split
    all_goals first | exact .refl _ | (rename_i heq; exact hP.add_eq heq)
  | destroy o => exact hP.destroy hp s (h1 o rfl)
  | size o p =>
    simp only [Verif.sessCall]
    repeat' split
    all_goals exact .refl _
  | getAttr o t =>
    simp only [Verif.sessCall, cGetAttr]
    repeat' split
    all_goals exact .refl _
  | setAttr o t => exact hP.setAttr hp s (h2 o t rfl) t
  | findInit t =>
    simp only [Verif.sessCall, cFindInit]
    repeat' split
    all_goals exact .same rfl
  | findNext p n =>
    simp only [Verif.sessCall, cFindNext]
    repeat' split
    all_goals exact .same rfl
  | findFinal => exact .same rfl
  | cryptInit k m key =>
    simp only [Verif.sessCall, cCryptInit]
    repeat' split
    all_goals exact .same rfl
  | crypt d =>
    simp only [Verif.sessCall, cCrypt]
    repeat' split
    all_goals exact .same rfl
  | genKey m t p =>
    simp only [Verif.sessCall, cGenKey]
    repeat' split
    all_goals first | exact .refl _ | exact Carries.trans (b := { l with rng := l.rng + 1 }) (.same rfl) (hP.add ..)
  | genPair m a b p =>
    simp only [Verif.sessCall, cGenPair]
    repeat' split
    all_goals first | exact .refl _ | exact .same rfl | exact Carries.trans (b := { l with rng := l.rng + 1 }) (.same rfl) (hP.addPair ..)
  | wrap m a b o =>
    simp only [Verif.sessCall, cWrap]
    repeat' split
    all_goals exact .same rfl
  | unwrap m w d t p => exact hP.unwrap l s m w d t p
  | derive m b t p =>
    simp only [Verif.sessCall, cDerive]
    repeat' split
    all_goals first | exact .refl _ | exact hP.add ..
  | random p n =>
    simp only [Verif.sessCall, cRandom]; repeat' split
    all_goals exact .same rfl

/-! ## Decoding the list -/

theorem decodeAll_shut (hx : StoreLaws e.store) {key : Bytes} {ov : Obj} {os : List Obj}
    (h : Somewhere (Shut e.store key ov) os) :
    Somewhere (Shut e.store key ov) (decodeAll e.store key os).2 ∧
    ((decodeAll e.store key os).1 = .ok → Somewhere (fun o => o.shown = ov) (decodeAll e.store key os).2) := by
  induction os with
  | nil => obtain ⟨p, hp, _⟩ := h; cases hp
  | cons o os ih =>
    obtain ⟨p, hp, hpp⟩ := h
    simp only [decodeAll]
    rcases List.mem_cons.mp hp with rfl | hp
    · obtain ⟨q', h1, h2, h3⟩ := hpp.decode hx
      rw [if_pos (by rw [h1])]
      dsimp only
      rw [h1]
      exact ⟨⟨q', List.mem_cons_self, h3⟩, fun _ => ⟨q', List.mem_cons_self, h2⟩⟩
    · split
      · obtain ⟨⟨q, g1, g2⟩, g3⟩ := ih ⟨p, hp, hpp⟩
        refine ⟨⟨q, List.mem_cons_of_mem _ g1, g2⟩, fun hok => ?_⟩
        obtain ⟨q', g4, g5⟩ := g3 hok
        exact ⟨q', List.mem_cons_of_mem _ g4, g5⟩
      · rename_i hne
        exact ⟨⟨p, List.mem_cons_of_mem _ hp, hpp⟩, fun hok => absurd hok hne⟩

/-! ## The token -/

/-- The token of a library where the user is logged in: the object is there. -/
def Openly (ov : Obj) (t : Token) : Prop := Somewhere (fun o => o.shown = ov) t.objs

/-- The token of a library where the user is not: the object is there, its key kept under a
PIN of the user. -/
def Closedly (e : Env) (ov : Obj) (t : Token) : Prop :=
  ∃ q, pinLenOk q = true ∧ Matches e t.user q ∧ Somewhere (Shut e.store (e.store.hash q t.seed) ov) t.objs

/-- Wherever the library is in its life, the key is not lost. -/
def NotLost (e : Env) (ov : Obj) (l : Lib) : Prop :=
  if 0 < l.count then (if l.token.login = .user then Openly ov l.token else Closedly e ov l.token)
  else ∀ u, Closedly e ov (loadToken e.store l.disk u)

theorem NotLost.user {ov : Obj} {l : Lib} (h1 : 0 < l.count) (h2 : l.token.login = .user) :
    NotLost e ov l ↔ Openly ov l.token := by
  unfold NotLost; rw [if_pos h1, if_pos h2]

theorem NotLost.away {ov : Obj} {l : Lib} (h1 : 0 < l.count) (h2 : l.token.login ≠ .user) :
    NotLost e ov l ↔ Closedly e ov l.token := by
  unfold NotLost; rw [if_pos h1, if_neg h2]

theorem NotLost.off {ov : Obj} {l : Lib} (h1 : ¬ 0 < l.count) :
    NotLost e ov l ↔ ∀ u, Closedly e ov (loadToken e.store l.disk u) := by
  unfold NotLost; rw [if_neg h1]

/-- The account and the seed stay, and so does the object. -/
theorem NotLost.frame {ov : Obj} {l l' : Lib} (h : NotLost e ov l) (hc : 0 < l.count) (hc' : l'.count = l.count)
    (h1 : l'.token.login = l.token.login) (h2 : SamePin l.token.user l'.token.user) (h3 : l'.token.seed = l.token.seed)
    (h4 : ∀ P, StoreStable e.store ov.handle P → Carries P l l') : NotLost e ov l' := by
  by_cases hu : l.token.login = .user
  · exact (NotLost.user (by rw [hc']; exact hc) (h1.trans hu)).mpr ((h4 _ (stable_shown _ ov)).go ((NotLost.user hc hu).mp h))
  · obtain ⟨q, g1, g2, g3⟩ := (NotLost.away hc hu).mp h
    refine (NotLost.away (by rw [hc']; exact hc) (by rw [h1]; exact hu)).mpr ⟨q, g1, (matches_same h2 q).mpr g2, ?_⟩
    rw [h3]
    exact (h4 _ (stable_shut _ _ ov)).go g3

/-- Logging out. -/
theorem NotLost.logout {ov : Obj} (hcert : ov.cls ≠ CKO_CERTIFICATE) {l : Lib} (h : NotLost e ov l) (hK : KInv e l)
    (hc : 0 < l.count) (henc : l.token.login = .user → AllEncodable e l) : NotLost e ov (logout e l) := by
  by_cases hu : l.token.login = .user
  · obtain ⟨o, ho, hov⟩ := (NotLost.user hc hu).mp h
    obtain ⟨q, k1, k2, k3⟩ := hK hu
    refine (NotLost.away (l := Verif.logout e l) hc (by rw [show (Verif.logout e l).token.login = .pub from rfl]; decide)).mpr ⟨q, k1, k2, ?_⟩
    have hobjs : (Verif.logout e l).token.objs = encodeAll e.store l.token.key l.token.objs := if_pos hu
    have henc : ∀ o ∈ l.token.objs, o.Keepable e.store := henc hu
    rw [hobjs, encodeAll_keepable henc]
    have hcls : o.cls ≠ CKO_CERTIFICATE := by
      intro hx; apply hcert; rw [← hov]; exact hx
    rcases henc o ho with hx | ⟨i1, i2⟩
    · exact absurd hx hcls
    · refine ⟨_, List.mem_map_of_mem ho, ?_⟩
      simp only [if_neg hcls]
      rw [← hov, show (Verif.logout e l).token.seed = l.token.seed from rfl, ← k3]
      exact Shut.of_encode i1 i2
  · obtain ⟨q, g1, g2, g3⟩ := (NotLost.away hc hu).mp h
    refine (NotLost.away (l := Verif.logout e l) hc (by rw [show (Verif.logout e l).token.login = .pub from rfl]; decide)).mpr ⟨q, g1, g2, ?_⟩
    have hobjs : (Verif.logout e l).token.objs = l.token.objs := if_neg hu
    rw [hobjs]
    exact g3

/-- The user tries to log in. -/
theorem NotLost.userLogin (hx : StoreLaws e.store) {ov : Obj} {l : Lib} (h : NotLost e ov l) (hc : 0 < l.count)
    (hone : OnePin e l) {pin : Bytes} (hpin : pinLenOk pin = true) (now : Int) : NotLost e ov (userLogin e l pin now).1 := by
  unfold Verif.userLogin
  split
  · exact h
  rename_i hl
  have hl : l.token.login = .pub := by simpa using hl
  have hu : l.token.login ≠ .user := by rw [hl]; decide
  split
  · exact h
  rename_i a ha
  have ha := samePin_lockCheck ha
  obtain ⟨q, g1, g2, g3⟩ := (NotLost.away hc hu).mp h
  have mk : ∀ {l' : Lib}, l'.count = l.count → l'.token.login ≠ .user → Closedly e ov l'.token → NotLost e ov l' :=
    fun h1 h2 h3 => (NotLost.away (by rw [h1]; exact hc) h2).mpr h3
  have mkU : ∀ {l' : Lib}, l'.count = l.count → l'.token.login = .user → Openly ov l'.token → NotLost e ov l' :=
    fun h1 h2 h3 => (NotLost.user (by rw [h1]; exact hc) h2).mpr h3
  split
  · exact mk rfl hu ⟨q, g1, (matches_same ha q).mpr g2, g3⟩
  · refine mk rfl hu ⟨q, g1, ?_, g3⟩
    have h1 : SamePin l.token.user (failed a now 60) := ⟨by rw [← ha.1]; unfold failed; split <;> rfl, by rw [← ha.2]; unfold failed; split <;> rfl⟩
    exact (matches_same h1 q).mpr g2
  · rename_i hck
    have hm : Matches e a pin := by
      rcases checkPin_cases e l.token a pin with h | h | h
      · rw [hck] at h; cases h.1
      · rw [hck] at h; cases h.1
      · exact h.2.2.2
    have hm : Matches e l.token.user pin := (matches_same ha pin).mp hm
    have hlen : ∀ p, pinLenOk p = true → 4 ≤ p.length ∧ p.length ≤ 32 := by
      intro p hp; simpa [pinLenOk] using hp
    have heq : q = pin := hone q pin (hlen q g1).1 (hlen q g1).2 (hlen pin hpin).1 (hlen pin hpin).2 g2 hm
    subst heq
    have hsucc : SamePin l.token.user (succeeded a) := ⟨ha.1, ha.2⟩
    obtain ⟨d1, d2⟩ := decodeAll_shut hx g3
    dsimp only
    split
    · rename_i hok
      exact mkU rfl rfl (d2 hok)
    · exact mk rfl hu ⟨q, g1, (matches_same hsucc q).mpr g2, d1⟩
    · exact mk rfl hu ⟨q, g1, (matches_same hsucc q).mpr g2, d1⟩

/-- The last `C_Finalize`. -/
theorem NotLost.final (hx : StoreLaws e.store) {ov : Obj} {l l' : Lib} (h : NotLost e ov l) (hc : 0 < l.count)
    (hw : Writable e l) (hc' : ¬ 0 < l'.count) {r : Nat} (hd : l'.disk = l.disk.puts (storeToken e.store r l.token).wr) :
    NotLost e ov l' := by
  refine (NotLost.off hc').mpr fun u => ?_
  rw [hd, loadToken_stored hx hw.record hw.objects]
  have hre : ∀ {os : List Obj} {P : Obj → Prop} (u : Nat), (∀ o u, P o → P (o.reloaded u)) → Somewhere P os →
      Somewhere P (reloadAll u os) := by
    intro os P u hP
    induction os generalizing u with
    | nil => exact id
    | cons o os ih =>
      rintro ⟨p, hp, hpp⟩
      rcases List.mem_cons.mp hp with rfl | hp
      · exact ⟨_, List.mem_cons_self, hP _ _ hpp⟩
      · obtain ⟨q, h1, h2⟩ := ih (u + 1) ⟨p, hp, hpp⟩
        exact ⟨q, List.mem_cons_of_mem _ h1, h2⟩
  by_cases hu : l.token.login = .user
  · obtain ⟨pin, p1, p2, p3, p4⟩ := hw.current hu
    obtain ⟨o, ho, hov⟩ := (NotLost.user hc hu).mp h
    refine ⟨pin, by simp [pinLenOk, p1, p2], p3, hre u (fun _ u h => h.reload u) ⟨o, ho, ?_⟩⟩
    exact ⟨o, hov, (p4 o ho).1, (p4 o ho).2, ⟨_, _, rfl⟩, fun _ => ⟨rfl, rfl⟩⟩
  · obtain ⟨q, g1, g2, g3⟩ := (NotLost.away hc hu).mp h
    exact ⟨q, g1, g2, hre u (fun _ u h => h.reload u) g3⟩

/-- Any call that minds the key. -/
theorem NotLost.callBody (hx : StoreLaws e.store) {ov : Obj} (hcert : ov.cls ≠ CKO_CERTIFICATE)
    {l : Lib} (h : NotLost e ov l) (hcap : CapInv l) (hK : KInv e l) {c : Call} (hm : 0 < l.count → Minds e ov.handle l c) :
    NotLost e ov (callBody e l c).1 := by
  by_cases hc : 0 < l.count
  case neg =>
    have hno := (NotLost.off hc).mp h
    cases c with
    | cInit =>
      simp only [Verif.callBody, cInitialize]
      split
      · rename_i h0
        have hu : (loadToken e.store l.disk l.uid).login ≠ .user := by rw [loadToken_login]; decide
        have hpos : 0 < (cInitialize e l).1.count := by
          simp only [cInitialize, if_pos h0]; omega
        simp only [cInitialize, if_pos h0] at hpos
        exact (NotLost.away hpos hu).mpr (hno l.uid)
      · rename_i h0
        refine (NotLost.off (l := { l with count := l.count + 1 }) ?_).mpr hno
        show ¬ 0 < l.count + 1
        omega
    | cFinal =>
      simp only [Verif.callBody, cFinalize]
      rw [if_neg (by omega)]
      refine (NotLost.off (l := { l with count := l.count - 1 }) ?_).mpr hno
      show ¬ 0 < l.count - 1
      omega
    | slot id c =>
      simp only [Verif.callBody]
      rw [if_pos (by omega)]
      exact h
    | sess j c =>
      simp only [Verif.callBody]
      rw [if_pos (by omega)]
      exact h
  case pos =>
  replace hm := hm hc
  have hcn : ¬ l.count ≤ 0 := by omega
  have fr : ∀ {l' : Lib}, l'.count = l.count → l'.token = l.token → NotLost e ov l' := by
    intro l' h1 h2
    exact h.frame hc h1 (by rw [h2]) (by rw [h2]; exact ⟨rfl, rfl⟩) (by rw [h2]) (fun P _ => .same (by rw [h2]))
  cases c with
  | cInit =>
    simp only [Verif.callBody, cInitialize]
    rw [if_neg (by omega)]
    by_cases hu : l.token.login = .user
    · exact (NotLost.user (l := { l with count := l.count + 1 }) (by show 0 < l.count + 1; omega) hu).mpr ((NotLost.user hc hu).mp h)
    · exact (NotLost.away (l := { l with count := l.count + 1 }) (by show 0 < l.count + 1; omega) hu).mpr ((NotLost.away hc hu).mp h)
  | cFinal =>
    simp only [Verif.callBody, cFinalize]
    split
    · rename_i h0
      exact h.final hx hc (hm (by omega)) (r := l.rng) (by
        show ¬ 0 < l.count - 1
        omega) rfl
    · have hp : 0 < l.count - 1 := by omega
      by_cases hu : l.token.login = .user
      · exact (NotLost.user (l := { l with count := l.count - 1 }) hp hu).mpr ((NotLost.user hc hu).mp h)
      · exact (NotLost.away (l := { l with count := l.count - 1 }) hp hu).mpr ((NotLost.away hc hu).mp h)
  | slot id c =>
    simp only [Verif.callBody, if_neg hcn]
    split; · exact h
    cases c with
    | initToken p lb => exact absurd hm (by simp [Minds])
    | tokenInfo p n =>
      simp only [slotCall]
      repeat' split
      all_goals exact h
    | closeAll => exact fr rfl rfl
    | openSession rw' ser ptr =>
      simp only [slotCall, openSession]
      repeat' split
      all_goals first | exact h | exact fr rfl rfl
  | sess j c =>
    simp only [Verif.callBody, if_neg hcn]
    split; · exact h
    rename_i s hs
    cases hacc : c.isAccount with
    | false =>
      have hf := tframe_sessCall e l s c hacc
      have hcount : (sessCall e l s c).1.count = l.count :=
        (frame_sessCall e l s c (by rintro rfl; cases hacc)).count
      refine h.frame hc hcount hf.login (by rw [hf.user]; exact ⟨rfl, rfl⟩) hf.seed ?_
      intro P hP
      refine hP.sessCall hcap.pop s hacc ?_ ?_
      · rintro i rfl; exact hm
      · rintro i t rfl; exact hm
    | true =>
      cases c <;> first | (cases hacc; done) | skip
      case close =>
        simp only [sessCall, closeSession]
        split
        · exact fr rfl rfl
        · have h1 : NotLost e ov { l with sessions := closeOne l.sessions s.handle } := fr rfl rfl
          exact h1.logout hcert hK hc hm
      case login u pin now =>
        simp only [sessCall, login]
        split; · exact h
        split; · exact h
        rename_i q hp
        have hp : pinLenOk q = true := by simpa using hp
        split
        · unfold soLogin
          split; · exact h
          rename_i hl
          have hl : l.token.login = .pub := by simpa using hl
          have hu : l.token.login ≠ .user := by rw [hl]; decide
          have cl := (NotLost.away hc hu).mp h
          have mk : ∀ {l' : Lib}, l'.count = l.count → l'.token.login ≠ .user → l'.token.user = l.token.user →
              l'.token.seed = l.token.seed → l'.token.objs = l.token.objs → NotLost e ov l' := by
            intro l' h1 h2 h3 h4 h5
            refine (NotLost.away (by rw [h1]; exact hc) h2).mpr ?_
            unfold Closedly
            rw [h3, h4, h5]; exact cl
          split; · exact h
          dsimp only
          split; · exact mk rfl hu rfl rfl rfl
          split
          · exact mk rfl hu rfl rfl rfl
          · exact mk rfl hu rfl rfl rfl
          · exact mk rfl (by simp) rfl rfl rfl
        · exact h.userLogin hx hc (hm rfl) hp now
        · exact h
        · exact h
      case logout => exact h.logout hcert hK hc hm
      case initPin p =>
        simp only [sessCall]
        rcases initPin_spec e l s p with h' | ⟨_, _, h1, h2, h'⟩
        · rw [h'.1]; exact h
        · exfalso
          have hm : l.token.login ≠ .so := hm
          unfold sessState at h2
          cases hl : l.token.login with
          | so => exact hm hl
          | user => rw [hl] at h2; dsimp only at h2; split at h2 <;> cases h2
          | pub => rw [hl] at h2; dsimp only at h2; split at h2 <;> cases h2
      case setPin o n =>
        have hm : l.token.login ≠ .pub := hm
        simp only [sessCall]
        rcases setPin_spec e l s o n with h' | ⟨_, _, _, _, _, h2, ⟨_, _, h'⟩ | ⟨g1, g2, h'⟩⟩
        · rw [h'.1]; exact h
        · rw [h']
          exact h.frame hc rfl rfl ⟨rfl, rfl⟩ rfl (fun P hP => ⟨fun hx => hP.objs _ _ hx⟩)
        · rw [h']
          have hu : l.token.login = .user := by
            cases hl : l.token.login with
            | user => rfl
            | pub => exact absurd hl hm
            | so =>
              unfold sessState at g1
              rw [hl] at g1
              rcases g1 with g1 | g1 <;> cases g1
          refine (NotLost.user (l := (pinSet (setUserPin e l _)).1) hc hu).mpr ?_
          exact (stable_shown e.store ov).objs _ _ ((NotLost.user hc hu).mp h)

end Verif
