import Verif.Spec.Durable
import Verif.Proofs.KeyKept
import Verif.Props.Leftover
import Verif.Props.Crash

/-!
# What is in the directory while the library runs
-/

namespace Verif

variable {e : Env} {x : StoreExt}

/-! ## The files of an object -/

/-- All that the files of an object depend on. -/
def Obj.image (o : Obj) : Bytes × Option StoreType × Option Bytes × Option Bytes :=
  (wrObject o, keyFile o, o.keyData, keyTail o)

theorem storeObjs_image (hx : StoreLaws x) {k k' : Bytes} {r r' : Nat} {os os' : List Obj} (h : ∀ o ∈ os, o.Storable)
    (h' : ∀ o ∈ os', o.Storable) (hi : os'.map Obj.image = os.map Obj.image) :
    (storeObjs x k r os).1 = (storeObjs x k' r' os').1 := by
  induction os generalizing os' with
  | nil =>
    cases os' with
    | nil => rfl
    | cons p ps => cases hi
  | cons o os ih =>
    cases os' with
    | nil => cases hi
    | cons p ps =>
      simp only [List.map_cons, List.cons.injEq] at hi
      obtain ⟨h1, h2⟩ := hi
      have hl : ps.length = os.length := by have := congrArg List.length h2; simpa using this
      obtain ⟨f, t, d, hf, _, ht, hd, _, he⟩ := storeObj_storable (key := k) hx (h o List.mem_cons_self) r os.length
      obtain ⟨f', t', d', hf', _, ht', hd', _, he'⟩ := storeObj_storable (key := k') hx (h' p List.mem_cons_self) r' ps.length
      unfold Obj.image at h1
      simp only [Prod.mk.injEq] at h1
      obtain ⟨a1, a2, a3, a4⟩ := h1
      rw [a2, hf] at hf'; cases hf'
      rw [a4, ht] at ht'; cases ht'
      rw [a3, hd] at hd'; cases hd'
      rw [hl, a1] at he'
      simp only [storeObjs, he, hl, he', if_true]
      exact congrArg _ (ih (fun q hq => h q (List.mem_cons_of_mem _ hq)) (fun q hq => h' q (List.mem_cons_of_mem _ hq)) h2)

/-- The same object with another key in clear. -/
theorem image_data {o : Obj} {d : KeyData} {b : Bool}
    (hdh : o.typ = CKK_DH → ({ o with data := d, encoded := b } : Obj).dh.p = o.dh.p ∧ ({ o with data := d, encoded := b } : Obj).dh.g = o.dh.g) :
    ({ o with data := d, encoded := b } : Obj).image = o.image := by
  unfold Obj.image
  have h4 : keyTail ({ o with data := d, encoded := b } : Obj) = keyTail o := by
    unfold keyTail
    by_cases ht : o.typ = CKK_DH
    · rw [if_pos (show ({ o with data := d, encoded := b } : Obj).typ = _ from ht), if_pos ht, (hdh ht).1, (hdh ht).2]
    · rw [if_neg (show ¬ ({ o with data := d, encoded := b } : Obj).typ = _ from ht), if_neg ht]
  rw [h4]
  rfl

theorem storable_data {o : Obj} {d : KeyData} {b : Bool} (h : o.Storable)
    (hdh : o.typ = CKK_DH → ({ o with data := d, encoded := b } : Obj).dh.p = o.dh.p ∧ ({ o with data := d, encoded := b } : Obj).dh.g = o.dh.g) :
    ({ o with data := d, encoded := b } : Obj).Storable := by
  refine ⟨⟨h.form.1, h.form.2.1, fun ht => ?_⟩,
    ⟨h.fits.1, h.fits.2, h.fits.3, h.fits.4, h.fits.5, h.fits.6, h.fits.7, h.fits.8⟩, h.kept⟩
  rw [(hdh ht).1, (hdh ht).2]
  exact h.form.2.2 ht

theorem image_reloaded (u : Nat) (o : Obj) : (o.reloaded u).image = o.image := by
  unfold Obj.image
  have h4 : keyTail (o.reloaded u) = keyTail o := by
    unfold keyTail
    by_cases ht : o.typ = CKK_DH
    · rw [if_pos (show (o.reloaded u).typ = _ from ht), if_pos ht]
      have : (o.reloaded u).dh = { key := [], p := o.dh.p, g := o.dh.g } := by
        unfold Obj.reloaded; rw [if_pos ht]; rfl
      rw [this]
    · rw [if_neg (show ¬ (o.reloaded u).typ = _ from ht), if_neg ht]
  rw [h4]
  rfl

theorem storable_reloaded (u : Nat) {o : Obj} (h : o.Storable) : (o.reloaded u).Storable := by
  refine ⟨⟨h.form.1, h.form.2.1, fun ht => ?_⟩,
    ⟨h.fits.1, h.fits.2, h.fits.3, h.fits.4, h.fits.5, h.fits.6, h.fits.7, h.fits.8⟩, h.kept⟩
  have ht' : o.typ = CKK_DH := ht
  have : (o.reloaded u).dh = { key := [], p := o.dh.p, g := o.dh.g } := by
    unfold Obj.reloaded; rw [if_pos ht']; rfl
  rw [this]
  exact h.form.2.2 ht'

theorem mem_reloadAll {P : Obj → Prop} (hP : ∀ o u, P o → P (o.reloaded u)) {os : List Obj} (h : ∀ o ∈ os, P o) (u : Nat) :
    ∀ o ∈ reloadAll u os, P o := by
  induction os generalizing u with
  | nil => intro o ho; cases ho
  | cons p ps ih =>
    intro o ho
    rcases List.mem_cons.mp ho with rfl | ho
    · exact hP _ _ (h p List.mem_cons_self)
    · exact ih (fun q hq => h q (List.mem_cons_of_mem _ hq)) (u + 1) o ho

/-! ## The invariant -/

/-- The directory `d` holds the token `t`, all keys under the PIN `q`. -/
structure InDir (e : Env) (q : Bytes) (t : Token) (d : Disk) : Prop where
  len : pinLenOk q = true
  pin : Matches e t.user q
  one : ∀ p : Bytes, pinLenOk p = true → Matches e t.user p → p = q
  forms : ∀ o ∈ t.objs, o.Storable
  shut : ∀ o ∈ t.objs, ∃ ov, Shut e.store (e.store.hash q t.seed) ov o
  openly : t.login = .user → t.key = e.store.hash q t.seed ∧ ∀ o ∈ t.objs, o.IsKey ∧ o.KeptUnder e.store (e.store.hash q t.seed)
  record : RecordOnDisk t d
  objects : ∀ w ∈ (storeObjs e.store t.key 0 t.objs).1, d w.1 = some w.2

/-- The same for a library, running or not. -/
def InDirLib (e : Env) (q : Bytes) (l : Lib) : Prop :=
  if 0 < l.count then InDir e q l.token l.disk else ∃ t : Token, t.login = .pub ∧ t.objs.length ≤ 64 ∧ InDir e q t l.disk

theorem InDirLib.on {q : Bytes} {l : Lib} (h : 0 < l.count) : InDirLib e q l ↔ InDir e q l.token l.disk := by
  unfold InDirLib; rw [if_pos h]

theorem InDirLib.off {q : Bytes} {l : Lib} (h : ¬ 0 < l.count) :
    InDirLib e q l ↔ ∃ t : Token, t.login = .pub ∧ t.objs.length ≤ 64 ∧ InDir e q t l.disk := by
  unfold InDirLib; rw [if_neg h]

/-- Logged out by force: what a new process finds. -/
theorem InDir.pub {q : Bytes} {t : Token} {d : Disk} (h : InDir e q t d) : InDir e q { t with login := .pub } d :=
  ⟨h.len, h.pin, h.one, h.forms, h.shut, nofun, h.record, h.objects⟩

/-- The accounts may change but for PINs and seeds. -/
theorem InDir.account {q : Bytes} {t t' : Token} {d : Disk} (h : InDir e q t d) (h1 : SamePin t.user t'.user) (h2 : SamePin t.so t'.so)
    (h3 : t'.seed = t.seed) (h4 : t'.objs = t.objs) (h5 : t'.label = t.label) (h6 : t'.key = t.key) (h7 : t'.login = .user → t.login = .user) :
    InDir e q t' d := by
  obtain ⟨r, r1, r2, r3, r4, r5, r6, r7⟩ := h.record
  refine ⟨h.len, (matches_same h1 q).mpr h.pin, fun p p1 p2 => h.one p p1 ((matches_same h1 p).mp p2), by rw [h4]; exact h.forms,
    by rw [h4, h3]; exact h.shut, fun hl => by rw [h4, h3, h6]; exact h.openly (h7 hl), ?_, by rw [h4, h6]; exact h.objects⟩
  exact ⟨r, r1, r2, by rw [r3, h5], by rw [r4, h3], by rw [r5, h4], ⟨by rw [r6.1, h2.1], by rw [r6.2, h2.2]⟩,
    by rw [r7.1, h1.1], by rw [r7.2, h1.2]⟩

/-- The objects change, but not their files. -/
theorem InDir.objs (hx : StoreLaws e.store) {q : Bytes} {t t' : Token} {d : Disk} (h : InDir e q t d) (h1 : SamePin t.user t'.user)
    (h2 : SamePin t.so t'.so) (h3 : t'.seed = t.seed) (h5 : t'.label = t.label)
    (hi : t'.objs.map Obj.image = t.objs.map Obj.image) (hty : t'.objs.map (·.typ) = t.objs.map (·.typ))
    (hf : ∀ o ∈ t'.objs, o.Storable) (hs : ∀ o ∈ t'.objs, ∃ ov, Shut e.store (e.store.hash q t.seed) ov o)
    (ho : t'.login = .user → t'.key = e.store.hash q t.seed ∧ ∀ o ∈ t'.objs, o.IsKey ∧ o.KeptUnder e.store (e.store.hash q t.seed)) :
    InDir e q t' d := by
  obtain ⟨r, r1, r2, r3, r4, r5, r6, r7⟩ := h.record
  refine ⟨h.len, (matches_same h1 q).mpr h.pin, fun p p1 p2 => h.one p p1 ((matches_same h1 p).mp p2), hf,
    by rw [h3]; exact hs, fun hl => by rw [h3]; exact ho hl, ?_, ?_⟩
  · exact ⟨r, r1, r2, by rw [r3, h5], by rw [r4, h3], by rw [r5, hty], ⟨by rw [r6.1, h2.1], by rw [r6.2, h2.2]⟩,
      by rw [r7.1, h1.1], by rw [r7.2, h1.2]⟩
  · rw [← storeObjs_image hx h.forms hf hi (k := t.key) (r := 0)]
    exact h.objects

/-- Storing the token. -/
theorem InDir.stored (hx : StoreLaws e.store) {q : Bytes} {t : Token} {d : Disk} {r : Nat} (hlen : pinLenOk q = true)
    (hpin : Matches e t.user q) (hone : ∀ p : Bytes, pinLenOk p = true → Matches e t.user p → p = q)
    (hf : ∀ o ∈ t.objs, o.Storable) (hs : ∀ o ∈ t.objs, ∃ ov, Shut e.store (e.store.hash q t.seed) ov o)
    (ho : t.login = .user → t.key = e.store.hash q t.seed ∧ ∀ o ∈ t.objs, o.IsKey ∧ o.KeptUnder e.store (e.store.hash q t.seed))
    (hfit : t.toRec.Fits) : InDir e q t (d.puts (storeToken e.store r t).wr) := by
  refine ⟨hlen, hpin, hone, hf, hs, ho, ⟨t.toRec, hfit, ?_, rfl, rfl, rfl, ⟨rfl, rfl⟩, rfl, rfl⟩, ?_⟩
  · show (d.put ((.token, 0), wrToken t.toRec)).puts (storeObjs e.store t.key r t.objs).1 _ = _
    rw [puts_other fun w hw h => by
      have := (storeObjs_wr e.store t.key r t.objs w hw).1
      rw [h] at this; exact this rfl]
    exact if_pos rfl
  · rw [storeObjs_files hx hf (k := t.key) (k' := t.key) (r := 0) (r' := r)]
    exact storeObjs_onDisk hx (d := d.put ((.token, 0), wrToken t.toRec)) (key := t.key) (r := r) hf

/-- A token that the directory holds, with the older counts. -/
theorem InDir.twin {q : Bytes} {t : Token} {d : Disk} (h : InDir e q t d) :
    ∃ so user : Account, SamePin t.so so ∧ SamePin t.user user ∧ ({ t with so, user } : Token).toRec.Fits ∧
      d (.token, 0) = some (wrToken ({ t with so, user } : Token).toRec) := by
  obtain ⟨r, r1, r2, r3, r4, r5, r6, r7⟩ := h.record
  have heq : ({ t with so := r.so, user := r.user } : Token).toRec = r := by
    cases r
    unfold Token.toRec
    simp only at r3 r4 r5 ⊢
    rw [r3, r4, r5]
  exact ⟨r.so, r.user, r6, r7, by rw [heq]; exact r1, by rw [heq]; exact r2⟩

/-- Storing it again changes nothing. -/
theorem InDir.still (hx : StoreLaws e.store) {q : Bytes} {t : Token} {d : Disk} (h : InDir e q t d)
    (hr : d (.token, 0) = some (wrToken t.toRec)) (r : Nat) : d.puts (storeToken e.store r t).wr = d := by
  refine puts_same ?_
  intro w hw
  rcases List.mem_cons.mp hw with rfl | hw
  · exact hr
  · rw [storeObjs_files hx h.forms (k := t.key) (k' := t.key) (r := r) (r' := 0)] at hw
    exact h.objects w hw

/-! ## Making objects -/

theorem storeObjs_keeps {k : Bytes} {r : Nat} {os : List Obj} (h : ∀ o ∈ os, o.keyData.isSome = true) :
    (storeObjs x k r os).2.1 = os := by
  induction os generalizing r with
  | nil => rfl
  | cons o os ih =>
    simp only [storeObjs]
    split
    · dsimp only
      rw [storeObj_kept (h o List.mem_cons_self), ih fun p hp => h p (List.mem_cons_of_mem _ hp)]
    · dsimp only
      rw [storeObj_kept (h o List.mem_cons_self)]

theorem storeObjs_cls {k : Bytes} {r : Nat} (os : List Obj) : (storeObjs x k r os).2.1.map (·.cls) = os.map (·.cls) := by
  induction os generalizing r with
  | nil => rfl
  | cons o os ih =>
    have h1 : (storeObj x k r o os.length).obj.view.cls = o.view.cls := by rw [storeObj_view]
    have h1 : (storeObj x k r o os.length).obj.cls = o.cls := h1
    simp only [storeObjs]
    split
    · simp only [List.map_cons, h1, ih]
    · simp only [List.map_cons, h1]

/-- The object is a certificate or has its kept form. -/
def Obj.Ready (o : Obj) : Prop := o.cls ≠ CKO_CERTIFICATE → o.keyData.isSome = true

/-- Adding an object leaves the token, or stores it with one object more. -/
theorem sessAdd_stores {l l' : Lib} {s : Session} {on k : Nat} {o : Obj} (h : sessAddObject e l s on o = (l', some k)) :
    (l'.token = l.token ∧ l'.disk = l.disk) ∨
    ∃ p, l' = (Lib.store e { l with uid := l.uid + 1, token := { l.token with objs := p :: l.token.objs } }).1 ∧ p.Ready := by
  unfold sessAddObject at h
  dsimp only at h
  split at h
  · split at h
    · obtain ⟨_, h2⟩ := Prod.mk.inj h; cases h2
    split at h
    · rename_i hr
      obtain ⟨h1, _⟩ := Prod.mk.inj h
      refine .inr ⟨_, h1.symm, ?_⟩
      intro hc
      refine encodeObj_kept ?_ hr
      intro hx
      apply hc
      show (encodeObj e.store l.token.key false _).2.cls = _
      unfold encodeObj
      rw [if_pos hx]
      exact hx
    · obtain ⟨_, h2⟩ := Prod.mk.inj h; cases h2
  · split at h
    · obtain ⟨_, h2⟩ := Prod.mk.inj h; cases h2
    obtain ⟨h1, _⟩ := Prod.mk.inj h
    subst h1
    exact .inl ⟨rfl, rfl⟩

/-- If there are no certificates afterwards, storing changes no object. -/
theorem store_ready {l : Lib} (h : ∀ o ∈ l.token.objs, o.Ready) (h' : ∀ o ∈ (Lib.store e l).1.token.objs, o.cls ≠ CKO_CERTIFICATE) :
    (Lib.store e l).1.token = l.token ∧ (Lib.store e l).1.disk = l.disk.puts (storeToken e.store l.rng l.token).wr := by
  have hobjs : (Lib.store e l).1.token.objs = (storeObjs e.store l.token.key l.rng l.token.objs).2.1 := rfl
  have hcls := storeObjs_cls (x := e.store) (k := l.token.key) (r := l.rng) l.token.objs
  have hk : ∀ o ∈ l.token.objs, o.keyData.isSome = true := by
    intro o ho
    refine h o ho fun hc => ?_
    have : o.cls ∈ l.token.objs.map (·.cls) := List.mem_map_of_mem ho
    rw [← hcls] at this
    obtain ⟨p, hp, hpc⟩ := List.mem_map.mp this
    exact h' p hp (by rw [hpc, hc])
  have hs := storeObjs_keeps (x := e.store) (k := l.token.key) (r := l.rng) hk
  refine ⟨?_, rfl⟩
  have : (Lib.store e l).1.token = { l.token with objs := (Lib.store e l).1.token.objs } := rfl
  rw [this, hobjs, hs]

/-- Making an object on the token while the user is logged in. -/
theorem InDir.add (hx : StoreLaws e.store) {q : Bytes} {l l' : Lib} {s : Session} {on k : Nat} {o : Obj}
    (h : InDir e q l.token l.disk) (hadd : sessAddObject e l s on o = (l', some k))
    (hw : (l'.token = l.token ∧ l'.disk = l.disk) ∨
      (l.token.login = .user ∧ l'.token.toRec.Fits ∧ (∀ o ∈ l'.token.objs, o.Storable) ∧
        ∀ o ∈ l'.token.objs, o.IsKey ∧ o.KeptUnder e.store (e.store.hash q l.token.seed))) :
    InDir e q l'.token l'.disk := by
  rcases hw with ⟨h1, h2⟩ | ⟨hu, hfit, hst, hkept⟩
  · rw [h1, h2]; exact h
  rcases sessAdd_stores hadd with ⟨h1, h2⟩ | ⟨p, rfl, hp⟩
  · rw [h1, h2]; exact h
  · have hready : ∀ z ∈ p :: l.token.objs, z.Ready := by
      intro z hz
      rcases List.mem_cons.mp hz with rfl | hz
      · exact hp
      · intro _
        obtain ⟨d, hd, _⟩ := (h.forms z hz).kept
        rw [hd]; rfl
    obtain ⟨g1, g2⟩ := store_ready (e := e) (l := { l with uid := l.uid + 1, token := { l.token with objs := p :: l.token.objs } })
      hready fun o ho => (hst o ho).form.1
    rw [g1] at hfit hst hkept
    rw [g1, g2]
    refine InDir.stored hx h.len h.pin h.one hst ?_ (fun _ => ⟨(h.openly hu).1, hkept⟩) hfit
    intro z hz
    exact ⟨_, z, rfl, (hkept z hz).1, (hkept z hz).2, ⟨z.data, z.encoded, rfl⟩, fun _ => ⟨rfl, rfl⟩⟩

theorem fits_sub {t t' : Token} (h : t.toRec.Fits) (h1 : t'.label = t.label) (h2 : t'.so = t.so) (h3 : t'.user = t.user)
    (h4 : t'.seed = t.seed) (hlen : t'.objs.length ≤ t.objs.length) (hsub : ∀ o ∈ t'.objs, o ∈ t.objs) : t'.toRec.Fits := by
  obtain ⟨f1, f2, f3, f4, f5, f6⟩ := h
  refine ⟨by rw [show t'.toRec.label = _ from h1]; exact f1, by rw [show t'.toRec.so = _ from h2]; exact f2,
    by rw [show t'.toRec.user = _ from h3]; exact f3, by rw [show t'.toRec.seed = _ from h4]; exact f4, ?_, ?_⟩
  · simp only [Token.toRec, List.length_map] at f5 ⊢
    omega
  · intro k hk
    simp only [Token.toRec, List.mem_map] at hk f6
    obtain ⟨z, hz, rfl⟩ := hk
    exact f6 _ ⟨z, hsub z hz, rfl⟩

/-- An object made on the token makes the list longer. -/
theorem sessAdd_len {l l' : Lib} {s : Session} {on k : Nat} {o : Obj} (h : sessAddObject e l s on o = (l', some k)) :
    (l'.token = l.token ∧ l'.disk = l.disk) ∨ l'.token.objs.length = l.token.objs.length + 1 := by
  rcases sessAdd_stores h with h | ⟨p, rfl, _⟩
  · exact .inl h
  · right
    have := congrArg List.length (storeObjs_cls (x := e.store) (k := l.token.key) (r := l.rng) (p :: l.token.objs))
    simp only [List.length_map, List.length_cons] at this
    exact this

/-- Making two objects. -/
theorem InDir.add2 (hx : StoreLaws e.store) {q : Bytes} {l l₁ l' : Lib} {s s₁ : Session} {on on₁ k k₁ : Nat} {o o₁ : Obj}
    (h : InDir e q l.token l.disk) (hadd : sessAddObject e l s on o = (l₁, some k)) (hadd₁ : sessAddObject e l₁ s₁ on₁ o₁ = (l', some k₁))
    (hu : l.token.login = .user) (hfit : l'.token.toRec.Fits) (hst : ∀ o ∈ l'.token.objs, o.Storable)
    (hkept : ∀ o ∈ l'.token.objs, o.IsKey ∧ o.KeptUnder e.store (e.store.hash q l.token.seed)) :
    InDir e q l'.token l'.disk := by
  rcases sessAdd_stores hadd₁ with ⟨h1, h2⟩ | ⟨p, hl', hp⟩
  · rw [h1] at hfit hst hkept
    rw [h1, h2]
    exact h.add hx hadd (.inr ⟨hu, hfit, hst, hkept⟩)
  rcases sessAdd_stores hadd with ⟨h1, h2⟩ | ⟨p₁, hl₁, hp₁⟩
  · have h' : InDir e q l₁.token l₁.disk := by rw [h1, h2]; exact h
    exact h'.add hx hadd₁ (.inr ⟨by rw [h1]; exact hu, hfit, hst, by rw [h1]; exact hkept⟩)
  have hcls' : l'.token.objs.map (·.cls) = p.cls :: l₁.token.objs.map (·.cls) := by
    rw [hl']
    exact storeObjs_cls (p :: l₁.token.objs)
  have hno₁ : ∀ z ∈ l₁.token.objs, z.cls ≠ CKO_CERTIFICATE := by
    intro z hz hc
    have : z.cls ∈ l'.token.objs.map (·.cls) := by
      rw [hcls']; exact List.mem_cons_of_mem _ (List.mem_map_of_mem hz)
    obtain ⟨w, hw, hwc⟩ := List.mem_map.mp this
    exact (hst w hw).form.1 (by rw [hwc, hc])
  have hold : ∀ z ∈ l.token.objs, z.keyData.isSome = true := by
    intro z hz
    obtain ⟨d, hd, _⟩ := (h.forms z hz).kept
    rw [hd]; rfl
  have hr₁ : ∀ z ∈ p₁ :: l.token.objs, z.Ready := by
    intro z hz
    rcases List.mem_cons.mp hz with rfl | hz
    · exact hp₁
    · exact fun _ => hold z hz
  obtain ⟨g1, _⟩ := store_ready (e := e) (l := { l with uid := l.uid + 1, token := { l.token with objs := p₁ :: l.token.objs } })
    hr₁ (by rw [← hl₁]; exact hno₁)
  rw [← hl₁] at g1
  have hr : ∀ z ∈ p :: l₁.token.objs, z.Ready := by
    intro z hz
    rcases List.mem_cons.mp hz with rfl | hz
    · exact hp
    · rw [g1] at hz
      exact hr₁ z hz
  obtain ⟨g2, _⟩ := store_ready (e := e) (l := { l₁ with uid := l₁.uid + 1, token := { l₁.token with objs := p :: l₁.token.objs } })
    hr (by rw [← hl']; exact fun z hz => (hst z hz).form.1)
  rw [← hl'] at g2
  have hsub : ∀ z ∈ l₁.token.objs, z ∈ l'.token.objs := by
    intro z hz
    rw [g2]; exact List.mem_cons_of_mem _ hz
  have hseed : l₁.token.seed = l.token.seed := by rw [g1]
  have hlog : l₁.token.login = l.token.login := by rw [g1]
  have h' : InDir e q l₁.token l₁.disk := by
    refine h.add hx hadd (.inr ⟨hu, fits_sub hfit (by rw [g2]) (by rw [g2]) (by rw [g2]) (by rw [g2]) ?_ hsub,
      fun z hz => hst z (hsub z hz), fun z hz => hkept z (hsub z hz)⟩)
    rw [g2]
    exact Nat.le_succ _
  exact h'.add hx hadd₁ (.inr ⟨by rw [hlog]; exact hu, hfit, hst, by rw [hseed]; exact hkept⟩)

/-- Destroying an object of the token. -/
theorem InDir.remove (hx : StoreLaws e.store) {q : Bytes} {l : Lib} (h : InDir e q l.token l.disk) (hfit : l.token.toRec.Fits) (o : Obj) :
    InDir e q (removeToken e l o).token (removeToken e l o).disk := by
  have hsub : ∀ p ∈ l.token.objs.filter (fun p => p.uid != o.uid), p ∈ l.token.objs := fun p hp => (List.mem_filter.mp hp).1
  obtain ⟨g1, g2⟩ := store_ready (e := e) (l := { l with
      token := { l.token with objs := l.token.objs.filter fun p => p.uid != o.uid },
      disk := l.disk.puts (unstore o ((l.token.objs.dropWhile fun p => p.uid != o.uid).length - 1)) })
    (fun z hz _ => by
      obtain ⟨d, hd, _⟩ := (h.forms z (hsub z hz)).kept
      rw [hd]; rfl)
    (fun z hz => by
      rw [(store_storable hx (l := { l with
        token := { l.token with objs := l.token.objs.filter fun p => p.uid != o.uid },
        disk := l.disk.puts (unstore o ((l.token.objs.dropWhile fun p => p.uid != o.uid).length - 1)) })
        (fun z hz => h.forms z (hsub z hz))).1] at hz
      exact (h.forms z (hsub z hz)).form.1)
  unfold removeToken
  dsimp only
  rw [g1, g2]
  refine InDir.stored hx h.len h.pin h.one (fun z hz => h.forms z (hsub z hz)) (fun z hz => h.shut z (hsub z hz))
    (fun hu => ⟨(h.openly hu).1, fun z hz => (h.openly hu).2 z (hsub z hz)⟩) ?_
  exact fits_sub hfit rfl rfl rfl rfl (List.length_filter_le ..) hsub

/-! ## Logging out and in -/

theorem InDir.logout (hx : StoreLaws e.store) {q : Bytes} {l : Lib} (h : InDir e q l.token l.disk) :
    InDir e q (Verif.logout e l).token (Verif.logout e l).disk := by
  by_cases hu : l.token.login = .user
  · obtain ⟨hkey, hkept⟩ := h.openly hu
    have hobjs : (Verif.logout e l).token.objs = l.token.objs.map cleared := by
      have h1 : (Verif.logout e l).token.objs = encodeAll e.store l.token.key l.token.objs := if_pos hu
      have h2 : ∀ o ∈ l.token.objs, o.Keepable e.store := by
        intro o ho
        obtain ⟨g1, c, g2, _⟩ := hkept o ho
        refine .inr ⟨g1, ?_⟩
        unfold Obj.sealedKey at g2
        cases hb : o.keyBytes e.store with
        | none => rw [hb] at g2; cases g2
        | some b => rfl
      rw [h1, encodeAll_keepable h2]
      refine List.map_congr_left fun o ho => ?_
      obtain ⟨g1, c, g2, g3⟩ := hkept o ho
      rw [if_neg g1.1]
      have : o.sealUnder e.store l.token.key = o := by
        unfold Obj.sealUnder
        rw [if_neg g1.1, hkey, g2, ← g3]
      rw [this]
    have himg : ∀ o ∈ l.token.objs, (cleared o).image = o.image ∧ (cleared o).Storable ∧ (cleared o).typ = o.typ ∧
        ∃ ov, Shut e.store (e.store.hash q l.token.seed) ov (cleared o) := by
      intro o ho
      obtain ⟨d, b, h1, h2⟩ := cleared_eq o
      obtain ⟨k1, k2⟩ := hkept o ho
      rw [h1] at h2 ⊢
      exact ⟨image_data h2, storable_data (h.forms o ho) h2, rfl, _, o, rfl, k1, k2, ⟨d, b, rfl⟩, h2⟩
    refine h.objs hx ⟨rfl, rfl⟩ ⟨rfl, rfl⟩ rfl rfl ?_ ?_ ?_ ?_ (fun hl => by cases hl)
    · rw [hobjs, List.map_map]
      exact List.map_congr_left fun o ho => (himg o ho).1
    · rw [hobjs, List.map_map]
      exact List.map_congr_left fun o ho => (himg o ho).2.2.1
    · rw [hobjs]
      intro o ho
      obtain ⟨p, hp, rfl⟩ := List.mem_map.mp ho
      exact (himg p hp).2.1
    · rw [hobjs]
      intro o ho
      obtain ⟨p, hp, rfl⟩ := List.mem_map.mp ho
      exact (himg p hp).2.2.2
  · have hobjs : (Verif.logout e l).token.objs = l.token.objs := if_neg hu
    exact h.account ⟨rfl, rfl⟩ ⟨rfl, rfl⟩ rfl hobjs rfl rfl (fun hl => by cases hl)

/-- Decoding with the right key always works. -/
theorem decodeAll_ready (hx : StoreLaws x) {key : Bytes} {os : List Obj} (hf : ∀ o ∈ os, o.Storable)
    (h : ∀ o ∈ os, ∃ ov, Shut x key ov o) :
    (decodeAll x key os).1 = .ok ∧ (decodeAll x key os).2.map Obj.image = os.map Obj.image ∧
    (decodeAll x key os).2.map (·.typ) = os.map (·.typ) ∧
    ∀ o ∈ (decodeAll x key os).2, o.Storable ∧ (∃ ov, Shut x key ov o) ∧ o.IsKey ∧ o.KeptUnder x key := by
  induction os with
  | nil => exact ⟨rfl, rfl, rfl, fun o ho => by cases ho⟩
  | cons o os ih =>
    obtain ⟨i1, i2, i3, i4⟩ := ih (fun p hp => hf p (List.mem_cons_of_mem _ hp)) (fun p hp => h p (List.mem_cons_of_mem _ hp))
    obtain ⟨ov, p, hp, h1, h2, ⟨d, b, hq⟩, h3⟩ := h o List.mem_cons_self
    have hdec := decodeObj_kept hx h1 h2 (p := o) (by rw [hq]) (by rw [hq]) (by rw [hq]) (by rw [hq]) h3
    have hdh : o.typ = CKK_DH → ({ o with data := p.data, encoded := false } : Obj).dh.p = o.dh.p ∧
        ({ o with data := p.data, encoded := false } : Obj).dh.g = o.dh.g := by
      intro ht
      have ht' : p.typ = CKK_DH := by rw [hq] at ht; exact ht
      obtain ⟨a, b⟩ := h3 ht'
      rw [a, b]
      exact ⟨rfl, rfl⟩
    have hcons : decodeAll x key (o :: os) =
        ((decodeAll x key os).1, { o with data := p.data, encoded := false } :: (decodeAll x key os).2) := by
      simp only [decodeAll, hdec, if_true]
    rw [hcons]
    refine ⟨i1, ?_, ?_, ?_⟩
    · simp only [List.map_cons, i2, image_data hdh]
    · simp only [List.map_cons, i3]
    · intro z hz
      rcases List.mem_cons.mp hz with rfl | hz
      · have heq : ({ o with data := p.data, encoded := false } : Obj) = { p with encoded := false } := by rw [hq]
        refine ⟨storable_data (hf o List.mem_cons_self) hdh, ?_⟩
        rw [heq]
        exact ⟨⟨_, p, hp, h1, h2, ⟨p.data, false, rfl⟩, fun _ => ⟨rfl, rfl⟩⟩, h1, h2⟩
      · exact i4 z hz

theorem InDir.login (hx : StoreLaws e.store) {q : Bytes} {l : Lib} (h : InDir e q l.token l.disk) (u : UserType)
    (pin : Option Bytes) (now : Int) : InDir e q (Verif.login e l u pin now).1.token (Verif.login e l u pin now).1.disk := by
  unfold Verif.login
  split; · exact h
  split; · exact h
  rename_i p hp
  have hp : pinLenOk p = true := by simpa using hp
  split
  · unfold soLogin
    split; · exact h
    rename_i hl
    split; · exact h
    rename_i a ha
    have ha := samePin_lockCheck ha
    have hfail : ∀ n, SamePin l.token.so (failed a now n) := fun n =>
      ⟨by rw [← ha.1]; unfold failed; split <;> rfl, by rw [← ha.2]; unfold failed; split <;> rfl⟩
    dsimp only
    split; · exact h.account ⟨rfl, rfl⟩ ha rfl rfl rfl rfl id
    split
    · exact h.account ⟨rfl, rfl⟩ ha rfl rfl rfl rfl id
    · exact h.account ⟨rfl, rfl⟩ (hfail _) rfl rfl rfl rfl id
    · exact h.account ⟨rfl, rfl⟩ ⟨ha.1, ha.2⟩ rfl rfl rfl rfl (fun hl => by cases hl)
  · unfold userLogin
    split; · exact h
    rename_i hl
    have hl : l.token.login = .pub := by simpa using hl
    split; · exact h
    rename_i a ha
    have ha := samePin_lockCheck ha
    split
    · exact h.account ha ⟨rfl, rfl⟩ rfl rfl rfl rfl id
    · exact h.account ⟨by rw [← ha.1]; unfold failed; split <;> rfl, by rw [← ha.2]; unfold failed; split <;> rfl⟩ ⟨rfl, rfl⟩ rfl rfl rfl rfl id
    · rename_i hck
      have hm : Matches e a p := by
        rcases checkPin_cases e l.token a p with h | h | h
        · rw [hck] at h; cases h.1
        · rw [hck] at h; cases h.1
        · exact h.2.2.2
      have hm : Matches e l.token.user p := (matches_same ha p).mp hm
      have heq : p = q := h.one p hp hm
      subst heq
      obtain ⟨d1, d2, d3, d4⟩ := decodeAll_ready hx h.forms h.shut
      dsimp only
      rw [d1]
      dsimp only
      exact h.objs hx ⟨ha.1, ha.2⟩ ⟨rfl, rfl⟩ rfl rfl d2 d3 (fun o ho => (d4 o ho).1) (fun o ho => (d4 o ho).2.1)
        (fun _ => ⟨rfl, fun o ho => (d4 o ho).2.2⟩)
  · exact h
  · exact h

/-! ## Calls -/

/-- A call on a session that makes, changes or destroys nothing and is not about login or PINs. -/
theorem sessCall_leaves (e : Env) (l : Lib) (s : Session) {c : SessCall} (hc : c.isAccount = false) (hn : c.creates = [])
    (h1 : ∀ i, c ≠ .destroy i) (h2 : ∀ i t, c ≠ .setAttr i t) :
    (sessCall e l s c).1.token = l.token ∧ (sessCall e l s c).1.disk = l.disk := by
  cases c with
  | close => cases hc
  | info p => simp only [sessCall]; split <;> (first | exact ⟨rfl, rfl⟩ | exact ⟨trivial, trivial⟩)
  | login u p n => cases hc
  | logout => cases hc
  | initPin p => cases hc
  | setPin o n => cases hc
  | create t p =>
    cases t with
    | some t => cases hn
    | none => simp only [sessCall, cCreate]; (first | exact ⟨rfl, rfl⟩ | exact ⟨trivial, trivial⟩)
  | copy o t p =>
    cases t with
    | some t => cases hn
    | none => simp only [sessCall, cCopy]; (first | exact ⟨rfl, rfl⟩ | exact ⟨trivial, trivial⟩)
  | destroy o => exact absurd rfl (h1 o)
  | size o p =>
    simp only [sessCall]
    repeat' split
    all_goals (first | exact ⟨rfl, rfl⟩ | exact ⟨trivial, trivial⟩)
  | getAttr o t =>
    simp only [sessCall, cGetAttr]
    repeat' split
    all_goals (first | exact ⟨rfl, rfl⟩ | exact ⟨trivial, trivial⟩)
  | setAttr o t => exact absurd rfl (h2 o t)
  | findInit t =>
    simp only [sessCall, cFindInit]
    repeat' split
    all_goals (first | exact ⟨rfl, rfl⟩ | exact ⟨trivial, trivial⟩)
  | findNext p n =>
    simp only [sessCall, cFindNext]
    repeat' split
    all_goals (first | exact ⟨rfl, rfl⟩ | exact ⟨trivial, trivial⟩)
  | findFinal => (first | exact ⟨rfl, rfl⟩ | exact ⟨trivial, trivial⟩)
  | cryptInit k m key =>
    simp only [sessCall, cCryptInit]
    repeat' split
    all_goals (first | exact ⟨rfl, rfl⟩ | exact ⟨trivial, trivial⟩)
  | crypt d =>
    simp only [sessCall, cCrypt]
    repeat' split
    all_goals (first | exact ⟨rfl, rfl⟩ | exact ⟨trivial, trivial⟩)
  | genKey m t p =>
    cases t with
    | some t => cases hn
    | none => simp only [sessCall, cGenKey]; repeat' split
              all_goals (first | exact ⟨rfl, rfl⟩ | exact ⟨trivial, trivial⟩)
  | genPair m a b p =>
    cases a with
    | some t => cases hn
    | none =>
      cases b with
      | some t => cases hn
      | none => simp only [sessCall, cGenPair]; repeat' split
                all_goals (first | exact ⟨rfl, rfl⟩ | exact ⟨trivial, trivial⟩)
  | wrap m a b o =>
    simp only [sessCall, cWrap]
    repeat' split
    all_goals (first | exact ⟨rfl, rfl⟩ | exact ⟨trivial, trivial⟩)
  | unwrap m w d t p =>
    cases t with
    | some t => cases hn
    | none => simp only [sessCall, cUnwrap]; repeat' split
              all_goals (first | exact ⟨rfl, rfl⟩ | exact ⟨trivial, trivial⟩)
  | derive m b t p =>
    cases t with
    | some t => cases hn
    | none => simp only [sessCall, cDerive]; repeat' split
              all_goals (first | exact ⟨rfl, rfl⟩ | exact ⟨trivial, trivial⟩)
  | random p n =>
    simp only [sessCall, cRandom]; repeat' split
    all_goals (first | exact ⟨rfl, rfl⟩ | exact ⟨trivial, trivial⟩)

/-! ## Starting and ending -/

theorem InDir.load (hx : StoreLaws e.store) {q : Bytes} {t : Token} {d : Disk} (h : InDir e q t d) (u : Nat) :
    InDir e q (loadToken e.store d u) d := by
  obtain ⟨so, user, h1, h2, h3, h4⟩ := h.twin
  have ht : InDir e q { t with so, user, login := .pub } d :=
    h.account h2 h1 rfl rfl rfl rfl (fun hl => by cases hl)
  have hd := ht.still hx h4 0
  have hload := loadToken_stored hx (t := { t with so, user, login := .pub }) h3 ht.forms d 0 u
  rw [hd] at hload
  rw [hload]
  refine ht.objs hx ⟨rfl, rfl⟩ ⟨rfl, rfl⟩ rfl rfl ?_ ?_ ?_ ?_ (fun hl => by cases hl)
  · exact reloadAll_map _ (fun _ _ => image_reloaded _ _) _ _
  · exact reloadAll_map _ (fun _ _ => rfl) _ _
  · exact mem_reloadAll (P := Obj.Storable) (fun o u h => storable_reloaded u h) ht.forms u
  · exact mem_reloadAll (P := fun o => ∃ ov, Shut e.store _ ov o) (fun o u ⟨ov, h⟩ => ⟨ov, h.reload u⟩) ht.shut u

/-- While the token can be written. -/
theorem Writable.kept_under {q : Bytes} {l : Lib} {user : Account} {seed : Bytes} (hw : Writable e l) (hu : l.token.login = .user)
    (hone : ∀ p : Bytes, pinLenOk p = true → Matches e user p → p = q) (h1 : l.token.user = user) (h2 : l.token.seed = seed) :
    ∀ o ∈ l.token.objs, o.IsKey ∧ o.KeptUnder e.store (e.store.hash q seed) := by
  obtain ⟨pin, p1, p2, p3, p4⟩ := hw.current hu
  rw [h1] at p3
  rw [h2] at p4
  have := hone pin (by simp [pinLenOk, p1, p2]) p3
  subst this
  exact p4

/-- Any gentle call. -/
theorem InDirLib.callBody (hx : StoreLaws e.store) (hh : HashLen e) (hr : RandLen e) {q : Bytes} {k : Nat} {l : Lib}
    (h : InDirLib e q l) (hcap : CapInv l) (hfit : 0 < l.count → l.token.toRec.Fits) {c : Call} (hg : Gentle e k l c)
    (hb : BoolToken [c]) (hgood : (step e l c).1.bad = false) : InDirLib e q (callBody e l c).1 := by
  have hstep := (step_good hgood).2.2
  have hub := (step_good hgood).2.1
  by_cases hc : 0 < l.count
  case neg =>
    have hno := (InDirLib.off hc).mp h
    cases c with
    | cInit =>
      simp only [Verif.callBody, cInitialize]
      split
      · rename_i h0
        have hpos : 0 < (cInitialize e l).1.count := by
          simp only [cInitialize, if_pos h0]; omega
        simp only [cInitialize, if_pos h0] at hpos
        obtain ⟨t, _, _, ht⟩ := hno
        exact (InDirLib.on hpos).mpr (ht.load hx l.uid)
      · rename_i h0
        refine (InDirLib.off (l := { l with count := l.count + 1 }) ?_).mpr hno
        show ¬ 0 < l.count + 1
        omega
    | cFinal =>
      simp only [Verif.callBody, cFinalize]
      rw [if_neg (by omega)]
      refine (InDirLib.off (l := { l with count := l.count - 1 }) ?_).mpr hno
      show ¬ 0 < l.count - 1
      omega
    | slot id c =>
      simp only [Verif.callBody]
      rw [if_pos (by omega)]
      exact h
    | sess j c =>
      simp only [Verif.callBody]
      rw [if_pos (by omega)]
      exact h
  case pos =>
  have hcn : ¬ l.count ≤ 0 := by omega
  have hin := (InDirLib.on hc).mp h
  have hfit := hfit hc
  have fr : ∀ {l' : Lib}, l'.count = l.count → l'.token = l.token → l'.disk = l.disk → InDirLib e q l' := by
    intro l' h1 h2 h3
    exact (InDirLib.on (by rw [h1]; exact hc)).mpr (by rw [h2, h3]; exact hin)
  have on : ∀ {l' : Lib}, l'.count = l.count → InDir e q l'.token l'.disk → InDirLib e q l' := by
    intro l' h1 h2
    exact (InDirLib.on (by rw [h1]; exact hc)).mpr h2
  cases c with
  | cInit =>
    simp only [Verif.callBody, cInitialize]
    rw [if_neg (by omega)]
    exact (InDirLib.on (l := { l with count := l.count + 1 }) (by show 0 < l.count + 1; omega)).mpr hin
  | cFinal =>
    simp only [Verif.callBody, cFinalize]
    split
    · rename_i h0
      refine (InDirLib.off (by show ¬ 0 < l.count - 1; omega)).mpr ⟨{ l.token with login := .pub }, rfl, by have := hcap.pop.tokLen; simpa using this, ?_⟩
      have := InDir.stored hx (d := l.disk) (r := l.rng) hin.len hin.pin hin.one hin.forms hin.shut hin.openly hfit
      exact this.pub
    · exact (InDirLib.on (l := { l with count := l.count - 1 }) (by show 0 < l.count - 1; omega)).mpr hin
  | slot id c =>
    simp only [Verif.callBody, if_neg hcn]
    split; · exact h
    cases c with
    | initToken p lb => exact absurd hg (by simp [Gentle])
    | tokenInfo p n =>
      simp only [slotCall]
      repeat' split
      all_goals exact h
    | closeAll => exact fr rfl rfl rfl
    | openSession rw' ser ptr =>
      simp only [slotCall, openSession]
      repeat' split
      all_goals first | exact h | exact fr rfl rfl rfl
  | sess j c =>
    simp only [Verif.callBody, if_neg hcn] at hub hstep ⊢
    cases hs : getSession l j with
    | none => exact h
    | some s =>
    simp only [hs] at hub hstep ⊢
    cases hacc : c.isAccount with
    | true =>
      cases c <;> first | (cases hacc; done) | skip
      case close =>
        simp only [sessCall, closeSession]
        split
        · exact fr rfl rfl rfl
        · exact on rfl (InDir.logout hx (l := { l with sessions := closeOne l.sessions s.handle }) hin)
      case login u pin now =>
        refine on ?_ (hin.login hx u pin now)
        exact (frame_sessCall e l s (.login u pin now) (by simp)).count
      case logout => exact on rfl (hin.logout hx)
      case initPin p =>
        simp only [sessCall]
        rcases initPin_spec e l s p with h' | ⟨_, _, h1, h2, h'⟩
        · rw [h'.1]; exact h
        · exfalso
          have hm : l.token.login ≠ .so := hg
          unfold sessState at h2
          cases hl : l.token.login with
          | so => exact hm hl
          | user => rw [hl] at h2; dsimp only at h2; split at h2 <;> cases h2
          | pub => rw [hl] at h2; dsimp only at h2; split at h2 <;> cases h2
      case setPin o n =>
        have hm : l.token.login = .so := hg
        simp only [sessCall]
        rcases setPin_spec e l s o n with h' | ⟨_, n', _, _, _, h2, ⟨_, _, h'⟩ | ⟨g1, g2, h'⟩⟩
        · rw [h'.1]; exact h
        · rw [h']
          have hst := store_storable hx (l := { l with rng := l.rng + 1, token := { l.token with so :=
            { l.token.so with pin := e.store.hash n' (e.store.rand l.rng 16), seed := e.store.rand l.rng 16 } } }) hin.forms
          obtain ⟨k1, k2⟩ := store_ready (e := e) (l := { l with rng := l.rng + 1, token := { l.token with so :=
            { l.token.so with pin := e.store.hash n' (e.store.rand l.rng 16), seed := e.store.rand l.rng 16 } } })
            (fun z hz _ => by
              obtain ⟨d, hd, _⟩ := (hin.forms z hz).kept
              rw [hd]; rfl)
            (fun z hz => by
              rw [hst.1] at hz
              exact (hin.forms z hz).form.1)
          refine on rfl ?_
          show InDir e q (setSoPin e l n').1.token (setSoPin e l n').1.disk
          unfold setSoPin
          dsimp only
          rw [k1, k2]
          refine InDir.stored hx hin.len hin.pin hin.one hin.forms hin.shut hin.openly ?_
          obtain ⟨f1, f2, f3, f4, f5, f6⟩ := hfit
          exact ⟨f1, ⟨Nat.le_of_eq (hh ..), hr .., f2.3, f2.4, f2.5⟩, f3, f4, f5, f6⟩
        · exfalso
          unfold sessState at g1
          rw [hm] at g1
          rcases g1 with g1 | g1 <;> cases g1
    | false =>
    have hf := tframe_sessCall e l s c hacc
    have hcount : (sessCall e l s c).1.count = l.count :=
      (frame_sessCall e l s c (by rintro rfl; cases hacc)).count
    refine on hcount ?_
    by_cases hcr : c.creates = []
    · cases c with
      | destroy i =>
        simp only [sessCall, cDestroy]
        repeat' split
        all_goals first | exact hin | exact hin.remove hx hfit _
      | setAttr i t =>
        have hg : handleOnToken i = false := hg
        simp only [sessCall, cSetAttr, putObj, hg, Bool.false_eq_true, if_false]
        repeat' split
        all_goals exact hin
      | _ =>
        obtain ⟨h1, h2⟩ := sessCall_leaves e l s hacc hcr (by intros; simp) (by intros; simp)
        rw [h1, h2]; exact hin
    · have hg : tokenObjs (step e l (.sess j c)).1 = tokenObjs l ∨ (l.token.login = .user ∧ Writable e (step e l (.sess j c)).1) := by
        cases c <;> first | exact absurd rfl hcr | exact hg hcr
      rw [hstep] at hg hgood
      have hone : (sessCall e l s c).1.token.objs = l.token.objs ∨
          (l.token.login = .user ∧ (sessCall e l s c).1.token.toRec.Fits ∧ (∀ o ∈ (sessCall e l s c).1.token.objs, o.Storable) ∧
            ∀ o ∈ (sessCall e l s c).1.token.objs, o.IsKey ∧ o.KeptUnder e.store (e.store.hash q l.token.seed)) := by
        rcases hg with hg | ⟨hu, hw⟩
        · exact .inl hg
        · exact .inr ⟨hu, hw.record, hw.objects, hw.kept_under (by rw [hf.login]; exact hu) hin.one hf.user hf.seed⟩
      have hb' : ∀ t ∈ c.creates, TokOk (· ≤ 1) t := boolToken_tokOk (cs := []) hb
      rcases creates_made (e := e) l s c hcr hb' with hm | ⟨hm, _⟩
      · generalize sessCall e l s c = r at *
        cases hm with
        | kept hk =>
          rw [hk.tok, hk.disk]; exact hin
        | @one l₀ l' _ _ _ _ hk hadd =>
          have hin₀ : InDir e q l₀.token l₀.disk := by rw [hk.tok, hk.disk]; exact hin
          rcases hone with hg | hg
          · rcases sessAdd_len hadd with ⟨h1, h2⟩ | h1
            · exact hin₀.add hx hadd (.inl ⟨h1, h2⟩)
            · exfalso
              rw [hk.tok] at h1
              have hg : l'.token.objs = l.token.objs := hg
              rw [hg] at h1
              omega
          · exact hin₀.add hx hadd (.inr (by rw [hk.tok]; exact hg))
      · generalize sessCall e l s c = r at *
        cases hm with
        | kept hk => rw [hk.tok, hk.disk]; exact hin
        | broken hk => rw [hk] at hgood; cases hgood
        | ub hk => exact absurd hk hub
        | @two l₀ l₁ l' _ _ _ _ _ _ _ _ hk hadd _ _ _ hadd₁ =>
          have hin₀ : InDir e q l₀.token l₀.disk := by rw [hk.tok, hk.disk]; exact hin
          rcases hone with hg | hg
          · have hg : l'.token.objs = l.token.objs := hg
            rcases sessAdd_len hadd with ⟨h1, h2⟩ | h1 <;> rcases sessAdd_len hadd₁ with ⟨h3, h4⟩ | h3
            · exact (hin₀.add hx hadd (.inl ⟨h1, h2⟩)).add hx hadd₁ (.inl ⟨h3, h4⟩)
            · rw [h1, hk.tok, hg] at h3; omega
            · rw [h3] at hg; rw [hg, hk.tok] at h1; omega
            · rw [hg] at h3; rw [hk.tok] at h1; omega
          · obtain ⟨hu, g1, g2, g3⟩ := hg
            exact hin₀.add2 hx hadd hadd₁ (by rw [hk.tok]; exact hu) g1 g2 (by rw [hk.tok]; exact g3)

/-! ## The whole invariant -/

/-- A gentle call minds the key. -/
theorem Gentle.minds {q : Bytes} {k : Nat} {l : Lib} {c : Call} (hg : Gentle e k l c) (hk : handleOnToken k = true)
    (h : InDirLib e q l) (hfit : 0 < l.count → l.token.toRec.Fits)
    (hlive : 0 < l.count) : Minds e k l c := by
  have hin := (InDirLib.on hlive).mp h
  have hlen : ∀ {p : Bytes}, 4 ≤ p.length → p.length ≤ 32 → pinLenOk p = true := by
    intro p h1 h2; simp [pinLenOk, h1, h2]
  have henc : l.token.login = .user → AllEncodable e l := by
    intro hu o ho
    obtain ⟨i1, d, i2, i3⟩ := (hin.openly hu).2 o ho
    refine .inr ⟨i1, ?_⟩
    cases hkb : o.keyBytes e.store with
    | some _ => rfl
    | none => unfold Obj.sealedKey at i2; rw [hkb] at i2; cases i2
  cases c with
  | cInit => trivial
  | cFinal =>
    intro _
    refine ⟨hfit hlive, hin.forms, fun hu => ?_⟩
    have := hin.len
    simp only [pinLenOk, Bool.and_eq_true, decide_eq_true_eq] at this
    exact ⟨q, this.1, this.2, hin.pin, (hin.openly hu).2⟩
  | slot id c => cases c <;> first | trivial | exact hg
  | sess j c =>
    cases c with
    | destroy i => exact hg
    | setAttr i t =>
      have hg : handleOnToken i = false := hg
      intro hx
      rw [hx, hk] at hg; cases hg
    | initPin p => exact hg
    | setPin o n =>
      have hg : l.token.login = .so := hg
      show l.token.login ≠ .pub
      rw [hg]; decide
    | login u p n =>
      intro _ p q' p1 p2 q1 q2 m1 m2
      rw [hin.one p (hlen p1 p2) m1, hin.one q' (hlen q1 q2) m2]
    | logout => exact henc
    | close => exact henc
    | _ => trivial

/-- Everything that is kept over calls and ends of processes. -/
structure Durable (e : Env) (ov : Obj) (q : Bytes) (n : Nat) (l : Lib) : Prop where
  sinv : SInv l
  cap : CapInv l
  kinv : KInv e l
  handles : HandleInv n l
  inDir : InDirLib e q l
  notLost : NotLost e ov l

/-- What a process leaves behind is what `C_Finalize` would have left behind. -/
theorem killed_final (hx : StoreLaws e.store) {q : Bytes} {l : Lib} (h : InDirLib e q l) (hc : 0 < l.count) :
    ∃ so user : Account, SamePin l.token.so so ∧ SamePin l.token.user user ∧
      ({ l.token with so, user } : Token).toRec.Fits ∧
      (callBody e { l with count := 1, token := { l.token with so, user } } .cFinal).1 = Event.killed.next e l := by
  have hin := (InDirLib.on hc).mp h
  obtain ⟨so, user, h1, h2, h3, h4⟩ := hin.twin
  refine ⟨so, user, h1, h2, h3, ?_⟩
  have hin' : InDir e q { l.token with so, user } l.disk := hin.account h2 h1 rfl rfl rfl rfl id
  have hd := hin'.still hx h4 l.rng
  have hrng := congrArg (fun p => p.2.1) (storeObjs_storable (key := l.token.key) hx hin.forms l.rng).1
  simp only [callBody, cFinalize, Event.next, startOn]
  rw [if_pos (by rfl)]
  unfold Lib.store
  simp only [hd]
  have hrng : (storeToken e.store l.rng { l.token with so, user }).rng = l.rng := hrng
  rw [hrng]
  rfl

theorem Durable.killed (hx : StoreLaws e.store) (hh : HashLen e) (hr : RandLen e) {ov : Obj} {q : Bytes} {n : Nat} {l : Lib}
    (hcert : ov.cls ≠ CKO_CERTIFICATE) (h : Durable e ov q n l) (hn : n + 2 < 2 ^ 28) : Durable e ov q (n + 2) (Event.killed.next e l) := by
  by_cases hc : 0 < l.count
  · obtain ⟨so, user, h1, h2, h3, h4⟩ := killed_final hx h.inDir hc
    have hin := (InDirLib.on hc).mp h.inDir
    generalize hl2 : ({ l with count := 1, token := { l.token with so, user } } : Lib) = l2 at h4
    have hc2 : 0 < l2.count := by rw [← hl2]; show (0 : Int) < 1; omega
    have hs2 : SInv l2 := by
      subst hl2
      refine ⟨.inr ⟨hc2, ?_⟩, h.sinv.idle, h.sinv.so⟩
      rcases h.sinv.shape with ⟨g, _⟩ | ⟨_, g⟩
      · omega
      · exact g
    have hcap2 : CapInv l2 := by
      subst hl2
      refine ⟨h.cap.pop, ⟨h.cap.shape.label, ⟨?_, ?_⟩, ⟨?_, ?_⟩, h.cap.shape.seed⟩, fun g => by omega⟩
      · show so.pin.length ≤ 32
        rw [h1.1]; exact h.cap.shape.so.pin
      · show so.seed.length = 16
        rw [h1.2]; exact h.cap.shape.so.seed
      · show user.pin.length ≤ 32
        rw [h2.1]; exact h.cap.shape.user.pin
      · show user.seed.length = 16
        rw [h2.2]; exact h.cap.shape.user.seed
    have hK2 : KInv e l2 := by
      subst hl2
      intro hu
      obtain ⟨q, hq⟩ := h.kinv hu
      exact ⟨q, hq.same h2 rfl rfl⟩
    have hh2 : HandleInv n l2 := by
      have := h.handles
      unfold HandleInv at this ⊢
      rw [if_pos hc] at this
      rw [if_pos hc2]
      subst hl2
      exact ⟨this.tok, this.sess, this.ivs, this.disk⟩
    have hd2 : InDirLib e q l2 := by
      refine (InDirLib.on hc2).mpr ?_
      subst hl2
      exact hin.account h2 h1 rfl rfl rfl rfl id
    have hn2 : NotLost e ov l2 := by
      subst hl2
      by_cases hu : l.token.login = .user
      · exact (NotLost.user hc2 hu).mpr ((NotLost.user hc hu).mp h.notLost)
      · obtain ⟨q, g1, g2, g3⟩ := (NotLost.away hc hu).mp h.notLost
        exact (NotLost.away hc2 hu).mpr ⟨q, g1, (matches_same h2 q).mpr g2, g3⟩
    have hw2 : l2.count = 1 → Writable e l2 := by
      intro _
      have hin2 := (InDirLib.on hc2).mp hd2
      have hlen := hin2.len
      simp only [pinLenOk, Bool.and_eq_true, decide_eq_true_eq] at hlen
      refine ⟨by rw [← hl2]; exact h3, hin2.forms, fun hu => ?_⟩
      exact ⟨q, hlen.1, hlen.2, hin2.pin, (hin2.openly hu).2⟩
    have hbad : ∀ l : Lib, (callBody e l .cFinal).2.rv = .ok := fun _ => rfl
    rw [← h4]
    refine ⟨hs2.callBody e .cFinal, capInv_callBody hh hr hs2 hcap2 .cFinal, hK2.callBody hh .cFinal,
      handleInv_callBody hh hr hs2 hcap2 hh2 hn .cFinal (by intro c hc' t ht; simp at hc'; subst hc'; cases ht), ?_, ?_⟩
    · rw [h4]
      refine (InDirLib.off (by show ¬ (0 : Int) < 0; omega)).mpr ⟨{ l.token with login := .pub }, rfl, ?_, hin.pub⟩
      have := h.cap.pop.tokLen
      simpa using this
    · exact hn2.callBody hx hcert hcap2 hK2 (c := .cFinal) fun _ => hw2
  · have hc' : ¬ 0 < (Event.killed.next e l).count := by show ¬ (0 : Int) < 0; omega
    have hs : SInv (Event.killed.next e l) := ⟨.inl ⟨Int.le_refl 0, rfl⟩, fun s hs => (by cases hs), fun _ s hs => (by cases hs)⟩
    have hcap : CapInv (Event.killed.next e l) := by
      refine ⟨PopA.empty _ _ ?_, .default, fun _ => ⟨rfl, (h.cap.off (by omega)).2⟩⟩
      intro s hs; cases hs
    refine ⟨hs, hcap, fun hu => (by cases hu), ?_, ?_, ?_⟩
    · have := h.handles
      unfold HandleInv at this
      rw [if_neg hc] at this
      obtain ⟨ks, k1, k2, k3⟩ := this
      exact HandleInv.off hc' ⟨ks, k1.mono (by omega), k2, k3⟩
    · exact (InDirLib.off hc').mpr ((InDirLib.off hc).mp h.inDir)
    · exact (NotLost.off hc').mpr ((NotLost.off hc).mp h.notLost)

theorem Durable.step (hx : StoreLaws e.store) (hh : HashLen e) (hr : RandLen e) {ov : Obj} (hcert : ov.cls ≠ CKO_CERTIFICATE)
    {q : Bytes} {n : Nat} {l : Lib} (h : Durable e ov q n l) (hn : n + 2 < 2 ^ 28) {c : Call} (hb : BoolToken [c])
    (hk : handleOnToken ov.handle = true) (hfit : 0 < l.count → l.token.toRec.Fits) (hg : Gentle e ov.handle l c)
    (hgood : (step e l c).1.bad = false) : Durable e ov q (n + 2) (step e l c).1 := by
  have hin := h.inDir.callBody hx hh hr h.cap hfit hg hb hgood
  have hm : 0 < l.count → Minds e ov.handle l c := hg.minds hk h.inDir hfit
  rw [(step_good hgood).2.2]
  refine ⟨h.sinv.callBody e c, capInv_callBody hh hr h.sinv h.cap c, h.kinv.callBody hh c,
    handleInv_callBody hh hr h.sinv h.cap h.handles hn c hb, hin, ?_⟩
  exact h.notLost.callBody hx hcert h.cap h.kinv hm

end Verif
