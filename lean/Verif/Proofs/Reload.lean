import Verif.Proofs.Restart

/-!
# Storing the token and loading it again
-/

namespace Verif

variable {x : StoreExt} {key : Bytes}

/-- The object after storing and loading. -/
def Obj.reloaded (uid : Nat) (o : Obj) : Obj :=
  { newObj uid o.typ with
    iv := o.iv, handle := o.handle, cls := o.cls, keyGenMech := o.keyGenMech, onToken := o.onToken,
    local' := o.local', flag := o.flag, opFlag := o.opFlag, startDate := o.startDate, endDate := o.endDate,
    keyId := o.keyId, label := o.label, keyData := o.keyData
    data := if o.typ = CKK_DH then .dh { key := [], p := o.dh.p, g := o.dh.g } else .none }

theorem Obj.IsKey.form {o : Obj} (h : o.IsKey) : o.KeyForm := by
  obtain ⟨h1, h2⟩ := h
  refine ⟨h1, ?_, fun ht => ?_⟩
  · rcases h2 with h | h | h | h
    · exact .inl h.1
    · exact .inr (.inl h.1)
    · exact .inr (.inr (.inl h.1))
    · rcases h.1 with h | h
      · exact .inr (.inr (.inr (.inl h)))
      · exact .inr (.inr (.inr (.inr h)))
  · rw [ht] at h2
    rcases h2 with h | h | h | h
    · exact absurd h.1 (by decide)
    · exact absurd h.1 (by decide)
    · obtain ⟨_, _, k, hd, g1, g2, g3, _⟩ := h
      have hr : o.dh = k := by simp [Obj.dh, hd]
      rw [hr]
      exact ⟨g1, g2, g3⟩
    · rcases h.1 with h | h <;> exact absurd h (by decide)

theorem keyFile_isKey {o : Obj} (h : o.KeyForm) : ∃ f, keyFile o = some f ∧ f ≠ .cert := by
  unfold keyFile
  rw [if_neg h.1]
  rcases h.2.1 with ht | ht | ht | ht | ht
  · rw [if_pos ht]; exact ⟨_, rfl, by split <;> decide⟩
  · rw [if_neg (by rw [ht]; decide), if_pos ht]; exact ⟨_, rfl, by split <;> decide⟩
  · rw [if_neg (by rw [ht]; decide), if_neg (by rw [ht]; decide), if_pos ht]
    exact ⟨_, rfl, by split <;> decide⟩
  all_goals
    rw [if_neg (by rw [ht]; decide), if_neg (by rw [ht]; decide), if_neg (by rw [ht]; decide), if_pos (by simp [ht])]
    exact ⟨_, rfl, by decide⟩

/-- The bytes after the kept form in a key's file. -/
theorem keyTail_isKey (hx : StoreLaws x) {o : Obj} (h : o.KeyForm) :
    ∃ t, keyTail o = some t ∧
      (o.typ = CKK_DH → ∃ der, t = wrArray der ∧ der.length < 2 ^ 31 ∧ x.dhOfDer der = some (o.dh.p, o.dh.g)) := by
  unfold keyTail
  by_cases ht : o.typ = CKK_DH
  · rw [if_pos ht]
    obtain ⟨h1, h2, h3⟩ := h.2.2 ht
    obtain ⟨w, hw, hl, hder⟩ := c57_dh_params o.dh.p o.dh.g h1 h2 h3
    exact ⟨wrArray w, by rw [hw]; rfl, fun _ => ⟨w, rfl, by omega, hx.dh _ _ _ hder⟩⟩
  · rw [if_neg ht]
    exact ⟨[], rfl, fun h => absurd h ht⟩

/-- Storing such an object writes two files and does not change it. -/
theorem storeObj_storable (hx : StoreLaws x) {o : Obj} (h : o.Storable) (r i : Nat) :
    ∃ f t d, keyFile o = some f ∧ f ≠ .object ∧ keyTail o = some t ∧ o.keyData = some d ∧ d.length < 2 ^ 31 ∧
      storeObj x key r o i =
        { wr := [((.object, i), wrObject o), ((f, i), wrArray d ++ t)], obj := o, rng := r, ok := true } := by
  obtain ⟨f, hf, hfc⟩ := keyFile_isKey h.form
  obtain ⟨t, ht, _⟩ := keyTail_isKey hx h.form
  obtain ⟨d, hd, hl⟩ := h.kept
  refine ⟨f, t, d, hf, (keyFile_ne hf).2, ht, hd, hl, ?_⟩
  have hiv : needsIv o = false := by simp [needsIv, hd]
  have hkd : o.keyData.isNone = false := by simp [hd]
  unfold storeObj
  simp only [hiv, Bool.false_eq_true, if_false, hf, hkd, ht]
  cases f <;> first | exact absurd rfl hfc | (simp only [hd, Option.isNone_some, Bool.false_eq_true, if_false, ht])

theorem storeObjs_storable (hx : StoreLaws x) {os : List Obj} (h : ∀ o ∈ os, o.Storable) (r : Nat) :
    (storeObjs x key r os).2 = (os, r, true) ∧ ∀ w ∈ (storeObjs x key r os).1, w.1.2 < os.length := by
  induction os with
  | nil => exact ⟨rfl, fun w hw => by cases hw⟩
  | cons o os ih =>
    obtain ⟨f, t, d, _, _, _, _, _, he⟩ := storeObj_storable (key := key) hx (h o List.mem_cons_self) r os.length
    obtain ⟨i1, i2⟩ := ih fun p hp => h p (List.mem_cons_of_mem _ hp)
    simp only [storeObjs, he, if_true]
    refine ⟨by rw [i1], ?_⟩
    intro w hw
    simp only [List.cons_append, List.nil_append, List.mem_cons] at hw
    rcases hw with rfl | rfl | hw
    · simp
    · simp
    · have := i2 w hw; simp only [List.length_cons]; omega

theorem keyFile_same {o p : Obj} (h1 : p.cls = o.cls) (h2 : p.typ = o.typ) : keyFile p = keyFile o := by
  unfold keyFile; rw [h1, h2]

/-- Loading from the two files gives the object back. -/
theorem loadObj_reloaded (hx : StoreLaws x) {o : Obj} (h : o.Storable) {d : Disk} {i uid : Nat} {f : StoreType}
    {t kd : Bytes} (hf : keyFile o = some f) (ht : keyTail o = some t) (hkd : o.keyData = some kd)
    (h1 : d (.object, i) = some (wrObject o)) (h2 : d (f, i) = some (wrArray kd ++ t)) :
    loadObj x d (newObj uid o.typ) i = some (o.reloaded uid) := by
  have hl : kd.length < 2 ^ 31 := by
    obtain ⟨d', h, hl⟩ := h.kept
    rw [hkd] at h; cases h; exact hl
  have hrd := (c33_object o (newObj uid o.typ) h.fits).1 []
  rw [List.append_nil] at hrd
  unfold loadObj readFile
  rw [h1]
  simp only [Option.bind_some, hrd, Option.map_some]
  have hkf : ∀ p : Obj, p.cls = o.cls → p.typ = o.typ → keyFile p = some f := fun p a b => (keyFile_same a b).trans hf
  simp only [hkf { newObj uid o.typ with
    iv := o.iv, handle := o.handle, cls := o.cls, keyGenMech := o.keyGenMech, onToken := o.onToken,
    local' := o.local', flag := o.flag, opFlag := o.opFlag, startDate := o.startDate, endDate := o.endDate,
    keyId := o.keyId, label := o.label } rfl rfl]
  by_cases hdh : o.typ = CKK_DH
  · rw [if_pos ⟨h.form.1, hdh⟩, h2]
    obtain ⟨t', ht', hder⟩ := keyTail_isKey hx h.form
    rw [ht] at ht'
    cases ht'
    obtain ⟨der, rfl, hl2, hpg⟩ := hder hdh
    have hr : ReadsBack rdDhFile (wrArray kd ++ wrArray der) (kd, der) := by
      refine ReadsBack.bind (ReadsBack.allocArray hl) ?_
      exact ReadsBack.map (fun b => (kd, b)) (ReadsBack.allocArray hl2)
    have := hr.1 []
    rw [List.append_nil] at this
    simp only [Option.bind_some, this, Option.map_some, hpg]
    unfold Obj.reloaded
    rw [if_pos hdh, hkd]
    rfl
  · rw [if_neg (fun hx => hdh hx.2), h2]
    have hr := (ReadsBack.allocArray hl).1 t
    simp only [Option.bind_some, hr, Option.map_some]
    unfold Obj.reloaded
    rw [if_neg hdh, hkd]
    rfl

/-- The objects with numbers counting up. -/
def reloadAll : Nat → List Obj → List Obj
  | _, [] => []
  | u, o :: os => o.reloaded u :: reloadAll (u + 1) os

theorem loadObjs_reloaded (hx : StoreLaws x) {os : List Obj} (h : ∀ o ∈ os, o.Storable) (r uid : Nat) (d : Disk) :
    loadObjs x (d.puts (storeObjs x key r os).1) uid (os.map (·.typ)) = some (reloadAll uid os) := by
  induction os generalizing d uid with
  | nil => rfl
  | cons o os ih =>
    have ho := h o List.mem_cons_self
    have hos := fun p hp => h p (List.mem_cons_of_mem _ hp)
    obtain ⟨f, t, kd, hf, hne, ht, hkd, hl, he⟩ := storeObj_storable (key := key) hx ho r os.length
    have hlt := (storeObjs_storable (key := key) hx hos r).2
    simp only [storeObjs, he, if_true, List.map_cons, loadObjs, puts_append, List.length_map]
    rw [loadObj_reloaded (i := os.length) (f := f) (t := t) (kd := kd) hx ho hf ht hkd, Option.bind_some,
      ih hos (uid + 1) (d.puts [((.object, os.length), wrObject o), ((f, os.length), wrArray kd ++ t)])]
    · rfl
    · rw [puts_other fun w hw hx => by have := hlt w hw; rw [hx] at this; simp at this]
      show (if ((StoreType.object, os.length) : FName) = (f, os.length) then _ else _) = _
      rw [if_neg (by intro hx; cases hx; exact hne rfl)]
      exact if_pos rfl
    · rw [puts_other fun w hw hx => by have := hlt w hw; rw [hx] at this; simp at this]
      exact if_pos rfl

theorem reloadAll_map {α : Type} (g : Obj → α) (hg : ∀ u o, g (o.reloaded u) = g o) (u : Nat) (os : List Obj) :
    (reloadAll u os).map g = os.map g := by
  induction os generalizing u with
  | nil => rfl
  | cons o os ih => simp only [reloadAll, List.map_cons, hg, ih]

/-- Writing the token and loading it. -/
theorem loadToken_stored (hx : StoreLaws x) {t : Token} (ht : t.toRec.Fits) (ho : ∀ o ∈ t.objs, o.Storable)
    (d : Disk) (r uid : Nat) :
    loadToken x (d.puts (storeToken x r t).wr) uid =
      { label := t.label, init := true, so := t.so, user := t.user, seed := t.seed, objs := reloadAll uid t.objs } := by
  have hfile : d.puts (storeToken x r t).wr (.token, 0) = some (wrToken t.toRec) := by
    show (d.put ((.token, 0), wrToken t.toRec)).puts (storeObjs x t.key r t.objs).1 _ = _
    rw [puts_other fun w hw h => by
      have := (storeObjs_wr x t.key r t.objs w hw).1
      rw [h] at this; exact this rfl]
    exact if_pos rfl
  have hrd := (c33_token _ ht).1 []
  rw [List.append_nil] at hrd
  unfold loadToken
  rw [hfile]
  dsimp only
  rw [hrd]
  dsimp only
  have hty : t.toRec.types = t.objs.map (·.typ) := rfl
  rw [hty]
  have := loadObjs_reloaded (key := t.key) hx ho r uid (d.put ((.token, 0), wrToken t.toRec))
  rw [show (d.puts (storeToken x r t).wr) =
    (d.put ((.token, 0), wrToken t.toRec)).puts (storeObjs x t.key r t.objs).1 from rfl, this]
  rfl

end Verif
