import Verif.Proofs.AttrSet
import Verif.Proofs.Demo
import Verif.Props.AttrGet

/-!
# C26, C28, C31: setting attributes
-/

namespace Verif

/-! ## C26 -/

/-- The key setter keeps anything that does not depend on the key data and the RSA
size. -/
theorem setKey_keeps {α : Type} (f : Obj → α) (hf : ∀ o d s, f { o with data := d, size := s } = f o)
    (x : KeyExt) (o : Obj) (v : CKA → Option Bytes) : f (setKey x o v).2 = f o := by
  obtain ⟨d, s, h⟩ := setKey_frame x o v
  rw [h]; exact hf o d s

/-- **C26** (partial). A `C_SetAttributeValue` call, whatever it returns, leaves a
sensitive key sensitive if its template does not set `CKA_SENSITIVE` to false, and
leaves an unextractable key unextractable if its template does not set
`CKA_EXTRACTABLE` to true.  Missing: the call should refuse such a template; see
`c26_violated`. -/
theorem c26_stays_protected_partial (x : KeyExt) (rw : Bool) (o : Obj) (t : List Entry) :
    (o.Sensitive → (∀ e ∈ t, e.typ = .sensitive → isTrue e.val = true) →
      (setAttributeValue x rw o t).2.Sensitive) ∧
    (¬ o.Extractable → (∀ e ∈ t, e.typ = .extractable → isTrue e.val = false) →
      ¬ (setAttributeValue x rw o t).2.Extractable) := by
  constructor
  · intro h ht
    refine setAttributeValue_inv (P := fun o => o.flag.getLsbD 1 = true) x rw o t ?_ ?_ h
    · intro o v hp; rw [setKey_keeps (fun o => o.flag.getLsbD 1) (fun _ _ _ => rfl)]; exact hp
    · intro o e he hp
      rw [setAttr_flBit o e 1 (by decide)]
      split
      · rename_i hi
        apply ht e he
        revert hi; cases e.typ <;> simp [flIdx]
      · exact hp
  · intro h ht
    have h' : o.flag.getLsbD 2 = false := by simpa [Obj.Extractable] using h
    suffices hs : (setAttributeValue x rw o t).2.flag.getLsbD 2 = false by
      intro hx; rw [Obj.Extractable, hs] at hx; cases hx
    refine setAttributeValue_inv (P := fun o => o.flag.getLsbD 2 = false) x rw o t ?_ ?_ h'
    · intro o v hp; rw [setKey_keeps (fun o => o.flag.getLsbD 2) (fun _ _ _ => rfl)]; exact hp
    · intro o e he hp
      rw [setAttr_flBit o e 2 (by decide)]
      split
      · rename_i hi
        apply ht e he
        revert hi; cases e.typ <;> simp [flIdx]
      · exact hp

/-- A sensitive, unextractable AES key. -/
def Demo.guarded : Obj :=
  { typ := CKK_AES, cls := CKO_SECRET_KEY, flag := FLAG_SENSITIVE, data := .symm (List.replicate 16 7) }

/-- A template that renames the key meets the hypotheses. -/
example : Demo.guarded.Sensitive ∧ ¬ Demo.guarded.Extractable ∧
    (setAttributeValue Demo.kx true Demo.guarded [Entry.of .label [1]]).1 = .ok := by decide

/-- A sensitive, unextractable DH private key. -/
def Demo.dhPriv : Obj :=
  { typ := CKK_DH, cls := CKO_PRIVATE_KEY, flag := FLAG_SENSITIVE, data := .dh { p := 23, g := 5, key := [6, 7] } }

/-- **C26 is violated.** One `C_SetAttributeValue` call turns a sensitive, unextractable
key into a plain, extractable one, and its private value, which was not readable, is
then returned. -/
theorem c26_violated : ∃ o t o', o.Sensitive ∧ ¬ o.Extractable ∧ (readAttr Demo.kx o .value 2).2 = [0, 0] ∧
    setAttributeValue Demo.kx true o t = (.ok, o') ∧ ¬ o'.Sensitive ∧ o'.Extractable ∧
    readAttr Demo.kx o' .value 2 = (.ok, [6, 7]) :=
  ⟨Demo.dhPriv, [Entry.of .sensitive (cbool false), Entry.of .extractable (cbool true)], _,
    by decide, by decide, by decide, rfl, by decide, by decide, by decide⟩

/-! ## C28 -/

theorem isTrue_cbool (b : Bool) : isTrue (cbool b) = b := by cases b <;> decide

theorem setAttributeValue_single {x : KeyExt} {o o' : Obj} {e : Entry}
    (h : setAttributeValue x true o [e] = (.ok, o')) :
    ∃ d s, o' = (setAttr { o with data := d, size := s } e).2 := by
  obtain ⟨-, -, -, h4⟩ := setAttributeValue_ok h
  obtain ⟨d, s, hf⟩ := setKey_frame x o (keyVals [e])
  obtain ⟨-, h5⟩ := setAttrs_cons_ok _ e [] (by rw [h4])
  rw [h5] at h4
  simp only [setAttrs, Prod.mk.injEq, true_and] at h4
  exact ⟨d, s, by rw [← h4, hf]⟩

/-- A boolean attribute that no bit stands for reads the same whatever the flags and
the key data. -/
theorem getAttr_bool_other (x : KeyExt) (o o' : Obj) (a : CKA) (ha : a.IsBool) (hr : rdIdx a = none)
    (h : SameRest { o with data := o'.data, size := o'.size } o') :
    getAttr x o' a = getAttr x o a := by
  have h1 := h.typ
  have h2 := h.onToken
  have h3 := h.local'
  simp only at h1 h2 h3
  funext buf len
  cases a <;> simp only [CKA.IsBool, CKA.kind, rdIdx, reduceCtorEq, Option.some.injEq] at ha hr <;>
    simp [getAttr, getKeyAttr, misread, rsaGetAttr, ecGetAttr, dhGetAttr, secretGetAttr, h1, h2, h3]

/-- The usage attributes for which setting and reading use the same bit. -/
def CKA.IsUsage (a : CKA) : Prop :=
  a ∈ [CKA.encrypt, .decrypt, .sign, .signRecover, .verify, .verifyRecover, .wrap, .derive]

instance (a : CKA) : Decidable a.IsUsage := by unfold CKA.IsUsage; infer_instance

/-- **C28** (partial). For the usage attributes except `CKA_UNWRAP`: after a successful
`C_SetAttributeValue` of the attribute to `b`, `C_GetAttributeValue` returns `b`, and
returns for every other boolean attribute what it returned before -- except that
`CKA_TRUSTED` follows `CKA_ENCRYPT`.  Missing: `CKA_UNWRAP`, the protection attributes
and `CKA_TRUSTED`, for which the code does otherwise (below). -/
theorem c28_usage_partial (x : KeyExt) (o o' : Obj) (a : CKA) (ha : a.IsUsage) (b : Bool)
    (h : setAttributeValue x true o [Entry.of a (cbool b)] = (.ok, o')) :
    readAttr x o' a 1 = (.ok, cbool b) ∧
    ∀ a', a'.IsBool → a' ≠ a → ¬ (a = .encrypt ∧ a' = .trusted) →
      readAttr x o' a' 1 = readAttr x o a' 1 := by
  obtain ⟨d, s, ho⟩ := setAttributeValue_single h
  have hbit : ∀ j, j < 32 → o'.opFlag.getLsbD j = if opIdx a = some j then b else o.opFlag.getLsbD j := by
    intro j hj
    rw [ho, setAttr_opBit _ _ j hj]
    have : (Entry.of a (cbool b)).val = cbool b := by simp [Entry.val, Entry.of]
    rw [this, isTrue_cbool]
    rfl
  constructor
  · obtain ⟨i, hi, hi', hs⟩ : ∃ i, rdIdx a = some i ∧ opIdx a = some i ∧ SizeFor a 1 := by
      simp only [CKA.IsUsage, List.mem_cons, List.not_mem_nil, or_false] at ha
      rcases ha with rfl | rfl | rfl | rfl | rfl | rfl | rfl | rfl <;> exact ⟨_, rfl, rfl, rfl⟩
    apply readAttr_of x o' a _ 1 _ hs (by simp [cbool])
    rw [getAttr_bit x o' a i hi, hbit i (opIdx_lt a i hi'), if_pos hi']
  · intro a' hb hne hal
    apply readAttr_congr
    cases hr : rdIdx a' with
    | none =>
      apply getAttr_bool_other x o o' a' hb hr
      have := setAttr_rest { o with data := d, size := s } (Entry.of a (cbool b))
      rw [← ho] at this
      have e1 := this.data; have e2 := this.size
      simp only at e1 e2
      rw [e1, e2]; exact this
    | some i =>
      have hi : i < 32 := rdIdx_lt _ _ hr
      rw [getAttr_bit x o' a' i hr, getAttr_bit x o a' i hr, hbit i hi, if_neg]
      intro hc
      rcases idx_alias hr hc with h | ⟨-, h⟩ | ⟨h, h'⟩
      · exact hne h.symm
      · rw [h] at ha; simp [CKA.IsUsage] at ha
      · exact hal ⟨h', h⟩

/-- Setting `CKA_DECRYPT` of an AES key succeeds. -/
example : (setAttributeValue Demo.kx true Demo.guarded [Entry.of .decrypt (cbool true)]).1 = .ok := by decide

/-- **C28 is violated** for `CKA_SENSITIVE` (and every other protection attribute, which
is stored in one word and read from another): set to true, it reads false. -/
theorem c28_violated_protection : ∀ a ∈ [CKA.priv, .sensitive, .extractable, .modifiable, .alwaysSensitive,
      .neverExtractable, .alwaysAuth, .wrapWithTrusted, .trusted],
    ∃ o', setAttributeValue Demo.kx true Demo.key [Entry.of a (cbool true)] = (.ok, o') ∧
      readAttr Demo.kx o' a 1 = (.ok, cbool false) := by
  intro a ha
  simp only [List.mem_cons, List.not_mem_nil, or_false] at ha
  rcases ha with rfl | rfl | rfl | rfl | rfl | rfl | rfl | rfl | rfl <;> exact ⟨_, rfl, by decide⟩

/-- **C28 is violated** for `CKA_UNWRAP`: set to true it reads false, and `CKA_WRAP`,
which was not named, becomes true. -/
theorem c28_violated_unwrap : ∃ o',
    setAttributeValue Demo.kx true Demo.key [Entry.of .unwrap (cbool true)] = (.ok, o') ∧
    readAttr Demo.kx o' .unwrap 1 = (.ok, cbool false) ∧
    readAttr Demo.kx Demo.key .wrap 1 = (.ok, cbool false) ∧ readAttr Demo.kx o' .wrap 1 = (.ok, cbool true) :=
  ⟨_, rfl, by decide, by decide, by decide⟩

/-- **C28 is violated** for `CKA_TRUSTED`: it becomes true when `CKA_ENCRYPT` is set. -/
theorem c28_violated_trusted : ∃ o',
    setAttributeValue Demo.kx true Demo.key [Entry.of .encrypt (cbool true)] = (.ok, o') ∧
    readAttr Demo.kx Demo.key .trusted 1 = (.ok, cbool false) ∧
    readAttr Demo.kx o' .trusted 1 = (.ok, cbool true) :=
  ⟨_, rfl, by decide, by decide⟩

/-! ## C31 -/

/-- The attributes of an object other than its key material. -/
def CKA.NotKeyMaterial (a : CKA) : Prop :=
  a.IsBool ∨ a ∈ [CKA.cls, .label, .id, .startDate, .endDate, .keyType, .keyGenMech]

instance (a : CKA) : Decidable a.NotKeyMaterial := by unfold CKA.NotKeyMaterial; infer_instance

/-- A `C_SetAttributeValue` call and the attributes it does not name. -/
theorem unnamed_getAttr (x : KeyExt) (rw : Bool) (o : Obj) (t : List Entry) (a : CKA) (ha : a.NotKeyMaterial)
    (hn : ∀ e ∈ t, e.typ ≠ a) (hw : a = .wrap → ∀ e ∈ t, e.typ ≠ .unwrap)
    (ht : a = .trusted → ∀ e ∈ t, e.typ ≠ .encrypt) :
    getAttr x (setAttributeValue x rw o t).2 a = getAttr x o a := by
  refine setAttributeValue_inv (P := fun o' => getAttr x o' a = getAttr x o a) x rw o t ?_ ?_ rfl
  · intro o1 v h1
    rw [← h1]
    obtain ⟨d, s, hf⟩ := setKey_frame x o1 v
    rw [hf]
    rcases ha with ha | ha
    · cases hr : rdIdx a with
      | none => exact getAttr_bool_other x o1 _ a ha hr (SameRest.refl _)
      | some i => rw [getAttr_bit x _ a i hr, getAttr_bit x _ a i hr]
    · simp only [List.mem_cons, List.not_mem_nil, or_false] at ha
      rcases ha with rfl | rfl | rfl | rfl | rfl | rfl | rfl <;> rfl
  · intro o1 e he h1
    rw [← h1]
    have hr := setAttr_rest o1 e
    rcases ha with ha | ha
    · cases hi : rdIdx a with
      | none =>
        apply getAttr_bool_other x o1 _ a ha hi
        have e1 := hr.data; have e2 := hr.size
        rw [e1, e2]; exact hr
      | some i =>
        have hi' : i < 32 := rdIdx_lt _ _ hi
        rw [getAttr_bit x _ a i hi, getAttr_bit x _ a i hi, setAttr_opBit _ _ i hi', if_neg]
        intro hx
        rcases idx_alias hi hx with h | ⟨h, h'⟩ | ⟨h, h'⟩
        · exact hn e he h
        · exact hw h e he h'
        · exact ht h e he h'
    · simp only [List.mem_cons, List.not_mem_nil, or_false] at ha
      rcases ha with rfl | rfl | rfl | rfl | rfl | rfl | rfl <;> funext buf len <;> simp only [getAttr]
      · rw [setAttr_cls _ _ (hn e he)]
      · rw [setAttr_label _ _ (hn e he)]
      · rw [setAttr_id _ _ (hn e he)]
      · rw [setAttr_start _ _ (hn e he)]
      · rw [setAttr_end _ _ (hn e he)]
      · rw [hr.typ]
      · rw [hr.keyGenMech]

/-- **C31** (partial). A `C_SetAttributeValue` call, whatever it returns, does not
change what `C_GetAttributeValue` returns for an attribute that is not key material and
that the template does not name -- except that `CKA_WRAP` follows `CKA_UNWRAP` and
`CKA_TRUSTED` follows `CKA_ENCRYPT`.  Missing: key material, which the code clears, and
atomicity of a failing call (below). -/
theorem c31_unnamed_partial (x : KeyExt) (rw : Bool) (o : Obj) (t : List Entry) (a : CKA) (ha : a.NotKeyMaterial)
    (hn : ∀ e ∈ t, e.typ ≠ a) (hw : a = .wrap → ∀ e ∈ t, e.typ ≠ .unwrap)
    (ht : a = .trusted → ∀ e ∈ t, e.typ ≠ .encrypt) (n : Nat) :
    readAttr x (setAttributeValue x rw o t).2 a n = readAttr x o a n := by
  exact readAttr_congr x _ _ a n (unnamed_getAttr x rw o t a ha hn hw ht)

/-- Setting the label leaves the `CKA_SIGN` attribute. -/
example : (setAttributeValue Demo.kx true Demo.key [Entry.of .label [65]]).1 = .ok ∧
    CKA.sign.NotKeyMaterial ∧ CKA.id.NotKeyMaterial := by decide

/-- **C31 is violated**: setting only the label of a key clears the key. -/
theorem c31_violated_wiped : ∃ o', readAttr Demo.kx Demo.extr .value 32 ≠ (.ok, []) ∧
    setAttributeValue Demo.kx true Demo.extr [Entry.of .label [65]] = (.ok, o') ∧
    readAttr Demo.kx o' .value 32 = (.ok, []) :=
  ⟨_, by decide, rfl, by decide⟩

/-- **C31 is violated**: a call that fails has changed the label. -/
theorem c31_violated_not_atomic : ∃ rv o',
    setAttributeValue Demo.kx true Demo.key [Entry.of .label [65], Entry.of .modulus [3]] = (rv, o') ∧
    rv ≠ .ok ∧ readAttr Demo.kx Demo.key .label 8 = (.ok, []) ∧ readAttr Demo.kx o' .label 8 = (.ok, [65]) :=
  ⟨_, _, rfl, by decide, by decide, by decide⟩

end Verif
