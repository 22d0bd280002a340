import Verif.Proofs.Small

/-!
# Keys always fit their arrays
-/

namespace Verif

variable {e : Env}

/-- The length given in the template fits. -/
def LenFits (t : List Entry) : Prop := ∀ en ∈ t, en.typ = .valueLen → leNat en.val ≤ 512

theorem leNat_lt (b : Bytes) : leNat b < 256 ^ b.length := by
  induction b with
  | nil => exact Nat.one_pos
  | cons a b ih =>
    simp only [leNat, List.length_cons, Nat.pow_succ]
    have := a.toNat_lt
    omega

theorem leNat_lt64 {b : Bytes} (h : b.length ≤ 8) : leNat b < 2 ^ 64 :=
  Nat.lt_of_lt_of_le (leNat_lt b) (Nat.pow_le_pow_right (by decide) h : 256 ^ b.length ≤ 256 ^ 8)

theorem checked {set : Bool} {t : List Entry} (h : checkAttributes set t = .ok) : ∀ en ∈ t, checkEntry set en = .ok := by
  induction t with
  | nil => intro en hen; cases hen
  | cons a t ih =>
    unfold checkAttributes at h
    split at h
    · rename_i ha
      intro en hen
      rcases List.mem_cons.mp hen with rfl | hen
      · exact ha
      · exact ih h en hen
    · rename_i ha; exact absurd h ha

theorem checked_ulong {en : Entry} (h : checkEntry true en = .ok) (hk : en.typ.kind = some .ulong) :
    en.len = 8 ∧ en.mem ≠ none := by
  unfold checkEntry at h
  rw [hk] at h
  dsimp only at h
  split at h
  · cases h
  rename_i h1
  split at h
  · cases h
  rename_i h2
  cases hm : en.mem with
  | none => rw [hm] at h1; simp at h1
  | some m =>
    rw [hm] at h2
    simp at h2
    exact ⟨h2, (fun h => by cases h)⟩

theorem val_len (en : Entry) : en.val.length ≤ en.len := by
  unfold Entry.val
  rw [List.length_take]
  exact Nat.min_le_left _ _

theorem setAttr_cls_lt {o : Obj} {en : Entry} (hc : checkEntry true en = .ok) (h : o.cls < 2 ^ 64) :
    (setAttr o en).2.cls < 2 ^ 64 := by
  by_cases ht : en.typ = .cls
  · unfold setAttr
    rw [ht]
    dsimp only
    split
    · exact h
    · exact leNat_lt64 (Nat.le_trans (val_len en) (Nat.le_of_eq (checked_ulong hc (by rw [ht]; rfl)).1))
  · rw [setAttr_cls o en ht]; exact h

/-- What a successful `SetAttributeValue` went through. -/
theorem setAttributeValue_went {x : KeyExt} {b : Bool} {o : Obj} {t : List Entry} (h : (setAttributeValue x b o t).1 = .ok) :
    checkAttributes true t = .ok ∧ keyParams o ≠ none ∧ (setKey x o (keyVals t)).1 = .ok ∧
      setAttributeValue x b o t = setAttrs (setKey x o (keyVals t)).2 t := by
  unfold setAttributeValue at h ⊢
  dsimp only at h ⊢
  split at h
  · cases h
  rename_i h1
  rw [if_neg h1]
  split at h
  · rename_i h2; exact absurd h h2
  rename_i h2
  rw [if_neg h2]
  split at h
  · cases h
  rename_i ps hps
  split at h
  · cases h
  rename_i h3
  split at h
  · rename_i h4
    refine ⟨Decidable.not_not.mp h2, ?_, h4, ?_⟩
    · rw [hps]; exact fun h => by cases h
    · simp only [hps, if_neg h3, h4]
  · cases h
  · cases h

theorem setAttrs_data (o : Obj) (t : List Entry) : (setAttrs o t).2.data = o.data ∧ (setAttrs o t).2.keyData = o.keyData ∧
    (setAttrs o t).2.typ = o.typ := by
  refine setAttrs_inv (P := fun p => p.data = o.data ∧ p.keyData = o.keyData ∧ p.typ = o.typ) t ?_ o ⟨rfl, rfl, rfl⟩
  intro p en _ hp
  have := setAttr_rest p en
  exact ⟨this.data.trans hp.1, this.keyData.trans hp.2.1, this.typ.trans hp.2.2⟩

theorem keyVals_mem {t : List Entry} {a : CKA} {v : Bytes} (h : keyVals t a = some v) : ∃ en ∈ t, en.typ = a ∧ en.val = v := by
  unfold keyVals at h
  obtain ⟨en, hen, rfl⟩ := Option.map_eq_some_iff.mp h
  have h1 := List.find?_some hen
  exact ⟨en, List.mem_of_find?_eq_some hen, (by simpa using h1), rfl⟩

theorem secretLen_small {typ n : Nat} {vlen value : Option Bytes} (h : secretLen typ vlen value = .ok n)
    (h1 : ∀ b, vlen = some b → leNat b ≤ 512) (h2 : ∀ b, value = some b → b.length ≤ 512) : n ≤ 512 := by
  unfold secretLen at h
  split at h
  · cases h
    cases value with
    | none => exact Nat.zero_le _
    | some b => exact h2 b rfl
  · rename_i l
    have h1 := h1 l rfl
    split at h
    · cases h
    split at h
    · cases h
    have : leNat l % 2 ^ 32 ≤ 512 := Nat.le_trans (Nat.mod_le _ _) h1
    dsimp only at h
    split at h
    · cases h; exact this
    · rename_i b
      split at h
      · cases h; exact h2 b rfl
      split at h
      · cases h
      · cases h; exact this

/-- A key setter that succeeds leaves a key that fits. -/
theorem setKey_fits {x : KeyExt} {o : Obj} {v : CKA → Option Bytes} (h : (setKey x o v).1 = .ok)
    (hd : o.dh.key.length ≤ 512) (hl : ∀ b, v .valueLen = some b → leNat b ≤ 512) :
    (setKey x o v).2.symm.length ≤ 512 ∧ (setKey x o v).2.dh.key.length ≤ 512 := by
  have z : ([] : Bytes).length ≤ 512 := Nat.zero_le _
  unfold setKey at h ⊢
  split at h
  · rename_i hc
    rw [if_pos hc]
    unfold setCert
    dsimp only
    repeat' split
    all_goals exact ⟨z, z⟩
  rename_i hc
  rw [if_neg hc]
  split at h
  · rename_i ht
    rw [if_pos ht]
    unfold setRsaKey
    dsimp only
    repeat' split
    all_goals exact ⟨z, z⟩
  rename_i ht
  rw [if_neg ht]
  split at h
  · rename_i ht
    rw [if_pos ht]
    unfold setEcKey
    dsimp only
    split
    all_goals exact ⟨z, z⟩
  rename_i ht
  rw [if_neg ht]
  split at h
  · rename_i ht
    rw [if_pos ht]
    unfold setDhKey
    dsimp only
    split
    · exact ⟨z, hd⟩
    split
    · exact ⟨z, hd⟩
    split
    · exact ⟨z, hd⟩
    · rename_i hb; exact ⟨z, Nat.le_of_not_lt hb⟩
  rename_i ht
  rw [if_neg ht]
  unfold setSecretKey at h ⊢
  cases hs : secretLen o.typ (v .valueLen) (v .value) with
  | error r => exact ⟨secretLeft_le hl, z⟩
  | ok n =>
    rw [hs] at h
    dsimp only at h ⊢
    cases hv : v .value with
    | none =>
      refine ⟨?_, z⟩
      show (List.replicate n (0 : UInt8)).length ≤ 512
      rw [List.length_replicate]
      rw [hv] at hs
      exact secretLen_small hs hl (fun b hb => by cases hb)
    | some b =>
      rw [hv] at h
      dsimp only at h ⊢
      split at h
      · cases h
      rename_i hn
      refine ⟨?_, z⟩
      show (b.take n).length ≤ 512
      rw [List.length_take]
      have : n ≤ 512 := Nat.le_of_not_lt hn
      omega

/-- Making an object: a template that gives no length above the size of the array makes an
object that fits. -/
theorem setAttributeValue_small {x : KeyExt} {b : Bool} {o : Obj} {t : List Entry} (h : (setAttributeValue x b o t).1 = .ok)
    (hd : o.dh.key.length ≤ 512) (hk : o.keyData = none) (hc : o.cls < 2 ^ 64) (ht : LenFits t) :
    Small (setAttributeValue x b o t).2 := by
  obtain ⟨h1, _, h3, h4⟩ := setAttributeValue_went h
  rw [h4]
  have hf := setKey_fits h3 hd (fun b hb => by
    obtain ⟨en, hm, ht', rfl⟩ := keyVals_mem hb
    exact ht en hm ht')
  obtain ⟨d, s, hfr⟩ := setKey_frame x o (keyVals t)
  obtain ⟨a1, a2, a3⟩ := setAttrs_data (setKey x o (keyVals t)).2 t
  refine .none ?_ ?_ ?_ ?_
  · rw [a2, hfr]; exact hk
  · unfold Obj.symm at hf ⊢; rw [a1]; exact hf.1
  · unfold Obj.dh at hf ⊢; rw [a1]; exact hf.2
  · refine setAttrs_inv (P := fun p => p.cls < 2 ^ 64) t (fun p en hen hp => setAttr_cls_lt (checked h1 en hen) hp) _ ?_
    rw [hfr]; exact hc

theorem getEntries_mem {x : KeyExt} {o : Obj} {t : List Entry} (h : (getEntries x o t).1 = .ok) :
    ∀ en ∈ (getEntries x o t).2, ∃ en₀ ∈ t, getEntry x o en₀ = (.ok, en) := by
  induction t with
  | nil => intro en hen; cases hen
  | cons a t ih =>
    simp only [getEntries] at h ⊢
    split at h
    · rename_i ha
      simp only [if_pos ha]
      intro en hen
      rcases List.mem_cons.mp hen with rfl | hen
      · exact ⟨a, List.mem_cons_self, Prod.ext ha rfl⟩
      · obtain ⟨b, hb, hx⟩ := ih h en hen
        exact ⟨b, List.mem_cons_of_mem _ hb, hx⟩
    · rename_i ha; exact absurd h ha

theorem getAttributeValue_mem {x : KeyExt} {o : Obj} {t : List Entry} (h : (getAttributeValue x o t).1 = .ok) :
    ∀ en ∈ (getAttributeValue x o t).2, ∃ en₀ ∈ t, checkEntry false en₀ = .ok ∧ getEntry x o en₀ = (.ok, en) := by
  unfold getAttributeValue at h ⊢
  dsimp only at h ⊢
  split at h
  · rename_i hc; exact absurd h hc
  rename_i hc
  rw [if_neg hc]
  intro en hen
  obtain ⟨a, ha, hx⟩ := getEntries_mem h en hen
  exact ⟨a, ha, checked (Decidable.not_not.mp hc) a ha, hx⟩

/-- What reading an attribute leaves in an entry with a buffer. -/
theorem getEntry_went {x : KeyExt} {o : Obj} {en en' : Entry} (h : getEntry x o en = (.ok, en')) :
    (getAttr x o en.typ en.mem.isSome en.len).ret = .ok ∧ en'.typ = en.typ ∧
    en'.len = (getAttr x o en.typ en.mem.isSome en.len).len ∧
    en'.mem = en.mem.map (fun m => (getAttr x o en.typ en.mem.isSome en.len).wr ++
      m.drop (getAttr x o en.typ en.mem.isSome en.len).wr.length) := by
  unfold getEntry at h
  dsimp only at h
  split at h <;> cases h
  rename_i hr
  exact ⟨hr, rfl, rfl, rfl⟩

theorem secret_len_read {o : Obj} (ho : o.symm.length ≤ 512) :
    leNat (ulong o.symm.length) ≤ 512 := by
  have : leNat (ulong o.symm.length) = o.symm.length % 256 ^ 8 := leNat_leBytes 8 _
  rw [this]
  exact Nat.le_trans (Nat.mod_le _ _) ho

/-- Reading `CKA_VALUE_LEN` gives the length of the key. -/
theorem get_valueLen {x : KeyExt} {o : Obj} {b : Bool} {n : Nat} (h : (getAttr x o .valueLen b n).ret = .ok) :
    getAttr x o .valueLen b n = getData (ulong o.symm.length) b n := by
  have h : (getKeyAttr x o .valueLen b n).ret = .ok := h
  show getKeyAttr x o .valueLen b n = _
  unfold getKeyAttr at h ⊢
  split at h
  · rename_i hc; exact absurd hc.2 (by decide)
  rename_i hc
  rw [if_neg hc]
  split at h
  · cases h
  rename_i hc
  rw [if_neg hc]
  split at h
  · cases h
  rename_i hc
  rw [if_neg hc]
  split at h
  · cases h
  rename_i hc
  rw [if_neg hc]
  split at h
  · cases h
  rename_i hc
  rw [if_neg hc]
  split at h
  · rename_i hc
    rw [if_pos hc]; rfl
  · cases h

theorem copied_lenFits {x : KeyExt} {o : Obj} {t : List Entry} (ho : o.symm.length ≤ 512)
    (h : (getAttributeValue x o t).1 = .ok) (hc : checkAttributes true (getAttributeValue x o t).2 = .ok) :
    LenFits (getAttributeValue x o t).2 := by
  intro en hen ht
  obtain ⟨en₀, _, hc₀, hg⟩ := getAttributeValue_mem h en hen
  obtain ⟨h1, h2, h3, h4⟩ := getEntry_went hg
  rw [ht] at h2
  rw [← h2] at h1 h3 h4
  obtain ⟨c1, c2⟩ := checked_ulong (checked hc en hen) (by rw [ht]; rfl)
  cases hm : en₀.mem with
  | none => rw [hm] at h4; exact absurd h4 c2
  | some m =>
    rw [hm] at h1 h3 h4
    have hv := get_valueLen h1
    rw [hv] at h1 h3 h4
    simp only [getData, Option.isSome_some, Bool.not_true, Bool.false_eq_true, if_false] at h1 h3 h4
    split at h1
    · cases h1
    rename_i hl
    rw [if_neg hl] at h3 h4
    dsimp only [Option.map_some] at h3 h4
    have : en.val = ulong o.symm.length := by
      unfold Entry.val
      rw [h4, h3, Option.getD_some, List.take_left']
      rfl
    rw [this]
    exact secret_len_read ho

theorem small_closed (hl : SafeLaws e) : Closed e Small (fun _ => True) SmallDisk LenFits (fun _ => False) where
  name := fun _ _ _ _ h => h.same rfl rfl rfl rfl
  new := by
    intro typ cls b t _ ht hc hok
    refine setAttributeValue_small hok (Nat.zero_le _) rfl ?_ ht
    show cls < 2 ^ 64
    rcases hc with rfl | rfl | rfl | hc
    · decide
    · decide
    · decide
    · unfold templClass at hc
      split at hc
      · cases hc; decide
      · split at hc
        · cases hc
        split at hc
        · cases hc
        rename_i hn
        cases hc
        exact leNat_lt64 (Nat.le_trans (val_len _) (Nat.le_of_eq (Decidable.not_not.mp hn)))
  set := fun _ _ _ h => h.elim
  copy := by
    intro o t ho hg hok
    exact setAttributeValue_small hok (Nat.zero_le _) rfl (by show (0 : Nat) < 2 ^ 64; decide)
      (copied_lenFits ho.symm hg (setAttributeValue_went hok).1)
  enc := fun _ k b _ h => encodeObj_small hl.sealed k b h
  dec := fun o k h => by
    unfold decodeObj
    exact (decodeKey_small hl.sealed k h).2
  sto := fun _ k r i _ h => storeObj_small hl.sealed k r i h
  symm := fun o k _ _ h => h.data
    (by show (e.store.rand k o.symm.length).length ≤ 512; rw [hl.rand]; exact h.symm) (Nat.zero_le _) rfl rfl rfl
  rsa := fun _ _ _ _ _ h _ => h.data (Nat.zero_le _) (Nat.zero_le _) rfl rfl rfl
  pair := by
    intro r m typ gen a b a' b' hp hg _ _ _ _ ha hb
    obtain ⟨h1, h2⟩ := pairGen_rest hp hg
    simp only [Obj.rest, Prod.mk.injEq] at h1 h2
    have z : ([] : Bytes).length ≤ 512 := Nat.zero_le _
    have hf : (a'.symm.length ≤ 512 ∧ a'.dh.key.length ≤ 512) ∧ b'.symm.length ≤ 512 ∧ b'.dh.key.length ≤ 512 := by
      unfold pairGen at hp
      split at hp
      · obtain ⟨_, rfl⟩ := Prod.mk.inj (Option.some.inj hp)
        unfold rsaGenerate at hg
        dsimp only at hg
        repeat' split at hg
        all_goals cases hg
        all_goals exact ⟨⟨z, z⟩, z, z⟩
      · obtain ⟨_, rfl⟩ := Prod.mk.inj (Option.some.inj hp)
        unfold ecGenerate at hg
        dsimp only at hg
        repeat' split at hg
        all_goals cases hg
        all_goals exact ⟨⟨z, z⟩, z, z⟩
      · obtain ⟨_, rfl⟩ := Prod.mk.inj (Option.some.inj hp)
        unfold dhGenerate at hg
        dsimp only at hg
        split at hg
        · cases hg
        · rename_i sk pk hk
          cases hg
          have := hl.dhKeys _ _ _ _ _ hk
          exact ⟨⟨z, this.2⟩, z, this.1⟩
      · cases hp
    exact ⟨ha.data hf.1.1 hf.1.2 h1.1 h1.2.2.2 h1.2.2.1, hb.data hf.2.1 hf.2.2 h2.1 h2.2.2.2 h2.2.2.1⟩
  der := by
    intro o b o' _ h hd
    have h1 := deriveTail_rest hd
    simp only [Obj.rest, Prod.mk.injEq] at h1
    have z : ([] : Bytes).length ≤ 512 := Nat.zero_le _
    have hf : o'.symm.length ≤ 512 ∧ o'.dh.key.length ≤ 512 := by
      unfold deriveTail at hd
      split at hd
      · cases hd
      dsimp only at hd
      split at hd
      · cases hd
      split at hd
      · rename_i o2 hs
        cases hd
        unfold setSecretKey at hs
        simp only [secretLen, reduceCtorEq, if_false, if_true, Option.getD_some, List.take_length] at hs
        obtain ⟨h3, rfl⟩ := Prod.mk.inj hs
        split at h3
        · cases h3
        · rename_i hn; exact ⟨Nat.le_of_not_lt hn, z⟩
      · cases hd
      · cases hd
    exact h.data hf.1 hf.2 h1.1 h1.2.2.2 h1.2.2.1
  load := fun _ _ _ _ _ _ hd h => loadObj_small hd h
  key0 := trivial
  keyH := fun _ _ _ => trivial
  tokFile := fun _ _ hd => hd.put (fun h => absurd rfl h)
  objFile := fun _ _ k r i _ h hd => storeObj_smallDisk hl.sealed k r i h hd
  delFile := fun _ _ _ _ hd => unstore_smallDisk hd

end Verif
