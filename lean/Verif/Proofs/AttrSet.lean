import Verif.Proofs.Attr

/-! Lemmas about setting attributes. -/

namespace Verif

/-! ### Bits -/

theorem bit_test (w : BitVec 32) (i : Nat) (hi : i < 32) :
    (w &&& BitVec.twoPow 32 i == BitVec.twoPow 32 i) = w.getLsbD i := by
  rw [BitVec.and_twoPow]
  cases h : w.getLsbD i
  · simp only [Bool.false_eq_true, if_false]
    apply beq_eq_false_iff_ne.2
    intro e
    have := congrArg (fun w : BitVec 32 => w.getLsbD i) e
    simp only [BitVec.getLsbD_twoPow, BitVec.getLsbD_zero, hi, decide_true, Bool.and_true] at this
    simp at this
  · simp only [if_true]; exact beq_self_eq_true _

theorem setBit_get (w : BitVec 32) (i j : Nat) (s : Bool) (hi : i < 32) (hj : j < 32) :
    (setBit w (BitVec.twoPow 32 i) s).getLsbD j = if i = j then s else w.getLsbD j := by
  unfold setBit
  cases s
  · simp only [Bool.false_eq_true, if_false, BitVec.getLsbD_and, BitVec.getLsbD_not, BitVec.getLsbD_twoPow, hi, hj,
      decide_true, Bool.true_and]
    by_cases h : i = j
    · simp [h]
    · simp [h]
  · simp only [if_true, BitVec.getLsbD_or, BitVec.getLsbD_twoPow, hi, decide_true, Bool.true_and]
    by_cases h : i = j
    · simp [h]
    · simp [h]

/-- The bit of `opFlag` that setting an attribute changes. -/
def opIdx : CKA → Option Nat
  | .encrypt => some 8
  | .decrypt => some 9
  | .sign => some 11
  | .signRecover => some 12
  | .verify => some 13
  | .verifyRecover => some 14
  | .wrap => some 17
  | .unwrap => some 17
  | .derive => some 19
  | _ => none

/-- The bit of `flag` that setting an attribute changes. -/
def flIdx : CKA → Option Nat
  | .priv => some 0
  | .sensitive => some 1
  | .extractable => some 2
  | .modifiable => some 3
  | .alwaysSensitive => some 4
  | .neverExtractable => some 5
  | .alwaysAuth => some 6
  | .wrapWithTrusted => some 7
  | .trusted => some 8
  | _ => none

/-- The bit of `opFlag` that reading an attribute looks at. -/
def rdIdx : CKA → Option Nat
  | .priv => some 0
  | .sensitive => some 1
  | .extractable => some 2
  | .modifiable => some 3
  | .alwaysSensitive => some 4
  | .neverExtractable => some 5
  | .alwaysAuth => some 6
  | .wrapWithTrusted => some 7
  | .trusted => some 8
  | .encrypt => some 8
  | .decrypt => some 9
  | .sign => some 11
  | .signRecover => some 12
  | .verify => some 13
  | .verifyRecover => some 14
  | .wrap => some 17
  | .unwrap => some 18
  | .derive => some 19
  | _ => none

theorem opBool_twoPow (w : BitVec 32) (i : Nat) (hi : i < 32) :
    opBool w (BitVec.twoPow 32 i) = cbool (w.getLsbD i) := by
  unfold opBool; rw [bit_test w i hi]

theorem getAttr_bit (x : KeyExt) (o : Obj) (a : CKA) (i : Nat) (h : rdIdx a = some i) :
    getAttr x o a = getData (cbool (o.opFlag.getLsbD i)) := by
  have k : ∀ (f : BitVec 32) (j : Nat), j < 32 → f = BitVec.twoPow 32 j →
      opBool o.opFlag f = cbool (o.opFlag.getLsbD j) := by
    intro f j hj e; rw [e]; exact opBool_twoPow _ _ hj
  cases a <;> simp only [rdIdx, Option.some.injEq, reduceCtorEq] at h <;>
    (subst h; funext buf len; simp only [getAttr]
     exact congrArg (fun v => getData v buf len) (k _ _ (by decide) (by decide)))

theorem rdIdx_lt (a : CKA) (i : Nat) (h : rdIdx a = some i) : i < 32 := by
  cases a <;> simp only [rdIdx, Option.some.injEq, reduceCtorEq] at h <;> omega

theorem idx_alias {a b : CKA} {i : Nat} (ha : rdIdx a = some i) (hb : opIdx b = some i) :
    b = a ∨ (a = .wrap ∧ b = .unwrap) ∨ (a = .trusted ∧ b = .encrypt) := by
  cases b <;> simp only [opIdx, Option.some.injEq, reduceCtorEq] at hb <;> subst hb <;>
    cases a <;> simp only [rdIdx, Option.some.injEq, reduceCtorEq] at ha <;> first | omega | simp

theorem setAttr_opFlag (o : Obj) (e : Entry) :
    (setAttr o e).2.opFlag =
      match opIdx e.typ with
      | some i => setBit o.opFlag (BitVec.twoPow 32 i) (isTrue e.val)
      | none => o.opFlag := by
  unfold setAttr
  cases e.typ <;> simp only [opIdx, Obj.setOp, Obj.setFl] <;>
    first
    | done
    | (apply congrArg (fun f => setBit o.opFlag f (isTrue e.val)); decide)
    | rfl
    | (split <;> rfl)

theorem opIdx_lt (a : CKA) (i : Nat) (h : opIdx a = some i) : i < 32 := by
  cases a <;> simp only [opIdx, Option.some.injEq, reduceCtorEq] at h <;> omega

theorem setAttr_opBit (o : Obj) (e : Entry) (j : Nat) (hj : j < 32) :
    (setAttr o e).2.opFlag.getLsbD j =
      if opIdx e.typ = some j then isTrue e.val else o.opFlag.getLsbD j := by
  rw [setAttr_opFlag]
  cases h : opIdx e.typ with
  | none => simp
  | some i => simp only [setBit_get _ _ _ _ (opIdx_lt _ _ h) hj, Option.some.injEq]

theorem setAttr_flag (o : Obj) (e : Entry) :
    (setAttr o e).2.flag =
      match flIdx e.typ with
      | some i => setBit o.flag (BitVec.twoPow 32 i) (isTrue e.val)
      | none => o.flag := by
  unfold setAttr
  cases e.typ <;> simp only [flIdx, Obj.setOp, Obj.setFl] <;>
    first
    | done
    | (apply congrArg (fun f => setBit o.flag f (isTrue e.val)); decide)
    | rfl
    | (split <;> rfl)

theorem flIdx_lt (a : CKA) (i : Nat) (h : flIdx a = some i) : i < 32 := by
  cases a <;> simp only [flIdx, Option.some.injEq, reduceCtorEq] at h <;> omega

theorem setAttr_flBit (o : Obj) (e : Entry) (j : Nat) (hj : j < 32) :
    (setAttr o e).2.flag.getLsbD j =
      if flIdx e.typ = some j then isTrue e.val else o.flag.getLsbD j := by
  rw [setAttr_flag]
  cases h : flIdx e.typ with
  | none => simp
  | some i => simp only [setBit_get _ _ _ _ (flIdx_lt _ _ h) hj, Option.some.injEq]

/-! ### What `setAttr` leaves alone -/

/-- Everything `setAttr` never touches. -/
structure SameRest (o o' : Obj) : Prop where
  uid : o'.uid = o.uid
  data : o'.data = o.data
  typ : o'.typ = o.typ
  size : o'.size = o.size
  keyData : o'.keyData = o.keyData
  iv : o'.iv = o.iv
  encoded : o'.encoded = o.encoded
  handle : o'.handle = o.handle
  keyGenMech : o'.keyGenMech = o.keyGenMech
  onToken : o'.onToken = o.onToken
  local' : o'.local' = o.local'

theorem SameRest.refl (o : Obj) : SameRest o o := ⟨rfl, rfl, rfl, rfl, rfl, rfl, rfl, rfl, rfl, rfl, rfl⟩

theorem SameRest.trans {a b c : Obj} (h : SameRest a b) (h' : SameRest b c) : SameRest a c :=
  ⟨h'.uid.trans h.uid, h'.data.trans h.data, h'.typ.trans h.typ, h'.size.trans h.size,
   h'.keyData.trans h.keyData, h'.iv.trans h.iv, h'.encoded.trans h.encoded, h'.handle.trans h.handle,
   h'.keyGenMech.trans h.keyGenMech, h'.onToken.trans h.onToken, h'.local'.trans h.local'⟩

theorem setAttr_rest (o : Obj) (e : Entry) : SameRest o (setAttr o e).2 := by
  unfold setAttr
  cases e.typ <;>
    first
    | exact SameRest.refl o
    | exact ⟨rfl, rfl, rfl, rfl, rfl, rfl, rfl, rfl, rfl, rfl, rfl⟩
    | (simp only; split <;> exact ⟨rfl, rfl, rfl, rfl, rfl, rfl, rfl, rfl, rfl, rfl, rfl⟩)

theorem setAttrs_rest (o : Obj) (t : List Entry) : SameRest o (setAttrs o t).2 := by
  induction t generalizing o with
  | nil => exact SameRest.refl o
  | cons e t ih =>
    simp only [setAttrs]
    split
    · exact (setAttr_rest o e).trans (ih _)
    all_goals exact setAttr_rest o e

theorem setAttr_label (o : Obj) (e : Entry) (h : e.typ ≠ .label) : (setAttr o e).2.label = o.label := by
  unfold setAttr
  cases ht : e.typ <;> first | exact absurd ht h | rfl | (simp only; split <;> rfl)

theorem setAttr_id (o : Obj) (e : Entry) (h : e.typ ≠ .id) : (setAttr o e).2.keyId = o.keyId := by
  unfold setAttr
  cases ht : e.typ <;> first | exact absurd ht h | rfl | (simp only; split <;> rfl)

theorem setAttr_start (o : Obj) (e : Entry) (h : e.typ ≠ .startDate) :
    (setAttr o e).2.startDate = o.startDate := by
  unfold setAttr
  cases ht : e.typ <;> first | exact absurd ht h | rfl | (simp only; split <;> rfl)

theorem setAttr_end (o : Obj) (e : Entry) (h : e.typ ≠ .endDate) : (setAttr o e).2.endDate = o.endDate := by
  unfold setAttr
  cases ht : e.typ <;> first | exact absurd ht h | rfl | (simp only; split <;> rfl)

theorem setAttr_cls (o : Obj) (e : Entry) (h : e.typ ≠ .cls) : (setAttr o e).2.cls = o.cls := by
  unfold setAttr
  cases ht : e.typ <;> first | exact absurd ht h | rfl | (simp only; split <;> rfl)

/-- A property of objects that each `setAttr` of the template keeps is kept by the
template. -/
theorem setAttrs_inv {P : Obj → Prop} (t : List Entry) (hs : ∀ o, ∀ e ∈ t, P o → P (setAttr o e).2) (o : Obj)
    (h : P o) : P (setAttrs o t).2 := by
  induction t generalizing o with
  | nil => exact h
  | cons e t ih =>
    have h1 := hs o e (by simp) h
    simp only [setAttrs]
    split
    · exact ih (fun o e' he => hs o e' (by simp [he])) _ h1
    all_goals exact h1

theorem setAttrs_append (o : Obj) (t1 t2 : List Entry) (h : (setAttrs o (t1 ++ t2)).1 = .ok) :
    (setAttrs o t1).1 = .ok ∧ setAttrs o (t1 ++ t2) = setAttrs (setAttrs o t1).2 t2 := by
  induction t1 generalizing o with
  | nil => exact ⟨rfl, rfl⟩
  | cons e t ih =>
    simp only [List.cons_append, setAttrs] at h ⊢
    split at h <;> first | exact ih _ h | simp at h

theorem setAttrs_cons_ok (o : Obj) (e : Entry) (t : List Entry) (h : (setAttrs o (e :: t)).1 = .ok) :
    (setAttr o e).1 = .ok ∧ setAttrs o (e :: t) = setAttrs (setAttr o e).2 t := by
  simp only [setAttrs] at h ⊢
  split at h <;> first | (rename_i he; exact ⟨he, rfl⟩) | simp at h

/-! ### The key setter changes only key data -/

theorem setKey_frame (x : KeyExt) (o : Obj) (v : CKA → Option Bytes) :
    ∃ d s, (setKey x o v).2 = { o with data := d, size := s } := by
  unfold setKey
  split
  · unfold setCert
    simp only
    split <;> (try split) <;> (try split) <;> (try split) <;> exact ⟨_, o.size, rfl⟩
  · split
    · unfold setRsaKey
      split
      · simp only
        split
        · exact ⟨_, o.size, rfl⟩
        · split
          · exact ⟨_, _, rfl⟩
          · split <;> exact ⟨_, o.size, rfl⟩
      · exact ⟨_, o.size, rfl⟩
    · split
      · unfold setEcKey
        simp only
        split <;> exact ⟨_, o.size, rfl⟩
      · split
        · unfold setDhKey
          simp only
          split
          · exact ⟨_, o.size, rfl⟩
          · split
            · exact ⟨_, o.size, rfl⟩
            · split <;> exact ⟨_, o.size, rfl⟩
        · unfold setSecretKey
          split
          · exact ⟨_, o.size, rfl⟩
          · split <;> exact ⟨_, o.size, rfl⟩

/-- A successful `setAttributeValue` is: check, key setter, attributes. -/
theorem setAttributeValue_ok {x : KeyExt} {rw : Bool} {o o' : Obj} {t : List Entry}
    (h : setAttributeValue x rw o t = (.ok, o')) :
    rw = true ∧ checkAttributes true t = .ok ∧ (setKey x o (keyVals t)).1 = .ok ∧
      setAttrs (setKey x o (keyVals t)).2 t = (.ok, o') := by
  unfold setAttributeValue at h
  simp only at h
  split at h
  · simp at h
  · rename_i h1
    split at h
    · rename_i h2; exact absurd (congrArg Prod.fst h) h2
    · rename_i h2
      split at h
      · simp at h
      · split at h
        · simp at h
        · split at h
          · rename_i h3; exact ⟨by simpa using h1, by simpa using h2, h3, h⟩
          · simp at h
          · simp at h

theorem setAttributeValue_run {x : KeyExt} {o o1 : Obj} {t : List Entry} {ps : List CKA}
    (h1 : checkAttributes true t = .ok) (h2 : keyParams o = some ps)
    (h3 : ps.any (fun a => (keyAttr t a).any (fun e => e.mem.isNone)) = false)
    (h4 : setKey x o (keyVals t) = (.ok, o1)) : setAttributeValue x true o t = setAttrs o1 t := by
  simp only [setAttributeValue, h1, h2, h3, h4]
  simp

/-- Whatever happens, `setAttributeValue` leaves alone what neither the key setter nor
the attributes of the template touch. -/
theorem setAttributeValue_inv {P : Obj → Prop} (x : KeyExt) (rw : Bool) (o : Obj) (t : List Entry)
    (hk : ∀ o v, P o → P (setKey x o v).2) (hs : ∀ o, ∀ e ∈ t, P o → P (setAttr o e).2) (h : P o) :
    P (setAttributeValue x rw o t).2 := by
  unfold setAttributeValue
  simp only
  split
  · exact h
  · split
    · exact h
    · split
      · exact h
      · split
        · exact h
        · split
          · exact setAttrs_inv t hs _ (hk _ _ h)
          · exact hk _ _ h
          · exact hk _ _ h

theorem readAttr_of (x : KeyExt) (o : Obj) (a : CKA) (v : Bytes) (n : Nat) (hg : getAttr x o a = getData v)
    (hs : SizeFor a n) (hn : v.length ≤ n) : readAttr x o a n = (.ok, v) := by
  have hc : checkEntry false { typ := a, mem := some (List.replicate n 0), len := n } = .ok := by
    unfold SizeFor at hs
    unfold checkEntry
    simp only
    cases hk : a.kind with
    | none => simp [hk] at hs
    | some k => cases k <;> simp_all
  simp [readAttr, getAttributeValue, checkAttributes, hc, getEntries, getEntry, hg, getData, Nat.not_lt.2 hn,
    Entry.val]

theorem readAttr_congr (x : KeyExt) (o o' : Obj) (a : CKA) (n : Nat) (hg : getAttr x o' a = getAttr x o a) :
    readAttr x o' a n = readAttr x o a n := by
  simp [readAttr, getAttributeValue, getEntries, getEntry, hg]

theorem leNat_leBytes (k n : Nat) : leNat (leBytes k n) = n % 256 ^ k := by
  induction k generalizing n with
  | zero => simp [leBytes, leNat, Nat.mod_one]
  | succ k ih =>
    simp only [leBytes, leNat, ih]
    have : (UInt8.ofNat (n % 256)).toNat = n % 256 := by simp
    rw [this, Nat.pow_succ, Nat.mul_comm (256 ^ k) 256, Nat.mod_mul]

theorem leBytes_leNat (b : Bytes) : leBytes b.length (leNat b) = b := by
  induction b with
  | nil => rfl
  | cons a b ih =>
    simp only [List.length_cons, leBytes, leNat]
    have h1 : (a.toNat + 256 * leNat b) % 256 = a.toNat := by
      have := a.toNat_lt; omega
    have h2 : (a.toNat + 256 * leNat b) / 256 = leNat b := by
      have := a.toNat_lt; omega
    rw [h1, h2, ih]
    simp

theorem length_leBytes (k n : Nat) : (leBytes k n).length = k := by
  induction k generalizing n with
  | zero => rfl
  | succ k ih => simp [leBytes, ih]

theorem setAttr_kept (o : Obj) (en : Entry) (hc : o.cls ≠ CKO_CERTIFICATE) :
    (setAttr o en).2.typ = o.typ ∧ (setAttr o en).2.cls ≠ CKO_CERTIFICATE := by
  by_cases ht : en.typ = .cls
  · unfold setAttr
    rw [ht]
    dsimp only
    split
    · exact ⟨rfl, hc⟩
    · rename_i h
      refine ⟨rfl, ?_⟩
      intro he
      have he : leNat en.val = CKO_CERTIFICATE := he
      simp [reinterprets, hc, he] at h
  · have hcls := setAttr_cls o en ht
    refine ⟨?_, by rw [hcls]; exact hc⟩
    unfold setAttr Obj.setOp Obj.setFl
    dsimp only
    split <;> (try split) <;> rfl

theorem setAttrs_kept (o : Obj) (t : List Entry) (hc : o.cls ≠ CKO_CERTIFICATE) :
    (setAttrs o t).2.typ = o.typ ∧ (setAttrs o t).2.cls ≠ CKO_CERTIFICATE := by
  induction t generalizing o with
  | nil => exact ⟨rfl, hc⟩
  | cons en t ih =>
    have h1 := setAttr_kept o en hc
    unfold setAttrs
    dsimp only
    split
    · have h2 := ih (setAttr o en).2 h1.2
      exact ⟨h2.1.trans h1.1, h2.2⟩
    all_goals exact h1

theorem secretLeft_le {r : IRet} {l : Option Bytes} (h : ∀ b, l = some b → leNat b ≤ 512) : (secretLeft r l).length ≤ 512 := by
  unfold secretLeft
  split
  · rw [List.length_replicate]
    cases l with
    | none => decide
    | some b => exact Nat.le_trans (Nat.mod_le _ _) (h b rfl)
  · exact Nat.zero_le _

end Verif
