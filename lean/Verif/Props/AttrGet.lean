import Verif.Proofs.Attr
import Verif.Proofs.Codec

/-!
# C24, C25: reading attributes
-/

namespace Verif

/-! ## C24 -/

theorem checkAttributes_ok {set : Bool} {t : List Entry} (h : checkAttributes set t = .ok) :
    ∀ e ∈ t, checkEntry set e = .ok := by
  induction t with
  | nil => simp
  | cons e t ih =>
    simp only [checkAttributes] at h
    split at h
    · rename_i he
      intro e' hm
      rcases List.mem_cons.1 hm with rfl | hm
      · exact he
      · exact ih h e' hm
    · rename_i he; exact absurd h he

theorem getEntry_inBounds (x : KeyExt) (o : Obj) (e : Entry) (hf : e.Fits)
    (hp : e.typ = .ecPoint → o.typ ≠ CKK_EC)
    (hs : e.typ = .value → o.symm.length ≤ 512) : InBounds e (getEntry x o e).2 := by
  have hw := (getAttr_shape x o e.typ hp hs).wr_le e.mem.isSome e.len
  have : ∀ r : RV × Entry, r.2.typ = e.typ →
      r.2.mem = e.mem.map (fun m => (getAttr x o e.typ e.mem.isSome e.len).wr ++
        m.drop (getAttr x o e.typ e.mem.isSome e.len).wr.length) → InBounds e r.2 := by
    intro r h1 h2
    refine ⟨h1, ?_⟩
    cases hm : e.mem with
    | none => rw [hm] at h2; rw [h2]; trivial
    | some m =>
      have := hf m hm
      rw [hm] at h2 hw
      simp only [Option.isSome_some] at h2 hw
      rw [h2]
      simp only [Option.map_some]
      constructor
      · simp; omega
      · rw [List.drop_append, List.drop_drop]
        rw [List.drop_eq_nil_of_le hw]
        simp only [List.nil_append]
        congr 1; omega
  unfold getEntry
  simp only
  split <;> exact this _ rfl rfl

theorem getEntries_inBounds (x : KeyExt) (o : Obj) (t : List Entry) (hf : ∀ e ∈ t, e.Fits)
    (hp : ∀ e ∈ t, e.typ = .ecPoint → o.typ ≠ CKK_EC)
    (hs : ∀ e ∈ t, e.typ = .value → o.symm.length ≤ 512) :
    AllPairs InBounds t (getEntries x o t).2 := by
  have refl : ∀ e : Entry, InBounds e e := by
    intro e; refine ⟨rfl, ?_⟩; cases e.mem <;> simp
  have reflL : ∀ t : List Entry, AllPairs InBounds t t := by
    intro t; induction t with
    | nil => exact .nil
    | cons e t ih => exact .cons (refl e) ih
  induction t with
  | nil => exact .nil
  | cons e t ih =>
    have h1 := getEntry_inBounds x o e (hf e (by simp)) (hp e (by simp)) (hs e (by simp))
    have h2 := ih (fun e h => hf e (by simp [h])) (fun e h => hp e (by simp [h])) (fun e h => hs e (by simp [h]))
    simp only [getEntries]
    split
    · exact .cons h1 h2
    · exact .cons h1 (reflL t)

/-- C24, first half: whatever the template, no byte is written outside the buffers
offered.  Missing: templates asking for `CKA_EC_POINT` of an EC key (see
`c24_violated_ec_point`). -/
theorem c24_in_bounds_partial (x : KeyExt) (o : Obj) (ho : o.InArrays) (t : List Entry)
    (hf : ∀ e ∈ t, e.Fits) (hp : o.typ = CKK_EC → ∀ e ∈ t, e.typ ≠ .ecPoint) :
    AllPairs InBounds t (getAttributeValue x o t).2 := by
  have hs : o.symm.length ≤ 512 := by
    unfold Obj.InArrays at ho; unfold Obj.symm; split <;> simp_all
  have := getEntries_inBounds x o t hf (fun e h1 h2 h3 => hp h3 e h1 h2) (fun _ _ _ => hs)
  unfold getAttributeValue
  simp only
  split
  · clear this
    induction t with
    | nil => exact .nil
    | cons e t ih =>
      rename_i h
      refine .cons ⟨rfl, ?_⟩ ?_
      · cases e.mem <;> simp
      · clear ih hf hp h
        induction t with
        | nil => exact .nil
        | cons e t ih =>
          refine .cons ⟨rfl, ?_⟩ ih
          cases e.mem <;> simp
  · exact this

theorem checkEntry_null (a : CKA) (n : Nat) (h : a.kind ≠ none) :
    checkEntry false { typ := a, mem := none, len := n } = .ok := by
  unfold checkEntry
  simp only
  cases hk : a.kind with
  | none => exact absurd hk h
  | some k => cases k <;> simp

theorem checkEntry_size (a : CKA) (m : Bytes) (n : Nat) (h : SizeFor a n) :
    checkEntry false { typ := a, mem := some m, len := n } = .ok := by
  unfold SizeFor at h
  unfold checkEntry
  simp only
  cases hk : a.kind with
  | none => simp [hk] at h
  | some k => cases k <;> simp_all

/-- C24, second half (the two-call protocol), for every attribute but `CKA_EC_POINT`:
if a NULL query reports `n` bytes then there are `n` fixed bytes such that a buffer of
at least `n` bytes receives exactly these and the length `n`, and a smaller one is left
untouched with `CKR_BUFFER_TOO_SMALL`. -/
theorem c24_two_calls_partial (x : KeyExt) (o : Obj) (ho : o.InArrays) (a : CKA) (ha : a ≠ .ecPoint)
    (l0 n : Nat) (hn : n ≠ unavailableInfo)
    (hq : getAttributeValue x o [{ typ := a, mem := none, len := l0 }] =
      (.ok, [{ typ := a, mem := none, len := n }])) :
    ∃ v : Bytes, v.length = n ∧ ∀ (m : Bytes) (l : Nat), l ≤ m.length → SizeFor a l →
      (n ≤ l → getAttributeValue x o [{ typ := a, mem := some m, len := l }] =
        (.ok, [{ typ := a, mem := some (v ++ m.drop n), len := n }])) ∧
      (l < n → getAttributeValue x o [{ typ := a, mem := some m, len := l }] =
        (.bufferTooSmall, [{ typ := a, mem := some m, len := l }])) := by
  have hs : o.symm.length ≤ 512 := by
    unfold Obj.InArrays at ho; unfold Obj.symm; split <;> simp_all
  have hsh := getAttr_shape x o a (fun h => absurd h ha) (fun _ => hs)
  have hk : a.kind ≠ none := by
    intro hk
    simp [getAttributeValue, checkAttributes, checkEntry, hk] at hq
  have run : ∀ (m : Bytes) (l : Nat), SizeFor a l →
      getAttributeValue x o [{ typ := a, mem := some m, len := l }] =
        getEntries x o [{ typ := a, mem := some m, len := l }] := by
    intro m l h
    simp [getAttributeValue, checkAttributes, checkEntry_size a m l h]
  obtain ⟨f, hf⟩ : ∃ f, getAttr x o a = f := ⟨_, rfl⟩
  rw [hf] at hsh
  cases hsh with
  | data v =>
    simp [getAttributeValue, checkAttributes, checkEntry_null a l0 hk, getEntries, getEntry, hf, getData] at hq
    refine ⟨v, hq, ?_⟩
    intro m l hl hsz
    rw [run m l hsz]
    subst hq
    constructor
    · intro h
      simp [getEntries, getEntry, hf, getData, Nat.not_lt.2 h]
    · intro h
      simp [getEntries, getEntry, hf, getData, h]
  | none =>
    simp [getAttributeValue, checkAttributes, checkEntry_null a l0 hk, getEntries, getEntry, hf, getNone] at hq
    exact absurd hq.symm hn
  | notAvail => simp [getAttributeValue, checkAttributes, checkEntry_null a l0 hk, getEntries, getEntry, hf, getNotAvail] at hq
  | empty =>
    simp [getAttributeValue, checkAttributes, checkEntry_null a l0 hk, getEntries, getEntry, hf] at hq
    subst hq
    refine ⟨[], rfl, ?_⟩
    intro m l hl hsz
    rw [run m l hsz]
    simp [getEntries, getEntry, hf]
  | ub => simp [getAttributeValue, checkAttributes, checkEntry_null a l0 hk, getEntries, getEntry, hf] at hq

/-- Three toy curve functions for examples: one 32-byte curve with identifier
`2a 03`. -/
def Demo.curve : Curve := { id := 7, size := 32, oid := [0x2a, 0x03] }

/-- Toy EC functions: a point is a fixed byte 4 followed by its coordinates. -/
def Demo.kx : KeyExt where
  mpOk n := n ≤ 512
  curve o := if o = [0x2a, 0x03] then some Demo.curve else none
  importX963 k p := match k.dp with
    | none => none
    | some c => some { dp := some c, x := ofBytes ((p.drop 1).take c.size), y := ofBytes (p.drop (c.size + 1)),
                       typ := .pub }
  exportX963 k := match k.dp with
    | none => none
    | some c => some (0x04 :: (beBytes c.size k.x ++ beBytes c.size k.y))
  dhOk _ _ := true

theorem length_beBytes' (n v : Nat) : (beBytes n v).length = n := by
  induction n generalizing v with
  | zero => rfl
  | succ n ih => simp [beBytes, ih]

theorem Demo.kx_lawful : Demo.kx.Lawful where
  export_len := by
    intro k c p h1 h2
    simp only [Demo.kx, h1, Option.some.injEq] at h2
    subst h2
    simp [length_beBytes']; omega
  export_pub := by intro k n; rfl
  curve_oid := by
    intro o c h
    simp only [Demo.kx] at h
    split at h
    · rename_i e; rw [← Option.some.inj h, e]; rfl
    · exact absurd h (by simp)
  curve_len := by
    intro o c h
    simp only [Demo.kx] at h
    split at h
    · rename_i e; rw [e]; decide
    · exact absurd h (by simp)
  import_dp := by
    intro k p k' h
    simp only [Demo.kx] at h
    cases hd : k.dp with
    | none => simp [hd] at h
    | some c => simp only [hd, Option.some.injEq] at h; rw [← h]
  import_typ := by
    intro k p k' h
    simp only [Demo.kx] at h
    cases hd : k.dp with
    | none => simp [hd] at h
    | some c => simp only [hd, Option.some.injEq] at h; rw [← h]; simp
  import_export := by
    intro k c p k' hd hl h4 h
    simp only [Demo.kx, hd, Option.some.injEq] at h ⊢
    subst h
    simp only [Option.some.injEq]
    cases p with
    | nil => simp at hl
    | cons a r =>
      simp only [List.length_cons] at hl
      simp only [List.headD_cons] at h4
      have h1 : beBytes c.size (ofBytes (r.take c.size)) = r.take c.size := by
        have := beBytes_ofBytes (r.take c.size)
        rwa [show (r.take c.size).length = c.size by simp; omega] at this
      have h2 : beBytes c.size (ofBytes (r.drop c.size)) = r.drop c.size := by
        have := beBytes_ofBytes (r.drop c.size)
        rwa [show (r.drop c.size).length = c.size by simp; omega] at this
      simp [h1, h2, h4]

/-- An EC public key for examples. -/
def Demo.ecPub : Obj :=
  { typ := CKK_EC, cls := CKO_PUBLIC_KEY,
    data := .ec { dp := some Demo.curve, x := 5, y := 9, typ := .pub } }

/-- An extractable 3-byte secret for examples. -/
def Demo.extr : Obj :=
  { typ := CKK_GENERIC_SECRET, cls := CKO_SECRET_KEY, data := .symm [1, 2, 3], flag := FLAG_EXTRACTABLE,
    label := [0x61, 0x62] }

example : Demo.extr.InArrays ∧
    getAttributeValue Demo.kx Demo.extr [{ typ := .value, mem := none, len := 0 }] =
      (.ok, [{ typ := .value, mem := none, len := 3 }]) ∧
    getAttributeValue Demo.kx Demo.extr [{ typ := .value, mem := some [9, 9, 9, 9, 9], len := 4 },
        { typ := .label, mem := some [7], len := 1 }] =
      (.bufferTooSmall, [{ typ := .value, mem := some [1, 2, 3, 9, 9], len := 3 },
        { typ := .label, mem := some [7], len := 1 }]) ∧ SizeFor .value 4 := by decide

/-- C24 fails for `CKA_EC_POINT`: with a buffer of 65 bytes for a point of a 32-byte
curve, 67 bytes are written and the call succeeds. -/
theorem c24_violated_ec_point :
    ∃ (x : KeyExt) (o : Obj) (t : List Entry), x.Lawful ∧ o.InArrays ∧ (∀ e ∈ t, e.Fits) ∧
      (getAttributeValue x o t).1 = .ok ∧
      ¬ AllPairs InBounds t (getAttributeValue x o t).2 := by
  refine ⟨Demo.kx, Demo.ecPub, [{ typ := .ecPoint, mem := some (List.replicate 65 0), len := 65 }],
    Demo.kx_lawful, trivial, ?_, by decide, ?_⟩
  · intro e he
    simp only [List.mem_singleton] at he
    subst he
    intro m hm
    simp only [Option.some.injEq] at hm
    subst hm; decide
  · intro h
    cases h with
    | cons h _ =>
      have := h.2.1
      simp [getEntry, getAttr, getKeyAttr, misread, ecGetAttr, getEcPoint, Demo.ecPub, Obj.ec, Demo.curve, Demo.kx,
        ecPointHdr, length_beBytes'] at this

/-- A secret key whose length exceeds the array that holds it. -/
def Demo.longSecret : Obj :=
  { typ := CKK_GENERIC_SECRET, cls := CKO_SECRET_KEY, flag := FLAG_EXTRACTABLE,
    data := .symm (List.replicate 600 0) }

set_option maxRecDepth 20000 in
/-- C24 fails for a secret key created with a length and no value: its value is read
past the end of the object (undefined behaviour; in practice heap memory is
returned). The object is what `C_CreateObject` makes of the template
`CKA_VALUE_LEN = 600`, `CKA_EXTRACTABLE = true`. -/
theorem c24_violated_value_len :
    ∃ (x : KeyExt) (o : Obj) (o' : Obj) (t : List Entry), x.Lawful ∧
      o = { typ := CKK_GENERIC_SECRET, cls := CKO_SECRET_KEY } ∧
      setAttributeValue x true o [Entry.of .valueLen (ulong 600), Entry.of .extractable [1]] = (.ok, o') ∧
      (∀ e ∈ t, e.Fits) ∧ (getAttributeValue x o' t).1 = .ub := by
  refine ⟨Demo.kx, _, Demo.longSecret,
    [{ typ := .value, mem := some (List.replicate 600 0), len := 600 }], Demo.kx_lawful, rfl, ?_, ?_, ?_⟩
  · decide
  · intro e he
    simp only [List.mem_singleton] at he
    subst he
    intro m hm
    rw [← Option.some.inj hm, List.length_replicate]
    exact Nat.le_refl _
  · decide

/-! ## C25 -/

theorem noPriv_of (o : Obj) (h : o.Sensitive ∨ ¬ o.Extractable) : o.noPriv = true := by
  unfold Obj.noPriv
  rcases h with h | h
  · unfold Obj.Sensitive at h
    have : (o.flag &&& FLAG_SENSITIVE) ≠ 0 := by
      intro e
      have := congrArg (fun w : BitVec 32 => w.getLsbD 1) e
      simp only [BitVec.getLsbD_and, h] at this
      revert this; decide
    rw [show ((o.flag &&& FLAG_SENSITIVE) != 0) = true from bne_iff_ne.2 this]
    rfl
  · unfold Obj.Extractable at h
    have : (o.flag &&& FLAG_EXTRACTABLE) = 0 := by
      apply BitVec.eq_of_getLsbD_eq
      intro i hi
      rw [BitVec.getLsbD_and]
      have h0 : (0 : BitVec 32).getLsbD i = false := BitVec.getLsbD_zero
      rw [h0]
      by_cases e : i = 2
      · subst e; rw [Bool.eq_false_iff.2 h]; rfl
      · have : (FLAG_EXTRACTABLE).getLsbD i = false := by
          have : ∀ j : Fin 32, j.val ≠ 2 → (FLAG_EXTRACTABLE).getLsbD j.val = false := by decide
          exact this ⟨i, hi⟩ e
        rw [this, Bool.and_false]
    rw [this, Bool.or_eq_true]
    right; rfl

/-- The secret part does not show in any single attribute. -/
theorem getAttr_secret (x : KeyExt) (hx : x.Lawful) (o o' : Obj) (hk : o.IsSecretKey)
    (hs : o.Sensitive ∨ ¬ o.Extractable) (h : SameButSecret o o') (a : CKA) :
    getAttr x o' a = getAttr x o a := by
  obtain ⟨⟨d, rfl⟩, hp⟩ := h
  have hnp : o.noPriv = true := noPriv_of o hs
  have hnp' : ({ o with data := d } : Obj).noPriv = true := hnp
  simp only at hp
  have key : getKeyAttr x { o with data := d } a = getKeyAttr x o a := by
    funext buf len
    unfold getKeyAttr
    simp only
    have hc : o.cls ≠ CKO_CERTIFICATE := by
      rcases hk with h | h <;> rw [h.1] <;> decide
    have hm : ∀ q : Obj, q.cls = o.cls → misread q a = false := by
      intro q hq
      unfold misread
      rw [hq, beq_eq_false_iff_ne.mpr hc, Bool.false_and]
    rw [hm { o with data := d } rfl, hm o rfl]
    simp only [hc, false_and, if_false, Bool.false_eq_true]
    split
    · unfold rsaGetAttr
      rw [hnp, hnp']
      simp only [Bool.true_or, if_true]
      have e1 : ({ o with data := d } : Obj).rsa.n = o.rsa.n := by
        unfold Obj.rsa; revert hp; cases o.data <;> cases d <;> simp_all [KeyData.SamePublic]
      have e2 : ({ o with data := d } : Obj).rsa.e = o.rsa.e := by
        unfold Obj.rsa; revert hp; cases o.data <;> cases d <;> simp_all [KeyData.SamePublic]
      rw [e1, e2]
    · split
      · unfold ecGetAttr
        rw [hnp, hnp']
        simp only [Bool.true_or, if_true]
        have e1 : ∃ n, ({ o with data := d } : Obj).ec = { o.ec with k := n } := by
          unfold Obj.ec
          simp only
          generalize o.data = d0 at hp
          cases d0 <;> cases d <;> first
            | exact hp.elim
            | exact ⟨0, rfl⟩
            | (rename_i k k'
               obtain ⟨h1, h2, h3, h4⟩ := hp
               exact ⟨k'.k, by cases k'; cases k; simp_all⟩)
        obtain ⟨n, e1⟩ := e1
        rw [e1]
        cases a <;> simp only [getEcParams, getEcPoint, hx.export_pub] <;> rfl
      · split
        · rename_i ht
          have hcls : o.cls = CKO_PRIVATE_KEY := by
            rcases hk with h | h
            · exact h.1
            · exfalso
              rw [ht] at h
              rcases h.2 with h | h <;> exact absurd h (by decide)
          unfold dhGetAttr
          rw [hnp, hnp']
          have e1 : ({ o with data := d } : Obj).dh.p = o.dh.p := by
            unfold Obj.dh; revert hp; cases o.data <;> cases d <;> simp_all [KeyData.SamePublic]
          have e2 : ({ o with data := d } : Obj).dh.g = o.dh.g := by
            unfold Obj.dh; revert hp; cases o.data <;> cases d <;> simp_all [KeyData.SamePublic]
          rw [e1, e2]
          simp only [hcls]
          cases a <;> rfl
        · split
          · unfold secretGetAttr
            rw [hnp, hnp']
            have e1 : ({ o with data := d } : Obj).symm.length = o.symm.length := by
              unfold Obj.symm; revert hp; cases o.data <;> cases d <;> simp_all [KeyData.SamePublic]
            rw [e1]
            cases a <;> rfl
          · rfl
  cases a <;> first | rfl | exact key

/-- C25: for a sensitive or unextractable private or secret key, `C_GetAttributeValue`
with any template gives the same result whatever the secret part of the key is, and so
does the comparison with a search template (`C_FindObjectsInit`). -/
theorem c25_secret_not_returned (x : KeyExt) (hx : x.Lawful) (o o' : Obj) (hk : o.IsSecretKey)
    (hs : o.Sensitive ∨ ¬ o.Extractable) (h : SameButSecret o o') (t : List Entry) :
    getAttributeValue x o' t = getAttributeValue x o t ∧ matchAll x o' t = matchAll x o t := by
  have he := getAttr_secret x hx o o' hk hs h
  have h1 : ∀ t, getEntries x o' t = getEntries x o t := by
    intro t
    induction t with
    | nil => rfl
    | cons e t ih =>
      have : getEntry x o' e = getEntry x o e := by simp only [getEntry, he]
      simp only [getEntries, this, ih]
  have h2 : ∀ t, matchAll x o' t = matchAll x o t := by
    intro t
    induction t with
    | nil => rfl
    | cons e t ih =>
      have : matchAttr x o' e = matchAttr x o e := by simp only [matchAttr, he]
      simp only [matchAll, this, ih]
  exact ⟨by simp only [getAttributeValue, h1], h2 t⟩

example : Demo.kx.Lawful ∧ ∃ o o' : Obj, o.IsSecretKey ∧ o.Sensitive ∧ SameButSecret o o' ∧ o.data ≠ o'.data :=
  ⟨Demo.kx_lawful, { typ := CKK_AES, cls := CKO_SECRET_KEY, data := .symm [1, 2], flag := 2 },
    { typ := CKK_AES, cls := CKO_SECRET_KEY, data := .symm [3, 4], flag := 2 },
    .inr ⟨rfl, .inl rfl⟩, by decide, ⟨⟨_, rfl⟩, rfl⟩, by decide⟩

/-- Outside `IsSecretKey` the claim fails: a sensitive, unextractable DH private key
whose `CKA_CLASS` was overwritten with `C_SetAttributeValue` gives its private value
away. -/
theorem c25_violated_dh_class :
    ∃ (x : KeyExt) (o : Obj), x.Lawful ∧ o.IsSecretKey ∧ o.Sensitive ∧ ¬ o.Extractable ∧
      o.dh.key = [1, 2, 3] ∧
      readAttr x (setAttributeValue x true o [Entry.of .cls (ulong CKO_PUBLIC_KEY)]).2 .value 3 =
        (.ok, [1, 2, 3]) :=
  ⟨Demo.kx, { typ := CKK_DH, cls := CKO_PRIVATE_KEY, data := .dh { key := [1, 2, 3], p := 23, g := 5 }, flag := 2 },
    Demo.kx_lawful, .inl ⟨rfl, .inr (.inr rfl)⟩, by decide, by decide, rfl, by decide⟩

end Verif
