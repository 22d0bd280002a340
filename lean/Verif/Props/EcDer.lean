import Verif.Props.AttrData

/-!
# C58: EC parameters and points; C29 for EC keys
-/

namespace Verif

open Spec

/-- A complete octet string in BER with a one-byte length, in the short form or in the
long form with one length byte. -/
def IsOctetString (p der : Bytes) : Prop :=
  (p.length < 128 ∧ der = 0x04 :: UInt8.ofNat p.length :: p) ∨
  (p.length < 256 ∧ der = 0x04 :: 0x81 :: UInt8.ofNat p.length :: p)

theorem ofNat_toNat_eq {l : UInt8} {n : Nat} (h : l.toNat = n) : l = UInt8.ofNat n := by
  subst h; simp

theorem ecSetParams_ok {x : KeyExt} {der : Bytes} {c : Curve} (h : ecSetParams x der = .ok c) :
    ∃ oid, oid.length < 256 ∧ der = 0x06 :: UInt8.ofNat oid.length :: oid ∧ x.curve oid = some c := by
  unfold ecSetParams at h
  split at h
  · rename_i t l oid
    split at h
    · simp at h
    · rename_i h1
      split at h
      · simp at h
      · rename_i h2
        split at h
        · simp at h
        · rename_i c' h3
          simp only [Except.ok.injEq] at h
          subst h
          have h2' : l.toNat = oid.length := by simpa using h2
          refine ⟨oid, by rw [← h2']; exact l.toNat_lt, ?_, h3⟩
          rw [← ofNat_toNat_eq h2', show t = 6 by simpa using h1]
  · simp at h

theorem ecPointDer_ok {der p : Bytes} (h : ecPointDer der = .ok p) : IsOctetString p der := by
  unfold ecPointDer at h
  split at h
  · rename_i t l c rest
    split at h
    · simp at h
    · rename_i h1
      have ht : t = 4 := by simpa using h1
      split at h
      · split at h
        · simp at h
        · rename_i h3
          split at h
          · simp at h
          · rename_i h4
            simp only [Except.ok.injEq] at h
            subst h
            have h4' : c.toNat = rest.length := by simpa using h4
            right
            refine ⟨by rw [← h4']; exact c.toNat_lt, ?_⟩
            rw [← ofNat_toNat_eq h4', ht, show l = 0x81 by simpa using h3]
      · rename_i h2
        split at h
        · simp at h
        · rename_i h4
          simp only [Except.ok.injEq] at h
          subst h
          have h4' : l.toNat = (c :: rest).length := by simpa using h4
          left
          refine ⟨?_, ?_⟩
          · rw [← h4']
            have : ¬ (0x80 : UInt8).toNat ≤ l.toNat := fun hh => h2 (UInt8.le_iff_toNat_le.2 hh)
            have e : (0x80 : UInt8).toNat = 128 := rfl
            omega
          · rw [← ofNat_toNat_eq h4', ht]
  · simp at h

/-- Only complete strings are accepted and complete strings are accepted. -/
theorem ecPointDer_canon (p : Bytes) (hp : p ≠ []) (h : p.length < 256) :
    ecPointDer (ecPointHdr p.length ++ p) = .ok p := by
  unfold ecPointHdr
  split
  · rename_i hl
    have e : (UInt8.ofNat p.length).toNat = p.length := by simp; omega
    simp [ecPointDer, Nat.mod_eq_of_lt h]
  · rename_i hl
    cases p with
    | nil => exact absurd rfl hp
    | cons a r =>
      have e : (UInt8.ofNat (a :: r).length).toNat = (a :: r).length := by
        simp only [UInt8.toNat_ofNat']; omega
      have hlt : ¬ (UInt8.ofNat (a :: r).length ≥ 0x80) := by
        intro hh
        have := UInt8.le_iff_toNat_le.1 hh
        rw [e] at this
        have e2 : (0x80 : UInt8).toNat = 128 := rfl
        omega
      simp only [List.cons_append, List.nil_append, ecPointDer, ne_eq, not_true_eq_false, if_false, hlt]
      rw [if_neg]
      rw [e]; simp

/-- What a successful call made of an EC key. -/
theorem setEcKey_ok {x : KeyExt} {o o' : Obj} {t : List Entry} (ho : o.typ = CKK_EC) (hc : o.cls ≠ CKO_CERTIFICATE)
    (h : setAttributeValue x true o t = (.ok, o')) :
    ∃ k, o'.data = .ec k ∧ o'.typ = CKK_EC ∧ ∃ k1 k2, ecStep1 x (keyVals t .ecParams) {} = (.ok, k1) ∧
      ecStep2 x (keyVals t .value) k1 = (.ok, k2) ∧ ecStep3 x (keyVals t .ecPoint) k2 = (.ok, k) := by
  obtain ⟨h1, h2, h3⟩ := setAttributeValue_data h
  have hk : setKey x o (keyVals t) = setEcKey x o (keyVals t) := by
    simp only [setKey, if_neg hc, ho]; rfl
  rw [hk] at h1 h2
  unfold setEcKey at h1 h2
  simp only at h1 h2
  cases e1 : ecStep1 x (keyVals t .ecParams) {} with
  | mk r1 k1 =>
    cases e2 : ecStep2 x (keyVals t .value) k1 with
    | mk r2 k2 =>
      cases e3 : ecStep3 x (keyVals t .ecPoint) k2 with
      | mk r3 k3 =>
        by_cases q1 : r1 = .ok
        · subst q1
          by_cases q2 : r2 = .ok
          · subst q2
            by_cases q3 : r3 = .ok
            · subst q3
              simp only [ecThen, e1, e2, e3, if_true] at h1 h2
              exact ⟨k3, h2, h3.trans ho, k1, k2, rfl, e2, e3⟩
            · simp [ecThen, e1, e2, e3, q3] at h1
          · simp [ecThen, e1, e2, q2] at h1
        · simp [ecThen, e1, q1] at h1

theorem ecStep2_dp {x : KeyExt} {v : Option Bytes} {k k' : EcKey} {r : IRet} (h : ecStep2 x v k = (r, k')) :
    k'.dp = k.dp := by
  unfold ecStep2 at h
  split at h
  · rw [← (Prod.mk.inj h).2]
  · split at h <;> rw [← (Prod.mk.inj h).2]

theorem ecStep3_ok {x : KeyExt} (hx : x.Lawful) {v : Option Bytes} {k k' : EcKey}
    (h : ecStep3 x v k = (.ok, k')) : k'.dp = k.dp ∧ (v = none → k' = k) ∧
      ∀ der, v = some der → ∃ p, ecPointDer der = .ok p ∧ k.dp ≠ none ∧ k'.typ ≠ .privOnly ∧
        ∀ c, k.dp = some c → p.length = 2 * c.size + 1 → p.headD 0 = 4 → x.exportX963 k' = some p := by
  cases v with
  | none =>
    simp only [ecStep3, Prod.mk.injEq, true_and] at h
    subst h; exact ⟨rfl, fun _ => rfl, by simp⟩
  | some der =>
    simp only [ecStep3, ecSetPoint] at h
    split at h
    · rename_i r hr
      have := (Prod.mk.inj h).1
      subst this
      unfold ecPointDer at hr
      split at hr
      · split at hr
        · simp at hr
        · split at hr
          · split at hr
            · simp at hr
            · split at hr <;> simp at hr
          · split at hr <;> simp at hr
      · simp at hr
    · rename_i p hp
      split at h
      · simp at h
      · rename_i c hc
        split at h
        · simp at h
        · rename_i k2 hi
          have := (Prod.mk.inj h).2
          subst this
          refine ⟨by rw [hx.import_dp _ _ _ hi], by simp, ?_⟩
          intro d hd
          cases hd
          refine ⟨p, hp, by rw [hc]; simp, hx.import_typ _ _ _ hi, ?_⟩
          intro c' hc' hl h4
          exact hx.import_export { k with typ := if k.typ = .privOnly then .priv else .pub } c' p _ hc' hl h4 hi

/-- **C58**, `CKA_EC_PARAMS`, and **C29** for it: a template whose parameters a
successful call accepted has a complete DER object identifier there, of a curve known
to the library, and `C_GetAttributeValue` returns it unchanged. -/
theorem c58_params (x : KeyExt) (hx : x.Lawful) (o o' : Obj) (t : List Entry) (ho : o.typ = CKK_EC)
    (hc : o.cls ≠ CKO_CERTIFICATE) (h : setAttributeValue x true o t = (.ok, o')) (der : Bytes)
    (hv : FirstIn t .ecParams der) :
    (∃ oid, IsTlv 0x06 oid der ∧ x.curve oid ≠ none) ∧
    ∀ n, der.length ≤ n → readAttr x o' .ecParams n = (.ok, der) := by
  obtain ⟨k, hd, ht, k1, k2, e1, e2, e3⟩ := setEcKey_ok ho hc h
  rw [keyVals_first hv] at e1
  simp only [ecStep1] at e1
  split at e1
  · rename_i r hr
    have := (Prod.mk.inj e1).1
    subst this
    unfold ecSetParams at hr
    split at hr
    · split at hr
      · simp at hr
      · split at hr
        · simp at hr
        · split at hr <;> simp at hr
    · simp at hr
  · rename_i c hcv
    obtain ⟨oid, hl, hder, hcu⟩ := ecSetParams_ok hcv
    have hoid := hx.curve_oid _ _ hcu
    have hlen := hx.curve_len _ _ hcu
    refine ⟨⟨oid, ⟨[UInt8.ofNat oid.length], .inl ⟨hlen, rfl⟩, hder⟩, by rw [hcu]; simp⟩, ?_⟩
    have hdp : k.dp = some c := by
      rw [(ecStep3_ok hx e3).1, ecStep2_dp e2, ← (Prod.mk.inj e1).2]
    intro n hn
    refine readAttr_of x o' .ecParams der n ?_ trivial hn
    funext b l
    have n1 : CKK_EC ≠ CKK_RSA := by decide
    simp [getAttr, getKeyAttr, misread_ec ht, ht, n1, ecGetAttr, Obj.ec, hd, getEcParams, hdp, hoid, hder]

/-- **C58**, `CKA_EC_POINT` (partial): an accepted point is a complete octet string
whose length field accounts for every byte, and it came with a curve. Missing: that
the length field is the shortest, as DER demands; see `c58_violated_ber`. -/
theorem c58_point_partial (x : KeyExt) (hx : x.Lawful) (o o' : Obj) (t : List Entry) (ho : o.typ = CKK_EC)
    (hc : o.cls ≠ CKO_CERTIFICATE) (h : setAttributeValue x true o t = (.ok, o')) (der : Bytes)
    (hv : FirstIn t .ecPoint der) :
    ∃ p, IsOctetString p der ∧ ¬ NotIn t .ecParams := by
  obtain ⟨k, hd, ht, k1, k2, e1, e2, e3⟩ := setEcKey_ok ho hc h
  rw [keyVals_first hv] at e3
  obtain ⟨p, hp, hdp, -⟩ := (ecStep3_ok hx e3).2.2 der rfl
  refine ⟨p, ecPointDer_ok hp, ?_⟩
  intro hn
  rw [keyVals_notIn hn] at e1
  rw [ecStep2_dp e2] at hdp
  simp only [ecStep1] at e1
  rw [← (Prod.mk.inj e1).2] at hdp
  exact hdp rfl

/-- An uncompressed point of the toy curve. -/
def Demo.point : Bytes := 0x04 :: List.replicate 64 7

/-- The parameters of the toy curve. -/
def Demo.params : Bytes := [0x06, 0x02, 0x2a, 0x03]

set_option maxRecDepth 20000 in
example : (setAttributeValue Demo.kx true { typ := CKK_EC, cls := CKO_PUBLIC_KEY }
    [Entry.of .ecParams Demo.params, Entry.of .ecPoint (0x04 :: 65 :: Demo.point)]).1 = .ok := by decide

set_option maxRecDepth 20000 in
/-- **C58 is violated** in the letter: an octet string with a length field that is not
the shortest (BER but not DER) is accepted, and reads back differently. -/
theorem c58_violated_ber : ∃ o', setAttributeValue Demo.kx true { typ := CKK_EC, cls := CKO_PUBLIC_KEY }
      [Entry.of .ecParams Demo.params, Entry.of .ecPoint (0x04 :: 0x81 :: 65 :: Demo.point)] = (.ok, o') ∧
    readAttr Demo.kx o' .ecPoint 70 = (.ok, 0x04 :: 65 :: Demo.point) := by
  exact ⟨_, rfl, by decide⟩

/-- **C58**, round trip. The parameters and the point that `C_GetAttributeValue` returns
for an EC key on a known curve are accepted for a new object (unless the import itself
fails), and the new object returns the same parameters and the same point. -/
theorem c58_reimport (x : KeyExt) (hx : x.Lawful) (o new : Obj) (k : EcKey) (c : Curve) (p : Bytes)
    (ho : o.typ = CKK_EC) (hd : o.data = .ec k) (hdp : k.dp = some c) (hcu : x.curve c.oid = some c)
    (hs : 2 * c.size + 1 < 256) (ht : k.typ ≠ .privOnly) (hp : x.exportX963 k = some p) (h4 : p.headD 0 = 4)
    (hi : (x.importX963 { dp := some c, typ := .pub } p).isSome)
    (hn : new.typ = CKK_EC) (hnc : new.cls ≠ CKO_CERTIFICATE) :
    ∃ d1 d2, (∀ n, d1.length ≤ n → readAttr x o .ecParams n = (.ok, d1)) ∧
      (∀ n, d2.length ≤ n → readAttr x o .ecPoint n = (.ok, d2)) ∧
      ∃ o', setAttributeValue x true new [Entry.of .ecParams d1, Entry.of .ecPoint d2] = (.ok, o') ∧
        (∀ n, d1.length ≤ n → readAttr x o' .ecParams n = (.ok, d1)) ∧
        (∀ n, d2.length ≤ n → readAttr x o' .ecPoint n = (.ok, d2)) := by
  have n1 : CKK_EC ≠ CKK_RSA := by decide
  have hpl := hx.export_len k c p hdp hp
  have hol := hx.curve_len _ _ hcu
  -- reading a point
  have rd : ∀ (o : Obj) (k : EcKey), o.typ = CKK_EC → o.data = .ec k → k.dp = some c → k.typ ≠ .privOnly →
      x.exportX963 k = some p → ∀ n, (ecPointHdr p.length ++ p).length ≤ n →
      readAttr x o .ecPoint n = (.ok, ecPointHdr p.length ++ p) := by
    intro o k ho hd hdp ht hp n hn
    have hg : getAttr x o .ecPoint true n =
        { ret := .ok, len := (ecPointHdr p.length ++ p).length, wr := ecPointHdr p.length ++ p } := by
      have hlt : ¬ n < 2 * c.size + 1 := by simp only [List.length_append] at hn; omega
      simp [getAttr, getKeyAttr, misread_ec ho, ho, n1, ecGetAttr, Obj.ec, hd, ht, getEcPoint, hdp, hp, hpl, hlt]
    have hc : checkEntry false { typ := .ecPoint, mem := some (List.replicate n 0), len := n } = .ok := by
      simp [checkEntry, CKA.kind]
    simp only [readAttr, getAttributeValue, checkAttributes, hc, getEntries, getEntry, Option.isSome_some, hg]
    have : ∀ (a b : Bytes), (a ++ b).take a.length = a := fun a b => by simp
    simp only [Option.map_some, if_true, ne_eq, not_true_eq_false, if_false, Entry.val, Option.getD_some]
    rw [this]
  have rp : ∀ (o : Obj) (k : EcKey), o.typ = CKK_EC → o.data = .ec k → k.dp = some c →
      ∀ n, (0x06 :: UInt8.ofNat c.oid.length :: c.oid).length ≤ n →
      readAttr x o .ecParams n = (.ok, 0x06 :: UInt8.ofNat c.oid.length :: c.oid) := by
    intro o k ho hd hdp n hn
    refine readAttr_of x o .ecParams _ n ?_ trivial hn
    funext b l
    simp [getAttr, getKeyAttr, misread_ec ho, ho, n1, ecGetAttr, Obj.ec, hd, getEcParams, hdp]
  obtain ⟨k', hk'⟩ := Option.isSome_iff_exists.1 hi
  refine ⟨0x06 :: UInt8.ofNat c.oid.length :: c.oid, ecPointHdr p.length ++ p, rp o k ho hd hdp,
    rd o k ho hd hdp ht hp, ?_⟩
  have hpar : ecSetParams x (0x06 :: UInt8.ofNat c.oid.length :: c.oid) = .ok c := by
    have e : (UInt8.ofNat c.oid.length).toNat = c.oid.length := by simp; omega
    simp [ecSetParams, hcu, Nat.mod_eq_of_lt (Nat.lt_of_lt_of_le hol (by decide : 128 ≤ 256))]
  have hpt : ecPointDer (ecPointHdr p.length ++ p) = .ok p :=
    ecPointDer_canon p (by intro hh; rw [hh] at hpl; simp at hpl) (by omega)
  have hset : setAttributeValue x true new [Entry.of .ecParams (0x06 :: UInt8.ofNat c.oid.length :: c.oid),
      Entry.of .ecPoint (ecPointHdr p.length ++ p)] = (.ok, { new with data := .ec k' }) := by
    have c1 : checkEntry true (Entry.of .ecParams (0x06 :: UInt8.ofNat c.oid.length :: c.oid)) = .ok := by
      have : ¬ (c.oid.length = 18446744073709551613) := by omega
      simp [checkEntry, Entry.of, CKA.kind, unavailableInfo, this]
    have c2 : checkEntry true (Entry.of .ecPoint (ecPointHdr p.length ++ p)) = .ok := by
      have : (ecPointHdr p.length).length ≤ 3 := by unfold ecPointHdr; split <;> simp
      have : ¬ ((ecPointHdr p.length).length + p.length = 18446744073709551615) := by omega
      simp [checkEntry, Entry.of, CKA.kind, unavailableInfo, this]
    have kv1 : keyVals [Entry.of .ecParams (0x06 :: UInt8.ofNat c.oid.length :: c.oid),
        Entry.of .ecPoint (ecPointHdr p.length ++ p)] .ecParams = some (0x06 :: UInt8.ofNat c.oid.length :: c.oid) :=
      keyVals_first ⟨[], _, rfl, by simp⟩
    have kv2 : keyVals [Entry.of .ecParams (0x06 :: UInt8.ofNat c.oid.length :: c.oid),
        Entry.of .ecPoint (ecPointHdr p.length ++ p)] .ecPoint = some (ecPointHdr p.length ++ p) :=
      keyVals_first ⟨[_], _, rfl, by simp [Entry.of]⟩
    have kv3 : keyVals [Entry.of .ecParams (0x06 :: UInt8.ofNat c.oid.length :: c.oid),
        Entry.of .ecPoint (ecPointHdr p.length ++ p)] .value = none :=
      keyVals_notIn (by intro e he; simp at he; rcases he with rfl | rfl <;> simp [Entry.of])
    have hkp : keyParams new = some [.ecParams, .value, .ecPoint] := by
      simp [keyParams, hnc, hn, n1]
    have hsk : setKey x new (keyVals [Entry.of .ecParams (0x06 :: UInt8.ofNat c.oid.length :: c.oid),
        Entry.of .ecPoint (ecPointHdr p.length ++ p)]) = (.ok, { new with data := .ec k' }) := by
      simp [setKey, hnc, hn, n1, setEcKey, kv1, kv2, kv3, ecThen, ecStep1, ecStep2, ecStep3, hpar, ecSetPoint, hpt,
        hk']
    have hany : ([CKA.ecParams, .value, .ecPoint].any (fun a =>
        (keyAttr [Entry.of .ecParams (0x06 :: UInt8.ofNat c.oid.length :: c.oid),
          Entry.of .ecPoint (ecPointHdr p.length ++ p)] a).any (fun e => e.mem.isNone))) = false := by
      simp [keyAttr, Entry.of]
    rw [setAttributeValue_run (by simp [checkAttributes, c1, c2]) hkp hany hsk]
    simp [setAttrs, setAttr, Entry.of, hn]
  refine ⟨_, hset, ?_, ?_⟩
  · exact rp _ k' hn rfl (hx.import_dp _ _ _ hk')
  · exact rd _ k' hn rfl (hx.import_dp _ _ _ hk') (hx.import_typ _ _ _ hk')
      (hx.import_export _ c p _ rfl hpl h4 hk')

set_option maxRecDepth 20000 in
/-- The toy public key meets the hypotheses. -/
example : Demo.ecPub.typ = CKK_EC ∧ Demo.kx.curve Demo.curve.oid = some Demo.curve ∧
    ∃ p, Demo.kx.exportX963 { dp := some Demo.curve, x := 5, y := 9, typ := .pub } = some p ∧ p.headD 0 = 4 ∧
      (Demo.kx.importX963 { dp := some Demo.curve, typ := .pub } p).isSome :=
  ⟨rfl, rfl, _, rfl, rfl, rfl⟩

/-- **C29** for EC private values: the value given (with no point in the template) reads
back without leading zeros if the key is extractable and not sensitive. -/
theorem c29_ec_value (x : KeyExt) (hx : x.Lawful) (o o' : Obj) (t : List Entry) (ho : o.typ = CKK_EC)
    (hc : o.cls ≠ CKO_CERTIFICATE) (hc' : o'.cls ≠ CKO_CERTIFICATE) (h : setAttributeValue x true o t = (.ok, o'))
    (v : Bytes) (hv : FirstIn t .value v) (hp : NotIn t .ecPoint) (h1 : ¬ o'.Sensitive) (h2 : o'.Extractable)
    (n : Nat) (hn : v.length ≤ n) : readAttr x o' .value n = (.ok, noLeadingZeros v) := by
  obtain ⟨k, hd, ht, k1, k2, e1, e2, e3⟩ := setEcKey_ok ho hc h
  rw [keyVals_notIn hp] at e3
  have hk := (ecStep3_ok hx e3).2.1 rfl
  subst hk
  rw [keyVals_first hv] at e2
  simp only [ecStep2, setMpi] at e2
  by_cases hm : x.mpOk v.length = true
  · simp only [hm, if_true, Prod.mk.injEq, true_and] at e2
    have n1 : CKK_EC ≠ CKK_RSA := by decide
    refine readAttr_of x o' .value _ n ?_ trivial (Nat.le_trans (List.dropWhile_suffix _).length_le hn)
    rw [← mpBytes_ofBytes]
    funext b l
    simp [getAttr, getKeyAttr, misread_ec ht, ht, n1, hc', ecGetAttr, Obj.ec, hd, noPriv_false o' h1 h2, ← e2]
  · simp [hm] at e2

example : ∃ o', setAttributeValue Demo.kx true { typ := CKK_EC, cls := CKO_PRIVATE_KEY }
      [Entry.of .ecParams Demo.params, Entry.of .value [0, 9], Entry.of .extractable (cbool true)] = (.ok, o') ∧
    ¬ o'.Sensitive ∧ o'.Extractable ∧ o'.cls ≠ CKO_CERTIFICATE :=
  ⟨_, rfl, by decide, by decide, by decide⟩

end Verif
