import Verif.Proofs.Demo
import Verif.Props.AttrFlags
import Verif.Props.DhDer

/-!
# C29, C30, C58: attribute values and key material
-/

namespace Verif

/-! ## C29: label, identifier, dates and class -/

theorem val_of (a : CKA) (v : Bytes) : (Entry.of a v).val = v := by simp [Entry.val, Entry.of]

/-- What the last entry for an attribute sets is what remains. -/
theorem setAttributeValue_last {α : Type} (f : Obj → α) {x : KeyExt} {o o' : Obj} {t : List Entry} {a : CKA}
    {v : Bytes} {w : α} (h : setAttributeValue x true o t = (.ok, o')) (hl : LastIn t a v)
    (hset : ∀ o, (setAttr o (Entry.of a v)).1 = .ok → f (setAttr o (Entry.of a v)).2 = w)
    (hkeep : ∀ o e, e.typ ≠ a → f (setAttr o e).2 = f o) : f o' = w := by
  obtain ⟨t1, t2, rfl, ht2⟩ := hl
  obtain ⟨-, -, -, h4⟩ := setAttributeValue_ok h
  obtain ⟨-, h5⟩ := setAttrs_append _ t1 (Entry.of a v :: t2) (by rw [h4])
  rw [h5] at h4
  obtain ⟨h6, h7⟩ := setAttrs_cons_ok _ (Entry.of a v) t2 (by rw [h4])
  rw [h7] at h4
  have h8 := hset _ h6
  have := setAttrs_inv (P := fun o => f o = w) t2
    (fun o e he hp => by rw [hkeep o e (ht2 e he)]; exact hp) _ h8
  rw [h4] at this
  exact this

theorem checked_len {x : KeyExt} {o o' : Obj} {t : List Entry} {a : CKA} {v : Bytes} {k : AKind}
    (h : setAttributeValue x true o t = (.ok, o')) (hm : Entry.of a v ∈ t) (hk : a.kind = some k)
    (h8 : k = .ulong ∨ k = .date) : v.length = 8 := by
  obtain ⟨-, h2, -, -⟩ := setAttributeValue_ok h
  have := checkAttributes_ok h2 _ hm
  simp only [checkEntry, Entry.of, hk] at this
  rcases h8 with rfl | rfl <;> simp_all

/-- **C29** for `CKA_LABEL` and `CKA_ID`: after a successful call the value of the last
entry is what `C_GetAttributeValue` returns, for every value and every large enough
buffer. -/
theorem c29_label_id (x : KeyExt) (o o' : Obj) (t : List Entry) (a : CKA) (ha : a = .label ∨ a = .id) (v : Bytes)
    (h : setAttributeValue x true o t = (.ok, o')) (hl : LastIn t a v) (n : Nat) (hn : v.length ≤ n) :
    readAttr x o' a n = (.ok, v) := by
  rcases ha with rfl | rfl
  · have : o'.label = v := setAttributeValue_last (fun o => o.label) h hl
      (by intro o _; simp [setAttr, Entry.of, Entry.val]) (fun o e he => setAttr_label o e he)
    exact readAttr_of x o' .label v n (by funext b l; simp [getAttr, this]) trivial hn
  · have : o'.keyId = v := setAttributeValue_last (fun o => o.keyId) h hl
      (by intro o _; simp [setAttr, Entry.of, Entry.val]) (fun o e he => setAttr_id o e he)
    exact readAttr_of x o' .id v n (by funext b l; simp [getAttr, this]) trivial hn

/-- **C29** for the dates: a date that does not begin with a zero byte reads back. -/
theorem c29_dates_partial (x : KeyExt) (o o' : Obj) (t : List Entry) (a : CKA) (ha : a = .startDate ∨ a = .endDate)
    (v : Bytes) (h : setAttributeValue x true o t = (.ok, o')) (hl : LastIn t a v) (h0 : v.headD 0 ≠ 0) :
    readAttr x o' a 8 = (.ok, v) := by
  have hm : Entry.of a v ∈ t := by obtain ⟨t1, t2, rfl, -⟩ := hl; simp
  rcases ha with rfl | rfl
  · have h8 := checked_len h hm (k := .date) rfl (.inr rfl)
    have : o'.startDate = v := setAttributeValue_last (fun o => o.startDate) h hl
      (by intro o _; simp [setAttr, Entry.of, Entry.val, h8, List.take_of_length_le (Nat.le_of_eq h8)]) (fun o e he => setAttr_start o e he)
    exact readAttr_of x o' .startDate v 8 (by funext b l; simp only [getAttr, this, if_neg h0]) rfl (by omega)
  · have h8 := checked_len h hm (k := .date) rfl (.inr rfl)
    have : o'.endDate = v := setAttributeValue_last (fun o => o.endDate) h hl
      (by intro o _; simp [setAttr, Entry.of, Entry.val, h8, List.take_of_length_le (Nat.le_of_eq h8)]) (fun o e he => setAttr_end o e he)
    exact readAttr_of x o' .endDate v 8 (by funext b l; simp only [getAttr, this, if_neg h0]) rfl (by omega)

/-- **C29** for `CKA_CLASS`. -/
theorem c29_class (x : KeyExt) (o o' : Obj) (t : List Entry) (v : Bytes)
    (h : setAttributeValue x true o t = (.ok, o')) (hl : LastIn t .cls v) : readAttr x o' .cls 8 = (.ok, v) := by
  have hm : Entry.of .cls v ∈ t := by obtain ⟨t1, t2, rfl, -⟩ := hl; simp
  have h8 := checked_len h hm (k := .ulong) rfl (.inl rfl)
  have : o'.cls = leNat v := setAttributeValue_last (fun o => o.cls) h hl
    (by
      intro o ho
      simp only [setAttr] at ho ⊢
      rw [val_of] at ho ⊢
      simp only [Entry.of] at ho ⊢
      split
      · rename_i hr; rw [if_pos hr] at ho; cases ho
      · rfl) (fun o e he => setAttr_cls o e he)
  have hb : ulong (leNat v) = v := by rw [ulong, ← h8]; exact leBytes_leNat v
  exact readAttr_of x o' .cls v 8 (by funext b l; simp [getAttr, this, hb]) rfl (by omega)

/-- A template that sets label (twice), dates, identifier and class. -/
def Demo.tmpl : List Entry :=
  [Entry.of .label [1], Entry.of .id [2, 3], Entry.of .startDate [50, 48, 50, 54, 49, 49, 49, 55],
   Entry.of .label [65, 66], Entry.of .cls (ulong CKO_SECRET_KEY)]

example : (setAttributeValue Demo.kx true Demo.key Demo.tmpl).1 = .ok ∧ LastIn Demo.tmpl .label [65, 66] ∧
    LastIn Demo.tmpl .startDate [50, 48, 50, 54, 49, 49, 49, 55] :=
  ⟨by decide, ⟨[_, _, _], [_], rfl, by decide⟩, ⟨[_, _], [_, _], rfl, by decide⟩⟩

/-- **C29 is violated** for a date that begins with a zero byte: it reads back as
empty. -/
theorem c29_violated_date : ∃ o', setAttributeValue Demo.kx true Demo.key
      [Entry.of .startDate [0, 48, 50, 54, 49, 49, 49, 55]] = (.ok, o') ∧
    readAttr Demo.kx o' .startDate 8 = (.ok, []) :=
  ⟨_, rfl, by decide⟩

/-! ## C29: key material -/

theorem keyVals_first {t : List Entry} {a : CKA} {v : Bytes} (h : FirstIn t a v) : keyVals t a = some v := by
  obtain ⟨t1, t2, rfl, h1⟩ := h
  have : t1.find? (fun e => e.typ == a) = none := by
    rw [List.find?_eq_none]; intro e he; simpa using h1 e he
  simp [keyVals, keyAttr, List.find?_append, this, Entry.of, Entry.val]

theorem keyVals_notIn {t : List Entry} {a : CKA} (h : NotIn t a) : keyVals t a = none := by
  have : t.find? (fun e => e.typ == a) = none := by
    rw [List.find?_eq_none]; intro e he; simpa using h e he
  simp [keyVals, keyAttr, this]

theorem ofBytes_cons (a : UInt8) (b : Bytes) : ofBytes (a :: b) = a.toNat * 256 ^ b.length + ofBytes b := by
  have := ofBytes_lt
  suffices h : ∀ (b : Bytes) (acc : Nat), b.foldl (fun a x => a * 256 + x.toNat) acc = acc * 256 ^ b.length + ofBytes b by
    simp only [ofBytes, List.foldl_cons] at *
    rw [h]; simp [ofBytes]
  intro b
  induction b with
  | nil => intro acc; simp [ofBytes]
  | cons c b ih =>
    intro acc
    simp only [List.foldl_cons, ofBytes, List.length_cons]
    rw [ih, ih (0 * 256 + c.toNat)]
    rw [Nat.pow_succ, Nat.add_mul, Nat.mul_assoc, Nat.mul_comm 256, Nat.zero_mul, Nat.zero_add]
    omega

/-- Writing a number read from bytes gives the bytes without leading zeros. -/
theorem mpBytes_ofBytes (v : Bytes) : mpBytes (ofBytes v) = noLeadingZeros v := by
  induction v with
  | nil => rfl
  | cons a b ih =>
    by_cases h0 : a = 0
    · subst h0
      simp only [noLeadingZeros, List.dropWhile_cons, beq_self_eq_true, if_true]
      rw [ofBytes_cons]
      simpa [noLeadingZeros] using ih
    · have hz : (a == 0) = false := by simpa using h0
      simp only [noLeadingZeros, List.dropWhile_cons, hz, Bool.false_eq_true, if_false]
      have ha : a.toNat ≠ 0 := by intro h; apply h0; exact UInt8.toNat_inj.1 h
      have hlt := ofBytes_lt (a :: b)
      have hge : 256 ^ b.length ≤ ofBytes (a :: b) := by
        rw [ofBytes_cons]
        have : 1 * 256 ^ b.length ≤ a.toNat * 256 ^ b.length := Nat.mul_le_mul_right _ (by omega)
        omega
      have hne : ofBytes (a :: b) ≠ 0 := by
        have : 0 < 256 ^ b.length := Nat.pow_pos (by omega)
        omega
      obtain ⟨h1, h2, h3⟩ := mpSize_pos _ hne
      have hs : mpSize (ofBytes (a :: b)) = (a :: b).length := by
        rw [h1, List.length_cons]
        have l1 : Nat.log2 (ofBytes (a :: b)) / 8 < b.length + 1 :=
          (Nat.pow_lt_pow_iff_right (a := 256) (by omega)).1 (Nat.lt_of_le_of_lt h2 (by simpa using hlt))
        have l2 : b.length < Nat.log2 (ofBytes (a :: b)) / 8 + 1 :=
          (Nat.pow_lt_pow_iff_right (a := 256) (by omega)).1 (Nat.lt_of_le_of_lt hge h3)
        omega
      rw [mpBytes, hs]
      exact beBytes_ofBytes _

theorem noLeadingZeros_nil {v : Bytes} (h : noLeadingZeros v = []) : ∀ b ∈ v, b = 0 := by
  induction v with
  | nil => simp
  | cons a v ih =>
    simp only [noLeadingZeros, List.dropWhile_cons] at h
    split at h
    · rename_i h0
      intro b hb
      rcases List.mem_cons.1 hb with rfl | hb
      · simpa using h0
      · exact ih h b hb
    · simp at h

theorem noPriv_false (o : Obj) (h1 : ¬ o.Sensitive) (h2 : o.Extractable) : o.noPriv = false := by
  have e1 : o.flag.getLsbD 1 = false := by simpa only [Obj.Sensitive, Bool.not_eq_true] using h1
  have e2 : o.flag.getLsbD 2 = true := h2
  have f1 : o.flag &&& FLAG_SENSITIVE = 0 := by
    rw [show FLAG_SENSITIVE = BitVec.twoPow 32 1 from by decide, BitVec.and_twoPow, e1]; rfl
  have f2 : o.flag &&& FLAG_EXTRACTABLE = FLAG_EXTRACTABLE := by
    rw [show FLAG_EXTRACTABLE = BitVec.twoPow 32 2 from by decide, BitVec.and_twoPow, e2]; rfl
  unfold Obj.noPriv
  rw [f1, f2]; decide

/-- What remains after a successful call: the key data the key setter made, and the
same type. -/
theorem setAttributeValue_data {x : KeyExt} {o o' : Obj} {t : List Entry}
    (h : setAttributeValue x true o t = (.ok, o')) :
    (setKey x o (keyVals t)).1 = .ok ∧ o'.data = (setKey x o (keyVals t)).2.data ∧ o'.typ = o.typ := by
  obtain ⟨-, -, h3, h4⟩ := setAttributeValue_ok h
  have := setAttrs_rest (setKey x o (keyVals t)).2 t
  rw [h4] at this
  obtain ⟨d, s, hf⟩ := setKey_frame x o (keyVals t)
  exact ⟨h3, this.data, by rw [this.typ, hf]⟩

theorem setAttributeValue_noCert {x : KeyExt} {o o' : Obj} {t : List Entry}
    (h : setAttributeValue x true o t = (.ok, o')) (hc : o.cls ≠ CKO_CERTIFICATE) : o'.cls ≠ CKO_CERTIFICATE := by
  obtain ⟨-, -, -, h4⟩ := setAttributeValue_ok h
  obtain ⟨d, s, hf⟩ := setKey_frame x o (keyVals t)
  rw [hf] at h4
  have := (setAttrs_kept { o with data := d, size := s } t hc).2
  rw [h4] at this
  exact this

/-- The components of an RSA key. -/
def CKA.IsRsaPublic (a : CKA) : Prop := a = .modulus ∨ a = .publicExponent

/-- The private components of an RSA key. -/
def CKA.IsRsaPrivate (a : CKA) : Prop :=
  a ∈ [CKA.privateExponent, .prime1, .prime2, .exponent1, .exponent2, .coefficient]

/-- The component of an RSA key that an attribute names. -/
def rsaPart (k : RsaKey) : CKA → Nat
  | .modulus => k.n
  | .privateExponent => k.d
  | .prime1 => k.p
  | .prime2 => k.q
  | .exponent1 => k.dP
  | .exponent2 => k.dQ
  | .coefficient => k.u
  | _ => k.e

theorem setRsaKey_part {x : KeyExt} {o : Obj} {t : List Entry}
    (h : (setRsaKey x o (keyVals t)).1 = .ok) {a : CKA} {v : Bytes} (ha : a.IsRsaPublic ∨ a.IsRsaPrivate)
    (hv : keyVals t a = some v) :
    ∃ k, (setRsaKey x o (keyVals t)).2.data = .rsa k ∧ rsaPart k a = ofBytes v ∧
      ∀ w, keyVals t .privateExponent = some w → k.d = ofBytes w := by
  have mp : ∀ w n, setMpi x (some w) = some n → n = ofBytes w := by
    intro w n hn; simp only [setMpi] at hn; split at hn <;> simp_all
  unfold setRsaKey at h ⊢
  split at h
  · rename_i n d p q dP dQ u e h1 h2 h3 h4 h5 h6 h7 h8
    have fin : ∀ k : RsaKey, k.n = n → k.d = d → k.p = p → k.q = q → k.dP = dP → k.dQ = dQ → k.u = u → k.e = e →
        rsaPart k a = ofBytes v ∧ ∀ w, keyVals t .privateExponent = some w → k.d = ofBytes w := by
      intro k e1 e2 e3 e4 e5 e6 e7 e8
      constructor
      · simp only [CKA.IsRsaPublic, CKA.IsRsaPrivate, List.mem_cons, List.not_mem_nil, or_false] at ha
        rcases ha with (rfl | rfl) | rfl | rfl | rfl | rfl | rfl | rfl <;> simp only [rsaPart]
        · rw [e1]; exact mp _ _ (hv ▸ h1)
        · rw [e8]; exact mp _ _ (hv ▸ h8)
        · rw [e2]; exact mp _ _ (hv ▸ h2)
        · rw [e3]; exact mp _ _ (hv ▸ h3)
        · rw [e4]; exact mp _ _ (hv ▸ h4)
        · rw [e5]; exact mp _ _ (hv ▸ h5)
        · rw [e6]; exact mp _ _ (hv ▸ h6)
        · rw [e7]; exact mp _ _ (hv ▸ h7)
      · intro w hw; rw [hw] at h2; rw [e2]; exact mp _ _ h2
    simp only [h1, h2, h3, h4, h5, h6, h7, h8]
    split
    · exact ⟨_, rfl, fin _ rfl rfl rfl rfl rfl rfl rfl rfl⟩
    · rename_i b hb
      simp only [hb] at h
      split
      · exact ⟨_, rfl, fin _ rfl rfl rfl rfl rfl rfl rfl rfl⟩
      · rename_i h9
        rw [if_neg h9] at h
        split
        · rename_i h10; rw [if_pos h10] at h; simp at h
        · exact ⟨_, rfl, fin _ rfl rfl rfl rfl rfl rfl rfl rfl⟩
  · simp at h

/-- **C29** for RSA keys: the modulus and the public exponent given read back, without
leading zeros; so do the private components when the key is extractable, not sensitive
and has a private exponent. -/
theorem c29_rsa (x : KeyExt) (o o' : Obj) (t : List Entry) (ho : o.typ = CKK_RSA) (hc : o.cls ≠ CKO_CERTIFICATE)
    (h : setAttributeValue x true o t = (.ok, o')) (a : CKA) (v : Bytes) (hv : FirstIn t a v)
    (ha : a.IsRsaPublic ∨ a.IsRsaPrivate ∧ ¬ o'.Sensitive ∧ o'.Extractable ∧
      ∃ d, FirstIn t .privateExponent d ∧ ∃ b ∈ d, b ≠ 0)
    (n : Nat) (hn : v.length ≤ n) : readAttr x o' a n = (.ok, noLeadingZeros v) := by
  have hc' := setAttributeValue_noCert h hc
  obtain ⟨h1, h2, h3⟩ := setAttributeValue_data h
  have hk : setKey x o (keyVals t) = setRsaKey x o (keyVals t) := by simp [setKey, hc, ho]
  rw [hk] at h1 h2
  obtain ⟨k, e1, e2, e3⟩ := setRsaKey_part h1 (ha.imp id (·.1)) (keyVals_first hv)
  rw [e1] at h2
  have hr : o'.rsa = k := by simp [Obj.rsa, h2]
  have hlen : (noLeadingZeros v).length ≤ n := by
    have : (noLeadingZeros v).length ≤ v.length := (List.dropWhile_suffix _).length_le
    omega
  have hs : SizeFor a n := by
    rcases ha with (rfl | rfl) | ⟨ha, -⟩
    · trivial
    · trivial
    · simp only [CKA.IsRsaPrivate, List.mem_cons, List.not_mem_nil, or_false] at ha
      rcases ha with rfl | rfl | rfl | rfl | rfl | rfl <;> trivial
  apply readAttr_of x o' a _ n _ hs hlen
  rw [← mpBytes_ofBytes, ← e2]
  have hg : getAttr x o' a = rsaGetAttr o' a := by
    funext b l
    rcases ha with (rfl | rfl) | ⟨ha, -⟩
    · simp [getAttr, getKeyAttr, misread, hc', h3, ho]
    · simp [getAttr, getKeyAttr, misread, hc', h3, ho]
    · simp only [CKA.IsRsaPrivate, List.mem_cons, List.not_mem_nil, or_false] at ha
      rcases ha with rfl | rfl | rfl | rfl | rfl | rfl <;> simp [getAttr, getKeyAttr, misread, hc', h3, ho]
  rw [hg]
  funext b l
  rcases ha with (rfl | rfl) | ⟨ha, hs, he, d, hd, c, hc1, hc2⟩
  · simp [rsaGetAttr, hr, rsaPart]
  · simp [rsaGetAttr, hr, rsaPart]
  · have hd0 : (k.d == 0) = false := by
      rw [e3 d (keyVals_first hd), beq_eq_false_iff_ne]
      intro hz
      have hm := mpBytes_ofBytes d
      rw [hz] at hm
      have : noLeadingZeros d = [] := hm.symm.trans (by decide)
      exact hc2 (noLeadingZeros_nil this c hc1)
    have hp := noPriv_false o' hs he
    simp only [CKA.IsRsaPrivate, List.mem_cons, List.not_mem_nil, or_false] at ha
    rcases ha with rfl | rfl | rfl | rfl | rfl | rfl <;> simp [rsaGetAttr, hr, rsaPart, hp, hd0]

/-- **C29** for RSA keys: `CKA_MODULUS_BITS` is the number of bits of the modulus given, whatever the
template says about it: the modulus is below `2 ^ bits`, and not below `2 ^ (bits - 1)` unless it is 0. -/
theorem c29_rsa_bits (x : KeyExt) (o o' : Obj) (t : List Entry) (ho : o.typ = CKK_RSA) (hc : o.cls ≠ CKO_CERTIFICATE)
    (h : setAttributeValue x true o t = (.ok, o')) (v : Bytes) (hv : FirstIn t .modulus v) :
    ∃ bits, readAttr x o' .modulusBits 8 = (.ok, ulong bits) ∧
      v.foldl (fun a b => a * 256 + b.toNat) 0 < 2 ^ bits ∧ ((∃ b ∈ v, b ≠ 0) → 2 ^ (bits - 1) ≤ v.foldl (fun a b => a * 256 + b.toNat) 0) := by
  have hc' := setAttributeValue_noCert h hc
  obtain ⟨h1, h2, h3⟩ := setAttributeValue_data h
  have hk : setKey x o (keyVals t) = setRsaKey x o (keyVals t) := by simp [setKey, hc, ho]
  rw [hk] at h1 h2
  obtain ⟨k, e1, e2, e3⟩ := setRsaKey_part h1 (a := .modulus) (.inl (.inl rfl)) (keyVals_first hv)
  rw [e1] at h2
  have hr : o'.rsa = k := by simp [Obj.rsa, h2]
  have hn : k.n = v.foldl (fun a b => a * 256 + b.toNat) 0 := e2
  refine ⟨bitCount k.n, ?_, ?_, ?_⟩
  · refine readAttr_of x o' .modulusBits _ 8 ?_ rfl (by rw [ulong, length_leBytes]; omega)
    funext b l
    simp [getAttr, getKeyAttr, misread, hc', h3, ho, rsaGetAttr, hr]
  · rw [← hn]
    unfold bitCount
    by_cases h0 : k.n = 0
    · rw [h0]; decide
    · have := Nat.lt_log2_self (n := 2 * k.n)
      rw [Nat.pow_succ] at this
      omega
  · rintro ⟨b, hb, hb0⟩
    have h0 : k.n ≠ 0 := by
      intro hz
      have hm := mpBytes_ofBytes v
      rw [show ofBytes v = k.n from e2.symm, hz] at hm
      exact hb0 (noLeadingZeros_nil (hm.symm.trans (by decide)) b hb)
    rw [← hn]
    unfold bitCount
    have h1 := Nat.log2_self_le (n := 2 * k.n) (by omega)
    have h2 : 1 ≤ Nat.log2 (2 * k.n) := (Nat.le_log2 (by omega)).mpr (by omega)
    obtain ⟨m, hm⟩ : ∃ m, Nat.log2 (2 * k.n) = m + 1 := ⟨_, (Nat.sub_add_cancel h2).symm⟩
    rw [hm, Nat.pow_succ] at h1
    rw [hm, Nat.add_sub_cancel]
    omega

/-- A new RSA private key object and a template for it. -/
def Demo.rsaTmpl : List Entry :=
  [Entry.of .modulus [0, 143], Entry.of .publicExponent [3], Entry.of .privateExponent [7],
   Entry.of .sensitive (cbool false), Entry.of .extractable (cbool true)]

example : ∃ o', setAttributeValue Demo.kx true { typ := CKK_RSA, cls := CKO_PRIVATE_KEY } Demo.rsaTmpl = (.ok, o') ∧
    ¬ o'.Sensitive ∧ o'.Extractable ∧ FirstIn Demo.rsaTmpl .privateExponent [7] :=
  ⟨_, rfl, by decide, by decide, ⟨[_, _], [_, _], rfl, by decide⟩⟩

/-- **C29** for secret keys: the value given reads back, if `CKA_VALUE_LEN` is absent
or its length, and the key is extractable and not sensitive; `CKA_VALUE_LEN` reads back
as its length in any case. -/
theorem c29_secret (x : KeyExt) (o o' : Obj) (t : List Entry) (ho : o.typ = CKK_AES ∨ o.typ = CKK_GENERIC_SECRET)
    (hc : o.cls ≠ CKO_CERTIFICATE) (hc' : o'.cls ≠ CKO_CERTIFICATE)
    (h : setAttributeValue x true o t = (.ok, o')) (v : Bytes) (hv : FirstIn t .value v)
    (hl : NotIn t .valueLen ∨ FirstIn t .valueLen (ulong v.length) ∧ v.length < 2 ^ 32) :
    readAttr x o' .valueLen 8 = (.ok, ulong v.length) ∧
    (¬ o'.Sensitive → o'.Extractable → ∀ n, v.length ≤ n → readAttr x o' .value n = (.ok, v)) := by
  obtain ⟨h1, h2, h3⟩ := setAttributeValue_data h
  have n1 : o.typ ≠ CKK_RSA := by rcases ho with e | e <;> rw [e] <;> decide
  have n2 : o.typ ≠ CKK_EC := by rcases ho with e | e <;> rw [e] <;> decide
  have n3 : o.typ ≠ CKK_DH := by rcases ho with e | e <;> rw [e] <;> decide
  have hk : setKey x o (keyVals t) = setSecretKey o (keyVals t) := by simp [setKey, hc, n1, n2, n3]
  rw [hk] at h1 h2
  have hd : o'.data = .symm v ∧ v.length ≤ 512 := by
    unfold setSecretKey at h1 h2
    rw [keyVals_first hv] at h1 h2
    have hn : ∀ m, secretLen o.typ (keyVals t .valueLen) (some v) = .ok m → m = v.length := by
      intro m hm
      rcases hl with hl | ⟨hl, hlt⟩
      · rw [keyVals_notIn hl] at hm
        simpa [secretLen] using hm.symm
      · rw [keyVals_first hl] at hm
        have he : leNat (ulong v.length) = v.length := by
          rw [ulong, leNat_leBytes, Nat.mod_eq_of_lt (by omega)]
        simp only [secretLen, he, Nat.mod_eq_of_lt hlt] at hm
        split at hm
        · simp at hm
        · split at hm
          · simp at hm
          · split at hm
            · simpa using hm.symm
            · split at hm
              · simp at hm
              · simpa using hm.symm
    cases hsl : secretLen o.typ (keyVals t .valueLen) (some v) with
    | error r => 
      rw [hsl] at h1
      simp only at h1
      subst h1
      simp only [secretLen] at hsl
      split at hsl
      · simp at hsl
      · split at hsl
        · simp at hsl
        · split at hsl
          · simp at hsl
          · split at hsl
            · simp at hsl
            · split at hsl <;> simp at hsl
    | ok m =>
      rw [hsl] at h1 h2
      simp only [hn m hsl, List.take_length] at h1 h2
      refine ⟨h2, ?_⟩
      split at h1
      · simp at h1
      · rename_i hh; simpa [maxSymKey] using hh
  have hr : o'.symm = v := by simp [Obj.symm, hd.1]
  have hg : ∀ a, a = .value ∨ a = .valueLen → getAttr x o' a = secretGetAttr o' a := by
    intro a ha
    funext b l
    rcases ha with rfl | rfl <;> simp [getAttr, getKeyAttr, misread, h3, n1, n2, n3, ho, hc']
  refine ⟨readAttr_of x o' .valueLen _ 8 ?_ rfl (by rw [ulong, length_leBytes]; omega), ?_⟩
  · rw [hg _ (.inr rfl)]; funext b l; simp [secretGetAttr, hr]
  · intro e1 e2 n hn
    refine readAttr_of x o' .value _ n ?_ trivial hn
    rw [hg _ (.inl rfl)]; funext b l
    have hle : ¬ v.length > 512 := by omega
    simp [secretGetAttr, hr, noPriv_false o' e1 e2, maxSymKey, hle]

example : ∃ o', setAttributeValue Demo.kx true { typ := CKK_GENERIC_SECRET, cls := CKO_SECRET_KEY }
      [Entry.of .valueLen (ulong 3), Entry.of .value [5, 6, 7], Entry.of .extractable (cbool true)] = (.ok, o') ∧
    ¬ o'.Sensitive ∧ o'.Extractable ∧ o'.cls ≠ CKO_CERTIFICATE :=
  ⟨_, rfl, by decide, by decide, by decide⟩

/-- **C29** for DH keys: prime and base read back without leading zeros, the value as it
was given if the key is not private, or extractable and not sensitive. -/
theorem c29_dh (x : KeyExt) (o o' : Obj) (t : List Entry) (ho : o.typ = CKK_DH)
    (hc : o.cls ≠ CKO_CERTIFICATE) (hc' : o'.cls ≠ CKO_CERTIFICATE)
    (h : setAttributeValue x true o t = (.ok, o')) :
    (∀ p g, FirstIn t .prime p → FirstIn t .base g →
      (∀ n, p.length ≤ n → readAttr x o' .prime n = (.ok, noLeadingZeros p)) ∧
      (∀ n, g.length ≤ n → readAttr x o' .base n = (.ok, noLeadingZeros g))) ∧
    (∀ v, FirstIn t .value v → (o'.cls ≠ CKO_PRIVATE_KEY ∨ ¬ o'.Sensitive ∧ o'.Extractable) →
      ∀ n, v.length ≤ n → readAttr x o' .value n = (.ok, v)) := by
  obtain ⟨h1, h2, h3⟩ := setAttributeValue_data h
  have hk : setKey x o (keyVals t) = setDhKey x o (keyVals t) := by
    simp only [setKey, if_neg hc, ho]; rfl
  rw [hk] at h1 h2
  have hg : ∀ a, a = .value ∨ a = .prime ∨ a = .base → getAttr x o' a = dhGetAttr o' a := by
    intro a ha
    funext b l
    have n1 : CKK_DH ≠ CKK_RSA := by decide
    have n2 : CKK_DH ≠ CKK_EC := by decide
    have n3 : o'.typ = CKK_DH := by rw [h3, ho]
    rcases ha with rfl | rfl | rfl <;> simp [getAttr, getKeyAttr, misread, n1, n2, n3, hc']
  have nz : ∀ w : Bytes, (noLeadingZeros w).length ≤ w.length := fun w => (List.dropWhile_suffix _).length_le
  refine ⟨?_, ?_⟩
  · intro p g hp hgx
    have hd : o'.dh.p = ofBytes p ∧ o'.dh.g = ofBytes g := by
      unfold setDhKey at h1 h2
      simp only [keyVals_first hp, keyVals_first hgx] at h1 h2
      by_cases hok : x.dhOk p g = true
      · simp only [hok, if_true] at h1 h2
        split at h2
        · simp [Obj.dh, h2]
        · rename_i b hb
          simp only [hb] at h1
          split at h2
          · rename_i hh; rw [if_pos hh] at h1; simp at h1
          · simp [Obj.dh, h2]
      · simp [hok] at h1
    constructor
    · intro n hn
      refine readAttr_of x o' .prime _ n ?_ trivial (Nat.le_trans (nz p) hn)
      rw [hg _ (.inr (.inl rfl)), ← mpBytes_ofBytes]; funext b l; simp [dhGetAttr, hd.1]
    · intro n hn
      refine readAttr_of x o' .base _ n ?_ trivial (Nat.le_trans (nz g) hn)
      rw [hg _ (.inr (.inr rfl)), ← mpBytes_ofBytes]; funext b l; simp [dhGetAttr, hd.2]
  · intro v hv hr n hn
    have hd : o'.dh.key = v := by
      unfold setDhKey at h1 h2
      simp only [keyVals_first hv] at h1 h2
      split at h1
      · simp at h1
      · rename_i e
        simp only [e] at h2
        split at h1
        · simp at h1
        · rename_i hh; rw [if_neg hh] at h2; simp [Obj.dh, h2]
    refine readAttr_of x o' .value _ n ?_ trivial hn
    rw [hg _ (.inl rfl)]; funext b l
    rcases hr with hr | ⟨e1, e2⟩
    · simp [dhGetAttr, hr, hd]
    · simp [dhGetAttr, hd, noPriv_false o' e1 e2]

example : ∃ o', setAttributeValue Demo.kx true { typ := CKK_DH, cls := CKO_PUBLIC_KEY }
      [Entry.of .prime [0, 23], Entry.of .base [5], Entry.of .value [0, 8]] = (.ok, o') ∧
    o'.cls ≠ CKO_PRIVATE_KEY ∧ o'.cls ≠ CKO_CERTIFICATE :=
  ⟨_, rfl, by decide, by decide⟩

/-- **C29** for certificates: the value reads back as given. -/
theorem c29_cert (x : KeyExt) (o o' : Obj) (t : List Entry) (hc : o.cls = CKO_CERTIFICATE)
    (hc' : o'.cls = CKO_CERTIFICATE) (h : setAttributeValue x true o t = (.ok, o')) (v : Bytes)
    (hv : FirstIn t .value v) (n : Nat) (hn : v.length ≤ n) : readAttr x o' .value n = (.ok, v) := by
  obtain ⟨h1, h2, -⟩ := setAttributeValue_data h
  have hk : setKey x o (keyVals t) = setCert o (keyVals t) := by simp [setKey, hc]
  rw [hk] at h1 h2
  have hd : o'.certValue = v := by
    unfold setCert at h1 h2
    simp only [keyVals_first hv] at h1 h2
    split at h1
    · rename_i l hl
      simp only [hl] at h2
      split at h1
      · simp at h1
      · rename_i hh
        rw [if_neg hh] at h2
        split at h1
        · simp at h1
        · rename_i hh2; rw [if_neg hh2] at h2; simp [Obj.certValue, h2]
    · rename_i hl
      simp only [hl] at h2
      split at h1
      · simp at h1
      · rename_i hh2; rw [if_neg hh2] at h2; simp [Obj.certValue, h2]
  refine readAttr_of x o' .value _ n ?_ trivial hn
  funext b l; simp [getAttr, getKeyAttr, hc', hd]

example : ∃ o', setAttributeValue Demo.kx true { typ := 0, cls := CKO_CERTIFICATE }
      [Entry.of .certificateType (ulong 0), Entry.of .value [0x30, 0]] = (.ok, o') ∧ o'.cls = CKO_CERTIFICATE :=
  ⟨_, rfl, by decide⟩

/-! ## C30 -/

/-- What a template gives a secret key fits the key array: its value has at most 512
bytes, and its `CKA_VALUE_LEN` is at most 512. -/
def FitsSecret (t : List Entry) : Prop :=
  (∀ e ∈ t, e.typ = .value → e.val.length ≤ 512) ∧
  ∀ e ∈ t, e.typ = .valueLen → leNat e.val ≤ 512

theorem keyVals_some {t : List Entry} {a : CKA} {v : Bytes} (h : keyVals t a = some v) :
    ∃ e ∈ t, e.typ = a ∧ e.val = v := by
  unfold keyVals keyAttr at h
  cases hf : t.find? (fun e => e.typ == a) with
  | none => simp [hf] at h
  | some e =>
    rw [hf] at h
    exact ⟨e, List.mem_of_find?_eq_some hf, by simpa using List.find?_some hf, by simpa using h⟩

theorem keyVals_none {t : List Entry} {a : CKA} (h : keyVals t a = none) : NotIn t a := by
  unfold keyVals keyAttr at h
  simp only [Option.map_eq_none_iff, List.find?_eq_none] at h
  intro e he; simpa using h e he

theorem secretLen_le {typ : Nat} {l : Option Bytes} {v : Bytes} {n : Nat} (h : secretLen typ l (some v) = .ok n) :
    n ≤ v.length := by
  unfold secretLen at h
  split at h
  · simp at h; omega
  · split at h
    · simp at h
    · split at h
      · simp at h
      · simp only at h
        split at h
        · simp at h; omega
        · split at h
          · simp at h
          · simp at h; omega

theorem setSecretKey_fits (o : Obj) (t : List Entry) (h : FitsSecret t) :
    (setSecretKey o (keyVals t)).1 ≠ .ub ∧ (setSecretKey o (keyVals t)).2.InArrays := by
  unfold setSecretKey
  cases hs : secretLen o.typ (keyVals t .valueLen) (keyVals t .value) with
  | error r =>
    refine ⟨?_, secretLeft_le fun b hb => by
      obtain ⟨e, he, ht, hv⟩ := keyVals_some hb; rw [← hv]; exact h.2 e he ht⟩
    intro hr
    simp only at hr
    subst hr
    unfold secretLen at hs
    split at hs
    · simp at hs
    · split at hs
      · simp at hs
      · split at hs
        · simp at hs
        · simp only at hs
          split at hs
          · simp at hs
          · split at hs
            · simp at hs
            · split at hs <;> simp at hs
  | ok n =>
    cases hv : keyVals t .value with
    | none =>
      simp only
      refine ⟨by simp, ?_⟩
      rw [hv] at hs
      have : n ≤ 512 := by
        cases hl : keyVals t .valueLen with
        | none => rw [hl] at hs; simp [secretLen] at hs; omega
        | some l =>
          obtain ⟨e, he, h1, h2⟩ := keyVals_some hl
          have := h.2 e he h1
          rw [hl] at hs
          simp only [secretLen] at hs
          split at hs
          · simp at hs
          · split at hs
            · simp at hs
            · simp only [Except.ok.injEq] at hs
              rw [h2] at this
              have := Nat.mod_le (leNat l) (2 ^ 32)
              omega
      simpa [Obj.InArrays] using this
    | some v =>
      obtain ⟨e, he, h1, h2⟩ := keyVals_some hv
      have hle := h.1 e he h1
      rw [h2] at hle
      rw [hv] at hs
      have := secretLen_le hs
      refine ⟨?_, ?_⟩
      · have hn : ¬ (n > maxSymKey) := by unfold maxSymKey; omega
        simp [if_neg hn]
      · simp only [Obj.InArrays, List.length_take]; omega

/-- **C30** (partial). `C_SetAttributeValue` (also inside `C_CreateObject`), whatever
its template and its outcome, leaves DH values and certificates within the object's
arrays; secret keys too, if the value and the length in the template fit. Missing:
secret values longer than 512 bytes, see `c30_violated`. -/
theorem c30_in_arrays_partial (x : KeyExt) (rw : Bool) (o : Obj) (t : List Entry) (ho : o.InArrays)
    (hs : o.typ = CKK_AES ∨ o.typ = CKK_GENERIC_SECRET → FitsSecret t) :
    (setAttributeValue x rw o t).2.InArrays := by
  have hset : ∀ o : Obj, o.InArrays → (setAttrs o t).2.InArrays := by
    intro o h
    have := setAttrs_rest o t
    unfold Obj.InArrays at h ⊢
    rw [this.data]; exact h
  suffices hk : ∀ ps, keyParams o = some ps → (setKey x o (keyVals t)).2.InArrays by
    unfold setAttributeValue
    simp only
    split
    · exact ho
    · split
      · exact ho
      · split
        · exact ho
        · rename_i ps hps
          have := hk ps hps
          split
          · exact ho
          · split
            · exact hset _ this
            · exact this
            · exact this
  intro ps hps
  unfold setKey
  split
  · unfold setCert
    simp only
    split
    · split
      · simp [Obj.InArrays]
      · split
        · simp [Obj.InArrays]
        · split
          · simp [Obj.InArrays]
          · rename_i hh; simpa [Obj.InArrays, maxCert] using hh
    · split
      · simp [Obj.InArrays]
      · split
        · simp [Obj.InArrays]
        · rename_i hh; simpa [Obj.InArrays, maxCert] using hh
  · rename_i hc
    split
    · unfold setRsaKey
      split
      · simp only
        split
        · trivial
        · split
          · trivial
          · split <;> trivial
      · trivial
    · rename_i h1
      split
      · unfold setEcKey; simp only; split <;> trivial
      · rename_i h2
        split
        · have hold : o.dh.key.length ≤ 512 := by
            unfold Obj.dh
            unfold Obj.InArrays at ho
            split
            · rename_i e; rw [e] at ho; exact ho
            · simp
          unfold setDhKey
          simp only
          split
          · exact hold
          · split
            · exact hold
            · split
              · exact hold
              · rename_i hh; simpa [Obj.InArrays, maxDhKey] using hh
        · rename_i h3
          apply (setSecretKey_fits o t _).2
          apply hs
          simp only [keyParams, if_neg hc, if_neg h1, if_neg h2, if_neg h3] at hps
          split at hps
          · assumption
          · simp at hps

example : Demo.key.InArrays ∧ (setAttributeValue Demo.kx true Demo.key [Entry.of .value (List.replicate 32 1)]).1 = .ok ∧
    FitsSecret [Entry.of .value (List.replicate 32 1)] := by
  refine ⟨by decide, by decide, ?_, ?_⟩
  · intro e he _; simp only [List.mem_singleton] at he; subst he; decide
  · intro e he ht; simp only [List.mem_singleton] at he; subst he; cases ht

set_option maxRecDepth 20000 in
/-- **C30 is violated**: a generic secret of 600 bytes overruns the array of 512 bytes
that holds it. -/
theorem c30_violated : ∃ o t, o = { typ := CKK_GENERIC_SECRET, cls := CKO_SECRET_KEY } ∧
    (setAttributeValue Demo.kx true o t).1 = .ub ∧ ¬ (setAttributeValue Demo.kx true o t).2.InArrays :=
  ⟨_, [Entry.of .value (List.replicate 600 1)], rfl, by decide, by decide⟩

end Verif
