import Verif.Proofs.KeyKept
import Verif.Proofs.SmallStep
import Verif.Spec.Orderly

/-!
# The objects of a token that only holds keys
-/

namespace Verif

variable {e : Env}

/-! ## Objects -/

/-- What is the same of a key on the token whether the user is logged in or not. -/
structure Neat (o : Obj) : Prop where
  typ : (o.typ = CKK_AES ∨ o.typ = CKK_GENERIC_SECRET) ∨ o.typ = CKK_RSA ∨ o.typ = CKK_EC
  cert : o.cls ≠ CKO_CERTIFICATE
  cls : o.cls < 2 ^ 64
  iv : o.iv.length = 12
  mech : o.keyGenMech < 2 ^ 64
  start : o.startDate.length = 8
  fin : o.endDate.length = 8
  keyId : o.keyId.length < 2 ^ 31
  label : o.label.length < 2 ^ 31
  kept : ∃ d, o.keyData = some d ∧ d.length < 2 ^ 31

/-- The key is there in clear, and can be kept. -/
def NeatOpen (x : StoreExt) (o : Obj) : Prop := Neat o ∧ o.encoded = false ∧ o.IsKey ∧ (o.keyBytes x).isSome

/-- The key is kept under this storage key. -/
def NeatShut (x : StoreExt) (key : Bytes) (o : Obj) : Prop := Neat o ∧ ∃ ov, Shut x key ov o

theorem notDh_of {o : Obj} (h : (o.typ = CKK_AES ∨ o.typ = CKK_GENERIC_SECRET) ∨ o.typ = CKK_RSA ∨ o.typ = CKK_EC) : o.typ ≠ CKK_DH := by
  rcases h with (h | h) | h | h <;> rw [h] <;> decide

theorem Neat.notDh {o : Obj} (h : Neat o) : o.typ ≠ CKK_DH := notDh_of h.typ

theorem Neat.storable {o : Obj} (h : Neat o) (hh : o.handle < 2 ^ 64) : o.Storable :=
  ⟨⟨h.cert, by rcases h.typ with (h | h) | h | h <;> simp [h], fun hd => absurd hd h.notDh⟩,
    ⟨h.iv, hh, h.cls, h.mech, h.start, h.fin, h.keyId, h.label⟩, h.kept⟩

theorem NeatOpen.isKey {x : StoreExt} {o : Obj} (h : NeatOpen x o) : o.IsKey := h.2.2.1

theorem NeatOpen.bytes {x : StoreExt} {o : Obj} (h : NeatOpen x o) : (o.keyBytes x).isSome := h.2.2.2

theorem NeatOpen.keepable {x : StoreExt} {o : Obj} (h : NeatOpen x o) : o.Keepable x := .inr ⟨h.isKey, h.bytes⟩

/-- The serialised key is not long. -/
theorem keyBytes_lt (hl : SealLen e) {o : Obj} (h : o.IsKey) {b : Bytes} (hb : o.keyBytes e.store = some b) : b.length < 2 ^ 30 := by
  rcases h.2 with ⟨_, _, k, hd, _⟩ | ⟨_, _, k, hd, _⟩ | ⟨_, _, k, hd, _, _, _, hk⟩ | ⟨_, k, hd, hk⟩ <;>
    (unfold Obj.keyBytes at hb; rw [hd] at hb; dsimp only at hb)
  · split at hb
    · exact hl.rsa k b hb
    · exact hl.rsaPub k b hb
  · split at hb
    · exact hl.ec k b hb
    · exact hl.ecPub k b hb
  · cases hb; omega
  · cases hb; omega

/-- The kept form is not long. -/
theorem sealedKey_lt (hl : SealLen e) {o : Obj} (h : o.IsKey) (hs : (o.keyBytes e.store).isSome) (key : Bytes) :
    ∃ d, o.sealedKey e.store key = some d ∧ d.length < 2 ^ 31 := by
  obtain ⟨b, hb⟩ := Option.isSome_iff_exists.mp hs
  have hlt := keyBytes_lt hl h hb
  refine ⟨_, by unfold Obj.sealedKey; rw [hb]; rfl, ?_⟩
  split
  · rw [hl.enc]; omega
  · show b.length < _; omega

theorem Neat.same {o p : Obj} (h : Neat o) (h1 : p.typ = o.typ) (h2 : p.cls = o.cls) (h3 : p.iv = o.iv)
    (h4 : p.keyGenMech = o.keyGenMech) (h5 : p.startDate = o.startDate) (h6 : p.endDate = o.endDate)
    (h7 : p.keyId = o.keyId) (h8 : p.label = o.label) (h9 : p.keyData = o.keyData) : Neat p :=
  ⟨by rw [h1]; exact h.typ, by rw [h2]; exact h.cert, by rw [h2]; exact h.cls, by rw [h3]; exact h.iv,
    by rw [h4]; exact h.mech, by rw [h5]; exact h.start, by rw [h6]; exact h.fin, by rw [h7]; exact h.keyId,
    by rw [h8]; exact h.label, by rw [h9]; exact h.kept⟩

/-- Logging out. -/
theorem NeatOpen.shut (hl : SealLen e) {o : Obj} (h : NeatOpen e.store o) (key : Bytes) :
    NeatShut e.store key (cleared (o.sealUnder e.store key)) := by
  have h1 := h.isKey
  have hs : Shut e.store key o.shown (cleared (o.sealUnder e.store key)) := .of_encode h1 h.bytes
  refine ⟨?_, _, hs⟩
  have he : o.sealUnder e.store key = { o with keyData := o.sealedKey e.store key } := if_neg h1.1
  obtain ⟨d, b, h3, _⟩ := cleared_eq (o.sealUnder e.store key)
  rw [h3, he]
  exact ⟨h.1.typ, h.1.cert, h.1.cls, h.1.iv, h.1.mech, h.1.start, h.1.fin, h.1.keyId, h.1.label, sealedKey_lt hl h1 h.bytes key⟩

/-- Logging in. -/
theorem NeatShut.open (hx : StoreLaws e.store) {key : Bytes} {o : Obj} (h : NeatShut e.store key o) :
    ∃ o', decodeObj e.store key o = (.ok, o') ∧ NeatOpen e.store o' := by
  obtain ⟨hn, ov, p, hp, h1, h2, ⟨d, b, hq⟩, h3⟩ := h
  refine ⟨_, decodeObj_kept hx h1 h2 (by rw [hq]) (by rw [hq]) (by rw [hq]) (by rw [hq]) h3, ?_, rfl, ?_, ?_⟩
  · exact hn.same rfl rfl rfl rfl rfl rfl rfl rfl rfl
  · subst hq; exact h1
  · subst hq
    obtain ⟨c, hc, _⟩ := h2
    unfold Obj.sealedKey at hc
    obtain ⟨y, hy, _⟩ := Option.map_eq_some_iff.mp hc
    exact Option.isSome_iff_exists.mpr ⟨y, hy⟩

theorem decodeAll_open (hx : StoreLaws e.store) {key : Bytes} {os : List Obj} (h : ∀ o ∈ os, NeatShut e.store key o) :
    (decodeAll e.store key os).1 = .ok ∧ ∀ o ∈ (decodeAll e.store key os).2, NeatOpen e.store o := by
  induction os with
  | nil => exact ⟨rfl, fun o ho => by cases ho⟩
  | cons a os ih =>
    obtain ⟨i1, i2⟩ := ih fun o ho => h o (List.mem_cons_of_mem _ ho)
    obtain ⟨a', h1, h2⟩ := (h a List.mem_cons_self).open hx
    simp only [decodeAll, h1, if_true]
    refine ⟨i1, fun o ho => ?_⟩
    rcases List.mem_cons.mp ho with rfl | ho
    · exact h2
    · exact i2 o ho

/-- Starting the library again. -/
theorem NeatShut.reload {x : StoreExt} {key : Bytes} {o : Obj} (h : NeatShut x key o) (u : Nat) :
    NeatShut x key (o.reloaded u) := by
  obtain ⟨hn, ov, hs⟩ := h
  exact ⟨hn.same rfl rfl rfl rfl rfl rfl rfl rfl rfl, ov, hs.reload u⟩

theorem reloadAll_shut {x : StoreExt} {key : Bytes} {os : List Obj} (h : ∀ o ∈ os, NeatShut x key o) (u : Nat) :
    ∀ o ∈ reloadAll u os, NeatShut x key o := by
  induction os generalizing u with
  | nil => intro o ho; cases ho
  | cons a os ih =>
    intro o ho
    rcases List.mem_cons.mp ho with rfl | ho
    · exact (h a List.mem_cons_self).reload u
    · exact ih (fun o ho => h o (List.mem_cons_of_mem _ ho)) (u + 1) o ho

/-! ## New objects -/

/-- The fields that templates set. -/
structure Filled (o : Obj) : Prop where
  iv : o.iv.length = 12
  mech : o.keyGenMech < 2 ^ 64
  start : o.startDate.length = 8
  fin : o.endDate.length = 8
  keyId : o.keyId.length < 2 ^ 31
  label : o.label.length < 2 ^ 31
  clear : o.encoded = false

theorem setAttr_filled {t : List Entry} (ht : SecretTmpl t) {o : Obj} (h : Filled o) {en : Entry} (hen : en ∈ t) :
    Filled (setAttr o en).2 := by
  obtain ⟨h1, h2, h3, h4, h5, h6, h7⟩ := h
  unfold setAttr
  dsimp only
  split
  all_goals first
    | exact ⟨h1, h2, h3, h4, h5, h6, h7⟩
    | (split <;> first
        | exact ⟨h1, h2, h3, h4, h5, h6, h7⟩
        | exact ⟨h1, h2, h3, h4, ht.names en hen (by simp [*]), h6, h7⟩
        | exact ⟨h1, h2, h3, h4, h5, ht.names en hen (by simp [*]), h7⟩
        | exact ⟨h1, h2, ht.dates en hen (by simp [*]), h4, h5, h6, h7⟩
        | exact ⟨h1, h2, h3, ht.dates en hen (by simp [*]), h5, h6, h7⟩)

theorem newObject_filled {s : Session} {typ cls : Nat} {t : List Entry} {o : Obj} (ht : SecretTmpl t) (hlt : cls < 2 ^ 64)
    (h : newObject e s typ cls t = (.ok, o)) :
    Filled o ∧ o.cls < 2 ^ 64 ∧ (typ = CKK_AES ∨ typ = CKK_GENERIC_SECRET → o.symm.length ≤ 512) ∧
      o.data = (setKey e.key { newObj 0 typ with cls } (keyVals t)).2.data := by
  unfold newObject at h
  have hok : (setAttributeValue e.key (s.use == .rw) { newObj 0 typ with cls } t).1 = .ok := by rw [h]
  have ho : (setAttributeValue e.key (s.use == .rw) { newObj 0 typ with cls } t).2 = o := by rw [h]
  have hf : Filled (setAttributeValue e.key (s.use == .rw) { newObj 0 typ with cls } t).2 :=
    setAttributeValue_inv (P := Filled) _ _ _ _
      (fun p v hp => by
        obtain ⟨d, z, hk⟩ := setKey_frame e.key p v
        rw [hk]; exact ⟨hp.iv, hp.mech, hp.start, hp.fin, hp.keyId, hp.label, hp.clear⟩)
      (fun p en hen hp => setAttr_filled ht hp hen)
      ⟨rfl, show unavailableInfo < 2 ^ 64 by decide, rfl, rfl, show ([] : Bytes).length < 2 ^ 31 by decide,
        show ([] : Bytes).length < 2 ^ 31 by decide, rfl⟩
  obtain ⟨_, _, _, hw⟩ := setAttributeValue_went hok
  replace hw := congrArg (·.2) hw
  dsimp only at hw
  have hsm := setAttributeValue_small hok (Nat.zero_le _) rfl hlt ht.len
  rw [ho] at hf hw hsm
  exact ⟨hf, hsm.cls, fun _ => hsm.symm, by rw [hw, (setAttrs_data _ t).1]⟩

theorem newObject_clsOf {s : Session} {typ cls : Nat} {t : List Entry} {o : Obj} {rv : RV} (ht : ∀ en ∈ t, en.typ = .cls → leNat en.val = cls)
    (h : newObject e s typ cls t = (rv, o)) : o.cls = cls := by
  unfold newObject at h
  rw [← show (setAttributeValue e.key (s.use == .rw) { newObj 0 typ with cls } t).2 = o by rw [h]]
  refine setAttributeValue_inv (P := fun o => o.cls = cls) _ _ _ _ (fun p v hp => ?_) (fun p en hen hp => ?_) rfl
  · obtain ⟨d, z, hk⟩ := setKey_frame e.key p v
    rw [hk]; exact hp
  · unfold setAttr
    dsimp only
    split
    all_goals first
      | exact hp
      | (split <;> first | exact hp | (rename_i hx _; exact ht en hen hx))

/-- A secret key. -/
theorem newObject_secret {s : Session} {typ cls : Nat} {t : List Entry} {o : Obj} (ht : SecretTmpl t)
    (hty : typ = CKK_AES ∨ typ = CKK_GENERIC_SECRET) (hc : cls ≠ CKO_CERTIFICATE) (hlt : cls < 2 ^ 64)
    (h : newObject e s typ cls t = (.ok, o)) :
    Filled o ∧ (o.typ = CKK_AES ∨ o.typ = CKK_GENERIC_SECRET) ∧ o.cls ≠ CKO_CERTIFICATE ∧ o.cls < 2 ^ 64 ∧
      ∃ k, o.data = .symm k ∧ k.length ≤ 512 := by
  obtain ⟨k1, k2⟩ := newObject_kept hc h
  obtain ⟨hf, hcl, hsm, hw⟩ := newObject_filled ht hlt h
  refine ⟨hf, by rw [k1]; exact hty, k2, hcl, ?_⟩
  have hd : ∃ k, o.data = .symm k := by
    rw [hw]
    have hk : setKey e.key { newObj 0 typ with cls } (keyVals t) = setSecretKey { newObj 0 typ with cls } (keyVals t) := by
      unfold setKey
      rw [if_neg (show ¬ ({ newObj 0 typ with cls } : Obj).cls = CKO_CERTIFICATE from hc),
        if_neg (show ¬ ({ newObj 0 typ with cls } : Obj).typ = CKK_RSA by
          show ¬ typ = CKK_RSA; rcases hty with h | h <;> rw [h] <;> decide),
        if_neg (show ¬ ({ newObj 0 typ with cls } : Obj).typ = CKK_EC by
          show ¬ typ = CKK_EC; rcases hty with h | h <;> rw [h] <;> decide),
        if_neg (show ¬ ({ newObj 0 typ with cls } : Obj).typ = CKK_DH by
          show ¬ typ = CKK_DH; rcases hty with h | h <;> rw [h] <;> decide)]
    rw [hk]
    unfold setSecretKey
    repeat' split
    all_goals exact ⟨_, rfl⟩
  obtain ⟨k, hk⟩ := hd
  refine ⟨k, hk, ?_⟩
  have := hsm hty
  unfold Obj.symm at this
  rw [hk] at this
  exact this

theorem setKey_rsa {typ cls : Nat} (hc : cls ≠ CKO_CERTIFICATE) (ht : typ = CKK_RSA) (v : CKA → Option Bytes) :
    ∃ k, (setKey e.key { newObj 0 typ with cls } v).2.data = .rsa k ∧
      (v .privateExponent = none → v .prime1 = none → v .prime2 = none → v .exponent1 = none → v .exponent2 = none →
        v .coefficient = none → k = { n := k.n, e := k.e }) := by
  unfold setKey
  rw [if_neg (show ¬ ({ newObj 0 typ with cls } : Obj).cls = CKO_CERTIFICATE from hc),
    if_pos (show ({ newObj 0 typ with cls } : Obj).typ = CKK_RSA from ht)]
  unfold setRsaKey
  split
  · rename_i n d p q dP dQ u ex h1 h2 h3 h4 h5 h6 h7 h8
    dsimp only
    have key : v .privateExponent = none → v .prime1 = none → v .prime2 = none → v .exponent1 = none → v .exponent2 = none →
        v .coefficient = none → ({ n, e := ex, d, p, q, dP, dQ, u, isPriv := !(d == 0 && p == 0) } : RsaKey) = { n, e := ex } := by
      intro g1 g2 g3 g4 g5 g6
      rw [g1] at h2; rw [g2] at h3; rw [g3] at h4; rw [g4] at h5; rw [g5] at h6; rw [g6] at h7
      cases h2; cases h3; cases h4; cases h5; cases h6; cases h7
      rfl
    repeat' split
    all_goals first
      | exact ⟨_, rfl, key⟩
      | exact ⟨_, rfl, fun _ _ _ _ _ _ => rfl⟩
  · exact ⟨_, rfl, fun _ _ _ _ _ _ => rfl⟩

theorem setKey_ec {typ cls : Nat} (hc : cls ≠ CKO_CERTIFICATE) (ht : typ = CKK_EC) (v : CKA → Option Bytes) :
    ∃ k, (setKey e.key { newObj 0 typ with cls } v).2.data = .ec k ∧ (v .value = none → v .ecPoint = none → k.k = 0) := by
  unfold setKey
  rw [if_neg (show ¬ ({ newObj 0 typ with cls } : Obj).cls = CKO_CERTIFICATE from hc),
    if_neg (show ¬ ({ newObj 0 typ with cls } : Obj).typ = CKK_RSA by show ¬ typ = CKK_RSA; rw [ht]; decide),
    if_pos (show ({ newObj 0 typ with cls } : Obj).typ = CKK_EC from ht)]
  unfold setEcKey
  dsimp only
  split
  · refine ⟨_, rfl, fun g1 g2 => ?_⟩
    rw [g1, g2]
    unfold ecThen ecStep1
    repeat' split
    all_goals rfl
  · exact ⟨_, rfl, fun _ _ => rfl⟩

/-- A private key. -/
theorem newObject_private {s : Session} {typ : Nat} {t : List Entry} {o : Obj} (ht : PrivateTmpl t) (hty : typ = CKK_RSA ∨ typ = CKK_EC)
    (h : newObject e s typ CKO_PRIVATE_KEY t = (.ok, o)) :
    Filled o ∧ o.typ = typ ∧ o.cls = CKO_PRIVATE_KEY ∧ o.IsKey := by
  have hc : CKO_PRIVATE_KEY ≠ CKO_CERTIFICATE := by decide
  obtain ⟨hf, _, _, hw⟩ := newObject_filled ht.fits (by decide) h
  have h1 := (newObject_kept hc h).1
  have h2 := newObject_clsOf ht.cls h
  refine ⟨hf, h1, h2, by rw [h2]; exact hc, ?_⟩
  rcases hty with rfl | rfl
  · obtain ⟨k, hk, _⟩ := setKey_rsa (e := e) hc rfl (keyVals t)
    exact .inl ⟨h1, .inl h2, k, hw.trans hk, fun hx => by rw [h2] at hx; cases hx⟩
  · obtain ⟨k, hk, _⟩ := setKey_ec (e := e) hc rfl (keyVals t)
    exact .inr (.inl ⟨h1, .inl h2, k, hw.trans hk, fun hx => by rw [h2] at hx; cases hx⟩)

theorem keyVals_absent {t : List Entry} {a : CKA} (h : ∀ en ∈ t, en.typ ≠ a) : keyVals t a = none := by
  unfold keyVals keyAttr
  rw [List.find?_eq_none.mpr fun en hen => by simpa using h en hen]
  rfl

/-- A public key. -/
theorem newObject_public {s : Session} {typ : Nat} {t : List Entry} {o : Obj} (ht : PublicTmpl t) (hty : typ = CKK_RSA ∨ typ = CKK_EC)
    (h : newObject e s typ CKO_PUBLIC_KEY t = (.ok, o)) :
    Filled o ∧ o.typ = typ ∧ o.cls = CKO_PUBLIC_KEY ∧ (typ = CKK_RSA → ∃ k, o.data = .rsa k ∧ k = { n := k.n, e := k.e }) ∧
      (typ = CKK_EC → ∃ k, o.data = .ec k ∧ k.k = 0) := by
  have hc : CKO_PUBLIC_KEY ≠ CKO_CERTIFICATE := by decide
  obtain ⟨hf, _, _, hw⟩ := newObject_filled ht.fits (by decide) h
  have h1 := (newObject_kept hc h).1
  have h2 := newObject_clsOf ht.cls h
  refine ⟨hf, h1, h2, ?_, ?_⟩
  · rintro rfl
    obtain ⟨k, hk, hp⟩ := setKey_rsa (e := e) hc rfl (keyVals t)
    exact ⟨k, hw.trans hk, hp (keyVals_absent fun en hen => (ht.plain en hen).1) (keyVals_absent fun en hen => (ht.plain en hen).2.1)
      (keyVals_absent fun en hen => (ht.plain en hen).2.2.1) (keyVals_absent fun en hen => (ht.plain en hen).2.2.2.1)
      (keyVals_absent fun en hen => (ht.plain en hen).2.2.2.2.1) (keyVals_absent fun en hen => (ht.plain en hen).2.2.2.2.2.1)⟩
  · rintro rfl
    obtain ⟨k, hk, hp⟩ := setKey_ec (e := e) hc rfl (keyVals t)
    exact ⟨k, hw.trans hk, hp (keyVals_absent fun en hen => (ht.plain en hen).2.2.2.2.2.2.1) (keyVals_absent fun en hen => (ht.plain en hen).2.2.2.2.2.2.2)⟩

/-- What could be serialised. -/
theorem encode_bytes {x : StoreExt} {o : Obj} (h : o.IsKey) {key : Bytes} (hok : (encodeObj x key false o).1 = true) : (o.keyBytes x).isSome := by
  unfold encodeObj at hok
  rw [if_neg h.1] at hok
  dsimp only at hok
  rw [if_neg (by simp)] at hok
  rcases h.2 with ⟨ht, ha, k, hd, _⟩ | ⟨ht, ha, k, hd, _⟩ | ⟨_, _, k, hd, _⟩ | ⟨_, k, hd, _⟩
  · have hr : o.rsa = k := by simp [Obj.rsa, hd]
    rw [encodeKey, if_pos ht, encodeRsa, hr] at hok
    unfold Obj.keyBytes
    rw [hd]
    rcases ha with ha | ha
    · simpa [ha] using hok
    · have hn : ¬ CKO_PUBLIC_KEY = CKO_PRIVATE_KEY := by decide
      simpa [ha, hn] using hok
  · have hr : o.ec = k := by simp [Obj.ec, hd]
    rw [encodeKey, if_neg (show ¬ o.typ = CKK_RSA by rw [ht]; decide), if_pos ht, encodeEcc, hr] at hok
    unfold Obj.keyBytes
    rw [hd]
    rcases ha with ha | ha
    · simpa [ha] using hok
    · have hn : ¬ CKO_PUBLIC_KEY = CKO_PRIVATE_KEY := by decide
      simpa [ha, hn] using hok
  · unfold Obj.keyBytes; rw [hd]; rfl
  · unfold Obj.keyBytes; rw [hd]; rfl

/-- Putting it on the token. -/
theorem encode_open (hl : SealLen e) {o : Obj} (hf : Filled o)
    (hty : (o.typ = CKK_AES ∨ o.typ = CKK_GENERIC_SECRET) ∨ o.typ = CKK_RSA ∨ o.typ = CKK_EC) (hlt : o.cls < 2 ^ 64) (hd : o.IsKey) {key : Bytes}
    (hok : (encodeObj e.store key false o).1 = true) (g : Nat) :
    NeatOpen e.store { (encodeObj e.store key false o).2 with handle := g } := by
  have hb := encode_bytes hd hok
  obtain ⟨d, h1, h2⟩ := sealedKey_lt hl hd hb key
  have he : encodeObj e.store key false o = (true, { o with keyData := some d }) := by
    unfold encodeObj
    rw [if_neg hd.1]
    dsimp only
    rw [if_neg (by simp)]
    exact encodeKey_isKey hd h1
  rw [he]
  exact ⟨⟨hty, hd.1, hlt, hf.iv, hf.mech, hf.start, hf.fin, hf.keyId, hf.label, d, rfl, h2⟩, hf.clear, hd, hb⟩

/-! ## The token's list -/

/-- All objects have their kept form. -/
def AllKept (os : List Obj) : Prop := ∀ o ∈ os, ∃ c, o.keyData = some c

/-- Storing changes nothing then. -/
theorem storeObjs_kept {x : StoreExt} {k : Bytes} (r : Nat) {os : List Obj} (h : AllKept os) :
    (storeObjs x k r os).2.1 = os := by
  induction os generalizing r with
  | nil => rfl
  | cons a os ih =>
    obtain ⟨c, hc⟩ := h a List.mem_cons_self
    have hos : AllKept os := fun o ho => h o (List.mem_cons_of_mem _ ho)
    simp only [storeObjs]
    split
    · simp only [storeObj_unchanged x k r hc, ih _ hos]
    · simp only [storeObj_unchanged x k r hc]

/-- Storing the library, with all objects in their kept form. -/
theorem store_kept {l : Lib} (h : AllKept l.token.objs) : (Lib.store e l).1.token.objs = l.token.objs :=
  storeObjs_kept _ h

theorem tokenByte_session {t : List Entry} (h : ¬ ForToken t) {on : Nat} (hon : tokenByte t 0 = .ok on) : on = 0 := by
  unfold tokenByte at hon
  split at hon
  · cases hon; rfl
  rename_i en hen
  split at hon; · cases hon
  split at hon; · cases hon
  cases hon
  have h0 : en.val.headD 0 = 0 := Decidable.byContradiction fun hx => h ⟨en, hen, hx⟩
  rw [h0]; rfl

theorem tokenByte_token {t : List Entry} {on : Nat} (hon : tokenByte t 0 = .ok on) (hne : on ≠ 0) : ForToken t :=
  Decidable.byContradiction fun h => hne (tokenByte_session h hon)

/-- A session object is added. -/
theorem sessAdd_session (l : Lib) (s : Session) (o : Obj) : (sessAddObject e l s 0 o).1.token = l.token := by
  unfold sessAddObject
  dsimp only
  rw [if_neg (by simp)]
  split <;> rfl

theorem addObject_session {l : Lib} {s : Session} {t : List Entry} (h : ¬ ForToken t) (o : Obj) :
    (addObject e l s t o).1.token = l.token := by
  unfold addObject
  split
  · rfl
  · rename_i on hon
    rw [tokenByte_session h hon]
    have := sessAdd_session (e := e) l s o
    split <;> rename_i heq <;> (rw [heq] at this; exact this)

/-- An object of the token is added. -/
theorem addObject_token {l : Lib} {s : Session} {t : List Entry} {o : Obj} {P : Obj → Prop}
    (hk : ∀ o, P o → ∃ c, o.keyData = some c) (hp : ∀ o ∈ l.token.objs, P o)
    (hnew : ForToken t → ∀ b u h, (encodeObj e.store l.token.key false { o with onToken := b, uid := u }).1 = true → P { (encodeObj e.store l.token.key false { o with onToken := b, uid := u }).2 with handle := h }) :
    ∀ p ∈ (addObject e l s t o).1.token.objs, P p := by
  unfold addObject
  split
  · exact hp
  rename_i on hon
  by_cases h0 : on = 0
  · subst h0
    have := sessAdd_session (e := e) l s o
    split <;> rename_i heq <;> (rw [heq] at this; dsimp only; dsimp only at this; rw [this]; exact hp)
  · have hf := tokenByte_token hon h0
    split <;> rename_i heq
    · rw [show _ = l from sessAdd_none heq]; exact hp
    · unfold sessAddObject at heq
      dsimp only at heq
      rw [if_pos h0] at heq
      split at heq
      · cases heq
      split at heq
      · rename_i henc
        have h1 := congrArg (fun r : Lib × Option Nat => r.1.token.objs) heq
        dsimp only at h1
        rw [← h1]
        have hall : ∀ p ∈ ({ (encodeObj e.store l.token.key false { o with onToken := decide (on % 2 = 1), uid := l.uid }).2 with
            handle := nextHandle l.token.objs on } : Obj) :: l.token.objs, P p := by
          intro p hm
          rcases List.mem_cons.mp hm with rfl | hm
          · exact hnew hf _ _ _ henc
          · exact hp p hm
        rw [store_kept (fun p hm => hk p (hall p hm))]
        exact hall
      · cases heq

/-! ## The calls that make them -/

theorem templClass_says {t : List Entry} {c cls : Nat} (h : templClass t = .ok cls) (hs : Says .cls c t) : cls = c := by
  obtain ⟨en, hen, hv⟩ := hs
  unfold templClass at h
  rw [hen] at h
  dsimp only at h
  repeat' split at h
  all_goals first | (cases h; exact hv) | cases h

theorem templUlong_says {t : List Entry} {a : CKA} {c n : Nat} (h : templUlong t a = .ok n) (hs : Says a c t) : n = c := by
  obtain ⟨en, hen, hv⟩ := hs
  unfold templUlong at h
  rw [hen] at h
  dsimp only at h
  repeat' split at h
  all_goals first | (cases h; exact hv) | cases h

theorem templClass_fits {t : List Entry} {cls : Nat} (hfit : SecretTmpl t) (hcls : templClass t = .ok cls) :
    cls ≠ CKO_CERTIFICATE ∧ cls < 2 ^ 64 := by
  unfold templClass at hcls
  split at hcls
  · cases hcls; decide
  rename_i en' hen'
  split at hcls; · cases hcls
  split at hcls; · cases hcls
  rename_i hlen
  cases hcls
  refine ⟨fun hx => hfit.cls ⟨en', List.mem_reverse.mp (List.mem_of_find?_eq_some hen'), ?_, hx⟩, leNat_lt64 ?_⟩
  · simpa using List.find?_some hen'
  · have := val_len en'; omega

theorem create_secret_full {s : Session} {t : List Entry} {o : Obj} (hfit : SecretTmpl t) (hs : SaysSecret t) (heq : createObject e s t = (.ok, o)) :
    Filled o ∧ (o.typ = CKK_AES ∨ o.typ = CKK_GENERIC_SECRET) ∧ o.cls ≠ CKO_CERTIFICATE ∧ o.cls < 2 ^ 64 ∧
      ∃ k, o.data = .symm k ∧ k.length ≤ 512 := by
  unfold createObject at heq
  split at heq
  · rename_i hx; exact absurd (congrArg Prod.fst heq) (templClass_error hx)
  rename_i cls hcls
  have hcl := templClass_fits hfit hcls
  rw [if_neg hcl.1] at heq
  split at heq
  · rename_i hx; exact absurd (congrArg Prod.fst heq) (templUlong_error hx)
  rename_i typ htyp
  split at heq
  · obtain ⟨en, hen, hty⟩ := hs
    have hty : typ = CKK_AES ∨ typ = CKK_GENERIC_SECRET := by
      rcases hty with h | h
      · exact .inl (templUlong_says htyp ⟨en, hen, h⟩)
      · exact .inr (templUlong_says htyp ⟨en, hen, h⟩)
    exact newObject_secret hfit hty hcl.1 hcl.2 heq
  · cases heq

/-- A new secret key. -/
theorem create_secret {s : Session} {t : List Entry} {o : Obj} (hfit : SecretTmpl t) (hs : SaysSecret t) (heq : createObject e s t = (.ok, o)) :
    Filled o ∧ (o.typ = CKK_AES ∨ o.typ = CKK_GENERIC_SECRET) ∧ o.cls < 2 ^ 64 ∧ o.cls ≠ CKO_CERTIFICATE := by
  obtain ⟨f1, f2, f3, f4, _⟩ := create_secret_full hfit hs heq
  exact ⟨f1, f2, f4, f3⟩

/-- A new object of a kind that is allowed. -/
theorem create_key {s : Session} {t : List Entry} {o : Obj} (ht : KeepTmpl t) (heq : createObject e s t = (.ok, o)) :
    Filled o ∧ ((o.typ = CKK_AES ∨ o.typ = CKK_GENERIC_SECRET) ∨ o.typ = CKK_RSA ∨ o.typ = CKK_EC) ∧ o.cls < 2 ^ 64 ∧ o.IsKey := by
  rcases ht with ⟨hfit, hs⟩ | ht
  · obtain ⟨f1, f2, f3, f4, f5⟩ := create_secret_full hfit hs heq
    exact ⟨f1, .inl f2, f4, f3, .inr (.inr (.inr ⟨f2, f5⟩))⟩
  have hfit : SecretTmpl t := by
    rcases ht with ⟨h, _⟩ | ⟨h, _⟩
    · exact h.fits
    · exact h.fits
  unfold createObject at heq
  split at heq
  · rename_i hx; exact absurd (congrArg Prod.fst heq) (templClass_error hx)
  rename_i cls hcls
  have hcl := templClass_fits hfit hcls
  rw [if_neg hcl.1] at heq
  split at heq
  · rename_i hx; exact absurd (congrArg Prod.fst heq) (templUlong_error hx)
  rename_i typ htyp
  split at heq
  · rcases ht with ⟨ht, hc, hk⟩ | ⟨ht, hc, hk⟩
    · obtain rfl := templClass_says hcls hc
      have hty : typ = CKK_RSA ∨ typ = CKK_EC := hk.imp (templUlong_says htyp) (templUlong_says htyp)
      obtain ⟨f1, f2, f3, f4⟩ := newObject_private ht hty heq
      exact ⟨f1, .inr (by rw [f2]; exact hty), by rw [f3]; decide, f4⟩
    · obtain rfl := templClass_says hcls hc
      obtain rfl := templUlong_says htyp hk
      obtain ⟨f1, f2, f3, f4, _⟩ := newObject_public ht (.inl rfl) heq
      obtain ⟨k, hd, hp⟩ := f4 rfl
      exact ⟨f1, .inr (.inl f2), by rw [f3]; decide, by rw [f3]; decide, .inl ⟨f2, .inr f3, k, hd, fun _ => hp⟩⟩
  · cases heq

theorem create_open (hl : SealLen e) {s : Session} {t : List Entry} {o : Obj} (ht : KeepTmpl t) (heq : createObject e s t = (.ok, o))
    {key : Bytes} (b : Bool) (u g : Nat) (hok : (encodeObj e.store key false { o with onToken := b, uid := u }).1 = true) :
    NeatOpen e.store { (encodeObj e.store key false { o with onToken := b, uid := u }).2 with handle := g } := by
  obtain ⟨f1, f2, f3, f4⟩ := create_key ht heq
  exact encode_open hl (o := { o with onToken := b, uid := u }) ⟨f1.iv, f1.mech, f1.start, f1.fin, f1.keyId, f1.label, f1.clear⟩ f2 f3 f4 hok g

/-- A new object whose key is filled in later. -/
theorem filled_open (hl : SealLen e) {o : Obj} (f1 : Filled o) (d : KeyData) (lc : Bool) (m : Nat)
    (hty : (o.typ = CKK_AES ∨ o.typ = CKK_GENERIC_SECRET) ∨ o.typ = CKK_RSA ∨ o.typ = CKK_EC) (hm : m < 2 ^ 64) (hc : o.cls < 2 ^ 64)
    (hk : ({ o with data := d, local' := lc, keyGenMech := m } : Obj).IsKey) {key : Bytes} (b : Bool) (u g : Nat)
    (hok : (encodeObj e.store key false { o with data := d, local' := lc, keyGenMech := m, onToken := b, uid := u }).1 = true) :
    NeatOpen e.store { (encodeObj e.store key false { o with data := d, local' := lc, keyGenMech := m, onToken := b, uid := u }).2 with handle := g } :=
  encode_open hl (o := { o with data := d, local' := lc, keyGenMech := m, onToken := b, uid := u })
    ⟨f1.iv, hm, f1.start, f1.fin, f1.keyId, f1.label, f1.clear⟩ hty hc hk hok g

/-- A pair is added. -/
theorem pair_token {l : Lib} {s : Session} {tp tq : List Entry} {pub priv : Obj} {P : Obj → Prop}
    (hk : ∀ o, P o → ∃ c, o.keyData = some c) (hp : ∀ o ∈ l.token.objs, P o)
    (h1 : ForToken tp → ∀ b u h, (encodeObj e.store l.token.key false { pub with onToken := b, uid := u }).1 = true →
      P { (encodeObj e.store l.token.key false { pub with onToken := b, uid := u }).2 with handle := h })
    (h2 : ForToken tq → ∀ b u h, (encodeObj e.store l.token.key false { priv with onToken := b, uid := u }).1 = true →
      P { (encodeObj e.store l.token.key false { priv with onToken := b, uid := u }).2 with handle := h }) :
    ∀ p ∈ (addPair e l s tp tq pub priv).1.token.objs, P p := by
  have g1 := addObject_token (e := e) (s := s) hk hp h1
  have g0 := (tframe_addObject e l s tp pub).key
  unfold addPair
  dsimp only
  split
  · exact g1
  split
  · exact g1
  rename_i s1 _
  have g2 := addObject_token (e := e) (l := (addObject e l s tp pub).1) (s := s1) (t := tq) (o := priv) hk g1 (by rw [g0]; exact h2)
  split
  · exact g2
  · exact g2

/-- A generated pair. -/
theorem pair_open (hl : SealLen e) {m : Mech} {r typ : Nat} {gen : Obj → Obj → IRet × Obj × Obj} {s : Session} {tp tq : List Entry}
    {pub priv pub' priv' : Obj} (hm : m = .rsaKeyPairGen ∨ m = .ecKeyPairGen) (hgen : pairGen e r m = some (typ, gen))
    (heq : gen pub priv = (.ok, pub', priv')) {key : Bytes} (b : Bool) (u g : Nat) :
    (PublicTmpl tp → newObject e s typ CKO_PUBLIC_KEY tp = (.ok, pub) →
      (encodeObj e.store key false { pub' with onToken := b, uid := u }).1 = true →
      NeatOpen e.store { (encodeObj e.store key false { pub' with onToken := b, uid := u }).2 with handle := g }) ∧
    (PrivateTmpl tq → newObject e s typ CKO_PRIVATE_KEY tq = (.ok, priv) →
      (encodeObj e.store key false { priv' with onToken := b, uid := u }).1 = true →
      NeatOpen e.store { (encodeObj e.store key false { priv' with onToken := b, uid := u }).2 with handle := g }) := by
  have hcp : CKO_PUBLIC_KEY ≠ CKO_CERTIFICATE := by decide
  have hcq : CKO_PRIVATE_KEY ≠ CKO_CERTIFICATE := by decide
  rcases hm with rfl | rfl
  · cases hgen
    have hform : (∃ n ex, pub' = { pub with data := .rsa { pub.rsa with n, e := ex }, local' := true, keyGenMech := 0 }) ∧
        ∃ k, priv' = { priv with data := .rsa k, local' := true, keyGenMech := 0 } := by
      unfold rsaGenerate at heq
      dsimp only at heq
      repeat' split at heq
      all_goals first
        | (cases heq; exact ⟨⟨_, _, rfl⟩, _, rfl⟩)
        | cases heq
    obtain ⟨⟨n, ex, rfl⟩, k, rfl⟩ := hform
    constructor
    · intro ht hnew hok
      obtain ⟨f1, f2, f3, f4, _⟩ := newObject_public ht (.inl rfl) hnew
      obtain ⟨k, hd, hp⟩ := f4 rfl
      have hr : pub.rsa = k := by unfold Obj.rsa; rw [hd]
      refine filled_open (o := pub) hl f1 _ true 0 (.inr (.inl f2)) (by decide) (by rw [f3]; decide)
        ⟨by show pub.cls ≠ _; rw [f3]; exact hcp, .inl ⟨f2, .inr f3, _, rfl, fun _ => ?_⟩⟩ b u g hok
      rw [hr, hp]
    · intro ht hnew hok
      obtain ⟨f1, f2, f3, f4⟩ := newObject_private ht (.inl rfl) hnew
      exact filled_open (o := priv) hl f1 _ true 0 (.inr (.inl f2)) (by decide) (by rw [f3]; decide) ⟨by show priv.cls ≠ _; rw [f3]; exact hcq,
          .inl ⟨f2, .inl f3, _, rfl, fun hx => by rw [show _ = CKO_PRIVATE_KEY from f3] at hx; cases hx⟩⟩ b u g hok
  · cases hgen
    have hform : (∃ x y, pub' = { pub with data := .ec { pub.ec with x, y, typ := .pub }, local' := true, keyGenMech := Mech.num .ecKeyPairGen }) ∧
        ∃ k, priv' = { priv with data := .ec k, local' := true, keyGenMech := Mech.num .ecKeyPairGen } := by
      unfold ecGenerate at heq
      repeat' split at heq
      all_goals first
        | (cases heq; exact ⟨⟨_, _, rfl⟩, _, rfl⟩)
        | cases heq
    obtain ⟨⟨x, y, rfl⟩, k, rfl⟩ := hform
    constructor
    · intro ht hnew hok
      obtain ⟨f1, f2, f3, _, f4⟩ := newObject_public ht (.inr rfl) hnew
      obtain ⟨k, hd, hp⟩ := f4 rfl
      have hr : pub.ec = k := by unfold Obj.ec; rw [hd]
      refine filled_open (o := pub) hl f1 _ true (Mech.num .ecKeyPairGen) (.inr (.inr f2)) (by decide) (by rw [f3]; decide)
        ⟨by show pub.cls ≠ _; rw [f3]; exact hcp, .inr (.inl ⟨f2, .inr f3, _, rfl, fun _ => ?_⟩)⟩ b u g hok
      rw [hr]
      cases k
      cases hp
      rfl
    · intro ht hnew hok
      obtain ⟨f1, f2, f3, f4⟩ := newObject_private ht (.inr rfl) hnew
      exact filled_open (o := priv) hl f1 _ true (Mech.num .ecKeyPairGen) (.inr (.inr f2)) (by decide) (by rw [f3]; decide) ⟨by show priv.cls ≠ _; rw [f3]; exact hcq,
          .inr (.inl ⟨f2, .inl f3, _, rfl, fun hx => by rw [show _ = CKO_PRIVATE_KEY from f3] at hx; cases hx⟩)⟩ b u g hok

/-- A private key is unwrapped. -/
theorem unwrap_token (hl : SealLen e) {l : Lib} {s : Session} {t : List Entry} {P : Obj → Prop} (hk : ∀ o, P o → ∃ c, o.keyData = some c)
    (hp : ∀ o ∈ l.token.objs, P o) (hnew : ForToken t → PrivateTmpl t ∧ ∀ o, NeatOpen e.store o → P o) (d : Bytes) :
    ∀ o ∈ (addRsaPrivate e l s t d).1.token.objs, P o := by
  unfold addRsaPrivate
  split
  · rename_i o heq
    split
    · exact hp
    · rename_i k _
      refine addObject_token hk hp fun hf b u g hok => ?_
      obtain ⟨ht, hn⟩ := hnew hf
      obtain ⟨f1, f2, f3, f4⟩ := newObject_private ht (.inl rfl) heq
      exact hn _ (filled_open hl f1 (.rsa k) o.local' o.keyGenMech (.inr (.inl f2)) f1.mech
        (by rw [f3]; decide) ⟨by show o.cls ≠ _; rw [f3]; decide,
          .inl ⟨f2, .inl f3, _, rfl, fun hx => by rw [show _ = CKO_PRIVATE_KEY from f3] at hx; cases hx⟩⟩ b u g hok)
  · exact hp

/-- A secret is derived. -/
theorem derive_token (hl : SealLen e) {l : Lib} {s : Session} {t : List Entry} {o o' : Obj} {sec : Bytes} {P : Obj → Prop}
    (hk : ∀ o, P o → ∃ c, o.keyData = some c) (hp : ∀ o ∈ l.token.objs, P o) (heq : createObject e s t = (.ok, o))
    (hd : (deriveTail e.key o sec).obj = some o')
    (hnew : ForToken t → (SecretTmpl t ∧ SaysSecret t) ∧ ∀ o, NeatOpen e.store o → P o) :
    ∀ o ∈ (addObject e l s t o').1.token.objs, P o := by
  refine addObject_token hk hp fun hf b u g hok => ?_
  obtain ⟨ht, hn⟩ := hnew hf
  obtain ⟨f1, f2, f3, f4⟩ := create_secret ht.1 ht.2 heq
  have hform : ∃ v, v.length ≤ 512 ∧ o' = { o with data := .symm v } := by
    unfold deriveTail at hd
    split at hd; · cases hd
    dsimp only at hd
    split at hd; · cases hd
    split at hd
    · rename_i hs
      cases hd
      unfold setSecretKey secretLen at hs
      simp only [if_true, reduceCtorEq, if_false, Option.getD_some] at hs
      split at hs
      · cases hs
      · rename_i hn
        simp only [maxSymKey] at hn
        refine ⟨_, ?_, (congrArg Prod.snd hs).symm⟩
        rw [List.length_take]
        omega
    · cases hd
    · cases hd
  obtain ⟨v, hv, rfl⟩ := hform
  exact hn _ (filled_open hl f1 (.symm v) o.local' o.keyGenMech (.inl f2) f1.mech f3
    ⟨f4, .inr (.inr (.inr ⟨f2, v, rfl, hv⟩))⟩ b u g hok)

/-- The calls on a session that are not about login or PINs, obeying the rules: every object on the
token afterwards was there before or is a new one, made while the user is logged in. -/
theorem objs_sessCall (hl : SealLen e) (hr : RandLen e) {l : Lib} {s : Session} {c : SessCall} (h : Nat) (hc : c.isAccount = false)
    (ho : Orderly e l (.sess h c)) {P : Obj → Prop} (hk : ∀ o, P o → ∃ c, o.keyData = some c)
    (hnew : l.token.login = .user → ∀ o, NeatOpen e.store o → P o) (hp : ∀ o ∈ l.token.objs, P o) :
    ∀ o ∈ (sessCall e l s c).1.token.objs, P o := by
  have same : ∀ {l' : Lib}, l'.token = l.token → ∀ o ∈ l'.token.objs, P o := fun h => by rw [h]; exact hp
  cases c with
  | close => cases hc
  | login u p n => cases hc
  | logout => cases hc
  | initPin p => cases hc
  | setPin o n => cases hc
  | info p => simp only [Verif.sessCall]; split <;> exact hp
  | create t p =>
    simp only [Verif.sessCall, cCreate]
    split; · exact hp
    rename_i t
    split; · exact hp
    split; · exact hp
    split
    · rename_i o heq
      refine addObject_token hk hp fun hf b u g hok => ?_
      obtain ⟨hu, ht⟩ := ho hf
      exact hnew hu _ (create_open hl ht heq b u g hok)
    · exact hp
  | copy o t p =>
    simp only [Verif.sessCall, cCopy]
    split; · exact hp
    rename_i t
    have hf : ¬ ForToken t := ho t (by simp [SessCall.creates])
    split; · exact hp
    split; · exact hp
    split; · exact hp
    split; · exact hp
    rename_i on hon
    rw [tokenByte_session hf hon]
    split; · exact hp
    split; · exact hp
    split <;> rename_i heq <;> (refine same ?_; have := (congrArg (fun r : Lib × Option Nat => r.1.token) heq).symm; dsimp only at this; rw [this]; exact sessAdd_session ..)
  | destroy o =>
    simp only [Verif.sessCall, cDestroy, removeToken]
    split; · exact hp
    split; · exact hp
    rename_i o _
    split
    · split
      · dsimp only
        have hall : ∀ q ∈ l.token.objs.filter (fun p => p.uid != o.uid), P q := fun q hq => hp q (List.mem_filter.mp hq).1
        rw [store_kept (fun q hq => hk q (hall q hq))]
        exact hall
      · exact hp
    · exact same rfl
  | size o p =>
    simp only [Verif.sessCall]
    repeat' split
    all_goals exact hp
  | getAttr o t =>
    simp only [Verif.sessCall, cGetAttr]
    repeat' split
    all_goals exact hp
  | setAttr i t =>
    have ho : handleOnToken i = false := ho
    simp only [Verif.sessCall, cSetAttr, putObj, ho]
    repeat' split
    all_goals first | exact hp | (exfalso; contradiction)
  | findInit t =>
    simp only [Verif.sessCall, cFindInit]
    repeat' split
    all_goals exact same rfl
  | findNext p n =>
    simp only [Verif.sessCall, cFindNext]
    repeat' split
    all_goals exact same rfl
  | findFinal => exact same rfl
  | cryptInit k m key =>
    simp only [Verif.sessCall, cCryptInit]
    repeat' split
    all_goals exact same rfl
  | crypt d =>
    simp only [Verif.sessCall, cCrypt]
    repeat' split
    all_goals exact same rfl
  | genKey m t p =>
    simp only [Verif.sessCall, cGenKey]
    split
    · rename_i m mp t
      split; · exact hp
      split; · exact hp
      split; · exact hp
      split
      · rename_i o heq
        refine addObject_token hk hp fun hf b u g hok => ?_
        obtain ⟨hu, ht⟩ := ho hf
        obtain ⟨f1, f2, f3, f4, k, f5, f6⟩ := newObject_secret ht (.inl rfl) (by decide) (by decide) heq
        have hsl : o.symm.length ≤ 512 := by unfold Obj.symm; rw [f5]; exact f6
        exact hnew hu _ (encode_open hl (o := { o with data := .symm (e.store.rand l.rng o.symm.length), onToken := b, uid := u })
          ⟨f1.iv, f1.mech, f1.start, f1.fin, f1.keyId, f1.label, f1.clear⟩ (.inl f2) f4
          ⟨f3, .inr (.inr (.inr ⟨f2, _, rfl, by rw [hr]; exact hsl⟩))⟩ hok g)
      · exact hp
    · exact hp
  | genPair m a b p =>
    simp only [Verif.sessCall, cGenPair]
    split
    · rename_i m mp tp tq
      split; · exact hp
      split; · exact hp
      rename_i typ gen hgen
      split; · exact hp
      split
      · rename_i pub hpub
        split
        · rename_i priv hpriv
          split
          · rename_i pub' priv' heq
            refine pair_token hk hp (fun hf b u g hok => ?_) (fun hf b u g hok => ?_)
            · obtain ⟨⟨hu, hm⟩, h1⟩ := And.intro (ho.1 (.inl hf)) (ho.2.1 hf)
              exact hnew hu _ ((pair_open (tq := tq) hl hm hgen heq b u g).1 h1 hpub hok)
            · obtain ⟨⟨hu, hm⟩, h1⟩ := And.intro (ho.1 (.inr hf)) (ho.2.2 hf)
              exact hnew hu _ ((pair_open (tp := tp) hl hm hgen heq b u g).2 h1 hpriv hok)
          · exact hp
          · exact hp
        · exact hp
      · exact hp
    · exact hp
  | wrap m a b o =>
    simp only [Verif.sessCall, cWrap]
    repeat' split
    all_goals exact same rfl
  | unwrap m w d t p =>
    simp only [Verif.sessCall, cUnwrap]
    split; · exact hp
    split
    · rename_i m mp d t
      have hrsa : ∀ (l' : Lib) (d : Bytes), l'.token = l.token → ∀ o ∈ (addRsaPrivate e l' s t d).1.token.objs, P o :=
        fun l' d h' => unwrap_token hl hk (by rw [h']; exact hp) (fun hf => ⟨(ho hf).2, hnew (ho hf).1⟩) d
      repeat' split
      all_goals first | exact hp | exact same rfl | exact hrsa _ _ rfl
    · exact hp
  | derive m b t p =>
    simp only [Verif.sessCall, cDerive]
    split
    · rename_i m t
      split; · exact hp
      split; · exact hp
      split; · exact hp
      split
      · rename_i heq
        split
        · exact hp
        · rename_i hd
          exact derive_token hl hk hp heq hd fun hf => ⟨(ho hf).2, hnew (ho hf).1⟩
      · exact hp
    · exact hp
  | random p n =>
    simp only [Verif.sessCall, cRandom]
    repeat' split
    all_goals exact same rfl

/-! ## The token -/

/-- The token of a library where the user is not logged in. -/
def Away (e : Env) (t : Token) : Prop :=
  t.objs = [] ∨ ∃ q, pinLenOk q = true ∧ Matches e t.user q ∧ ∀ o ∈ t.objs, NeatShut e.store (e.store.hash q t.seed) o

/-- Wherever the library is in its life, the token holds keys only, all of them kept. -/
def InOrder (e : Env) (l : Lib) : Prop :=
  if 0 < l.count then (if l.token.login = .user then ∀ o ∈ l.token.objs, NeatOpen e.store o else Away e l.token)
  else ∀ u, Away e (loadToken e.store l.disk u)

theorem InOrder.user {l : Lib} (h1 : 0 < l.count) (h2 : l.token.login = .user) :
    InOrder e l ↔ ∀ o ∈ l.token.objs, NeatOpen e.store o := by
  unfold InOrder; rw [if_pos h1, if_pos h2]

theorem InOrder.away {l : Lib} (h1 : 0 < l.count) (h2 : l.token.login ≠ .user) : InOrder e l ↔ Away e l.token := by
  unfold InOrder; rw [if_pos h1, if_neg h2]

theorem InOrder.off {l : Lib} (h1 : ¬ 0 < l.count) : InOrder e l ↔ ∀ u, Away e (loadToken e.store l.disk u) := by
  unfold InOrder; rw [if_neg h1]

/-- Every object is neat. -/
theorem InOrder.neat {l : Lib} (h : InOrder e l) (hc : 0 < l.count) : ∀ o ∈ l.token.objs, Neat o := by
  by_cases hu : l.token.login = .user
  · exact fun o ho => ((InOrder.user hc hu).mp h o ho).1
  · rcases (InOrder.away hc hu).mp h with h | ⟨_, _, _, h⟩
    · rw [h]; intro o ho; cases ho
    · exact fun o ho => (h o ho).1

theorem InOrder.encodable {l : Lib} (h : InOrder e l) (hc : 0 < l.count) (hu : l.token.login = .user) : AllEncodable e l :=
  fun o ho => .inr ⟨((InOrder.user hc hu).mp h o ho).isKey, ((InOrder.user hc hu).mp h o ho).bytes⟩

theorem InOrder.writable {l : Lib} (h : InOrder e l) (hc : 0 < l.count) (hu : l.token.login ≠ .user)
    (hrec : l.token.toRec.Fits) (hh : ∀ o ∈ l.token.objs, o.handle < 2 ^ 64) : Writable e l :=
  ⟨hrec, fun o ho => (h.neat hc o ho).storable (hh o ho), fun hx => absurd hx hu⟩

/-- The account and the seed stay, and so do the objects. -/
theorem InOrder.frame {l l' : Lib} (h : InOrder e l) (hc : 0 < l.count) (hc' : l'.count = l.count)
    (h1 : l'.token.login = l.token.login) (h2 : SamePin l.token.user l'.token.user) (h3 : l'.token.seed = l.token.seed)
    (h4 : ∀ P : Obj → Prop, (∀ o, P o → ∃ c, o.keyData = some c) → (l.token.login = .user → ∀ o, NeatOpen e.store o → P o) →
      (∀ o ∈ l.token.objs, P o) → ∀ o ∈ l'.token.objs, P o) : InOrder e l' := by
  have hkept : ∀ o : Obj, Neat o → ∃ c, o.keyData = some c := fun o ho => by
    obtain ⟨d, hd, _⟩ := ho.kept; exact ⟨d, hd⟩
  by_cases hu : l.token.login = .user
  · exact (InOrder.user (by rw [hc']; exact hc) (h1.trans hu)).mpr
      (h4 (NeatOpen e.store) (fun o ho => hkept o ho.1) (fun _ o ho => ho) ((InOrder.user hc hu).mp h))
  · refine (InOrder.away (by rw [hc']; exact hc) (by rw [h1]; exact hu)).mpr ?_
    rcases (InOrder.away hc hu).mp h with h | ⟨q, g1, g2, g3⟩
    · left
      have := h4 (fun _ => False) (fun o ho => ho.elim) (fun hx => absurd hx hu) (fun o ho => by rw [h] at ho; cases ho)
      exact List.eq_nil_iff_forall_not_mem.mpr this
    · right
      refine ⟨q, g1, (matches_same h2 q).mpr g2, ?_⟩
      rw [h3]
      exact h4 _ (fun o ho => hkept o ho.1) (fun hx => absurd hx hu) g3

/-- Logging out. -/
theorem InOrder.logout (hl : SealLen e) {l : Lib} (h : InOrder e l) (hK : KInv e l) (hc : 0 < l.count) : InOrder e (logout e l) := by
  refine (InOrder.away (l := Verif.logout e l) hc (by rw [show (Verif.logout e l).token.login = .pub from rfl]; decide)).mpr ?_
  by_cases hu : l.token.login = .user
  · have hopen := (InOrder.user hc hu).mp h
    obtain ⟨q, k1, k2, k3⟩ := hK hu
    right
    refine ⟨q, k1, k2, ?_⟩
    have hobjs : (Verif.logout e l).token.objs = encodeAll e.store l.token.key l.token.objs := if_pos hu
    rw [hobjs, encodeAll_keepable (fun o ho => (hopen o ho).keepable)]
    intro o ho
    obtain ⟨p, hp, rfl⟩ := List.mem_map.mp ho
    rw [if_neg (hopen p hp).1.cert, show (Verif.logout e l).token.seed = l.token.seed from rfl, ← k3]
    exact (hopen p hp).shut hl _
  · have hobjs : (Verif.logout e l).token.objs = l.token.objs := if_neg hu
    have := (InOrder.away hc hu).mp h
    unfold Away at this ⊢
    rw [hobjs]
    exact this

/-- The user tries to log in. -/
theorem InOrder.userLogin (hx : StoreLaws e.store) {l : Lib} (h : InOrder e l) (hc : 0 < l.count)
    (hone : OnePin e l) {pin : Bytes} (hpin : pinLenOk pin = true) (now : Int) : InOrder e (userLogin e l pin now).1 := by
  unfold Verif.userLogin
  split
  · exact h
  rename_i hl
  have hl : l.token.login = .pub := by simpa using hl
  have hu : l.token.login ≠ .user := by rw [hl]; decide
  split
  · exact h
  rename_i a ha
  have ha := samePin_lockCheck ha
  have haw := (InOrder.away hc hu).mp h
  have mk : ∀ {l' : Lib}, l'.count = l.count → l'.token.login ≠ .user → SamePin l.token.user l'.token.user →
      l'.token.seed = l.token.seed → l'.token.objs = l.token.objs → InOrder e l' := by
    intro l' h1 h2 h3 h4 h5
    refine (InOrder.away (by rw [h1]; exact hc) h2).mpr ?_
    rcases haw with h | ⟨q, g1, g2, g3⟩
    · exact .inl (h5.trans h)
    · exact .inr ⟨q, g1, (matches_same h3 q).mpr g2, by rw [h4, h5]; exact g3⟩
  split
  · exact mk rfl hu ha rfl rfl
  · exact mk rfl hu ⟨by rw [← ha.1]; unfold failed; split <;> rfl, by rw [← ha.2]; unfold failed; split <;> rfl⟩ rfl rfl
  · rename_i hck
    have hm : Matches e a pin := by
      rcases checkPin_cases e l.token a pin with h | h | h
      · rw [hck] at h; cases h.1
      · rw [hck] at h; cases h.1
      · exact h.2.2.2
    have hm : Matches e l.token.user pin := (matches_same ha pin).mp hm
    have hlen : ∀ p, pinLenOk p = true → 4 ≤ p.length ∧ p.length ≤ 32 := by
      intro p hp; simpa [pinLenOk] using hp
    have hshut : ∀ o ∈ l.token.objs, NeatShut e.store (e.store.hash pin l.token.seed) o := by
      rcases haw with h | ⟨q, g1, g2, g3⟩
      · rw [h]; intro o ho; cases ho
      · have heq : q = pin := hone q pin (hlen q g1).1 (hlen q g1).2 (hlen pin hpin).1 (hlen pin hpin).2 g2 hm
        subst heq
        exact g3
    obtain ⟨d1, d2⟩ := decodeAll_open hx hshut
    dsimp only
    rw [d1]
    exact (InOrder.user (l := { l with token := { l.token with user := succeeded a, key := e.store.hash pin l.token.seed, objs := (decodeAll e.store (e.store.hash pin l.token.seed) l.token.objs).2, login := .user } }) hc rfl).mpr d2

/-- The last `C_Finalize`. -/
theorem InOrder.final (hx : StoreLaws e.store) {l l' : Lib} (h : InOrder e l) (hc : 0 < l.count) (hu : l.token.login ≠ .user)
    (hw : Writable e l) (hc' : ¬ 0 < l'.count) {r : Nat} (hd : l'.disk = l.disk.puts (storeToken e.store r l.token).wr) :
    InOrder e l' := by
  refine (InOrder.off hc').mpr fun u => ?_
  rw [hd, loadToken_stored hx hw.record hw.objects]
  rcases (InOrder.away hc hu).mp h with h | ⟨q, g1, g2, g3⟩
  · left
    show reloadAll u l.token.objs = []
    rw [h]; rfl
  · exact .inr ⟨q, g1, g2, reloadAll_shut g3 u⟩

/-- Any call that obeys the rules. -/
theorem InOrder.callBody (hx : StoreLaws e.store) (hl : SealLen e) (hr : RandLen e)
    {l : Lib} (h : InOrder e l) (hK : KInv e l) {c : Call} (ho : Orderly e l c)
    (hrec : l.token.toRec.Fits) (hhd : 0 < l.count → ∀ o ∈ l.token.objs, o.handle < 2 ^ 64) :
    InOrder e (callBody e l c).1 := by
  by_cases hc : 0 < l.count
  case neg =>
    have hno := (InOrder.off hc).mp h
    cases c with
    | cInit =>
      simp only [Verif.callBody, cInitialize]
      split
      · rename_i h0
        have hu : (loadToken e.store l.disk l.uid).login ≠ .user := by rw [loadToken_login]; decide
        have hpos : 0 < (cInitialize e l).1.count := by
          simp only [cInitialize, if_pos h0]; omega
        simp only [cInitialize, if_pos h0] at hpos
        exact (InOrder.away hpos hu).mpr (hno l.uid)
      · rename_i h0
        refine (InOrder.off (l := { l with count := l.count + 1 }) ?_).mpr hno
        show ¬ 0 < l.count + 1
        omega
    | cFinal =>
      simp only [Verif.callBody, cFinalize]
      rw [if_neg (by omega)]
      refine (InOrder.off (l := { l with count := l.count - 1 }) ?_).mpr hno
      show ¬ 0 < l.count - 1
      omega
    | slot id c =>
      simp only [Verif.callBody]
      rw [if_pos (by omega)]
      exact h
    | sess j c =>
      simp only [Verif.callBody]
      rw [if_pos (by omega)]
      exact h
  case pos =>
  have hcn : ¬ l.count ≤ 0 := by omega
  have fr : ∀ {l' : Lib}, l'.count = l.count → l'.token = l.token → InOrder e l' := by
    intro l' h1 h2
    exact h.frame hc h1 (by rw [h2]) (by rw [h2]; exact ⟨rfl, rfl⟩) (by rw [h2]) (fun P _ _ hp => by rw [h2]; exact hp)
  cases c with
  | cInit =>
    simp only [Verif.callBody, cInitialize]
    rw [if_neg (by omega)]
    by_cases hu : l.token.login = .user
    · exact (InOrder.user (l := { l with count := l.count + 1 }) (by show 0 < l.count + 1; omega) hu).mpr ((InOrder.user hc hu).mp h)
    · exact (InOrder.away (l := { l with count := l.count + 1 }) (by show 0 < l.count + 1; omega) hu).mpr ((InOrder.away hc hu).mp h)
  | cFinal =>
    simp only [Verif.callBody, cFinalize]
    split
    · rename_i h0
      have hu : l.token.login ≠ .user := ho (by omega)
      exact h.final hx hc hu (h.writable hc hu hrec (hhd hc)) (r := l.rng) (by
        show ¬ 0 < l.count - 1
        omega) rfl
    · have hp : 0 < l.count - 1 := by omega
      by_cases hu : l.token.login = .user
      · exact (InOrder.user (l := { l with count := l.count - 1 }) hp hu).mpr ((InOrder.user hc hu).mp h)
      · exact (InOrder.away (l := { l with count := l.count - 1 }) hp hu).mpr ((InOrder.away hc hu).mp h)
  | slot id c =>
    simp only [Verif.callBody, if_neg hcn]
    split; · exact h
    cases c with
    | initToken p lb =>
      simp only [slotCall]
      rcases initToken_spec e l p lb with h' | ⟨_, _, _, _, _, _, _, h'⟩
      · rw [h'.1]; exact h
      · have hcount : (initToken e l p lb).1.count = l.count := by
          unfold initToken
          repeat' split
          all_goals rfl
        refine (InOrder.away (by rw [hcount]; exact hc) (by rw [h']; exact (by decide : Login.pub ≠ Login.user))).mpr (.inl ?_)
        rw [h']
    | tokenInfo p n =>
      simp only [slotCall]
      repeat' split
      all_goals exact h
    | closeAll => exact fr rfl rfl
    | openSession rw' ser ptr =>
      simp only [slotCall, openSession]
      repeat' split
      all_goals first | exact h | exact fr rfl rfl
  | sess j c =>
    simp only [Verif.callBody, if_neg hcn]
    split; · exact h
    rename_i s hs
    cases hacc : c.isAccount with
    | false =>
      have hf := tframe_sessCall e l s c hacc
      have hcount : (sessCall e l s c).1.count = l.count :=
        (frame_sessCall e l s c (by rintro rfl; cases hacc)).count
      refine h.frame hc hcount hf.login (by rw [hf.user]; exact ⟨rfl, rfl⟩) hf.seed ?_
      intro P hk hnew hp
      exact objs_sessCall hl hr j hacc ho hk hnew hp
    | true =>
      cases c <;> first | (cases hacc; done) | skip
      case close =>
        simp only [sessCall, closeSession]
        split
        · exact fr rfl rfl
        · have h1 : InOrder e { l with sessions := closeOne l.sessions s.handle } := fr rfl rfl
          exact h1.logout hl hK hc
      case login u pin now =>
        simp only [sessCall, login]
        split; · exact h
        split; · exact h
        rename_i q hp
        have hp : pinLenOk q = true := by simpa using hp
        split
        · unfold soLogin
          split; · exact h
          rename_i hlg
          have hlg : l.token.login = .pub := by simpa using hlg
          have hu : l.token.login ≠ .user := by rw [hlg]; decide
          have cl := (InOrder.away hc hu).mp h
          have mk : ∀ {l' : Lib}, l'.count = l.count → l'.token.login ≠ .user → l'.token.user = l.token.user →
              l'.token.seed = l.token.seed → l'.token.objs = l.token.objs → InOrder e l' := by
            intro l' h1 h2 h3 h4 h5
            refine (InOrder.away (by rw [h1]; exact hc) h2).mpr ?_
            unfold Away
            rw [h3, h4, h5]; exact cl
          split; · exact h
          dsimp only
          split; · exact mk rfl hu rfl rfl rfl
          split
          · exact mk rfl hu rfl rfl rfl
          · exact mk rfl hu rfl rfl rfl
          · exact mk rfl (by simp) rfl rfl rfl
        · exact h.userLogin hx hc (ho rfl) hp now
        · exact h
        · exact h
      case logout => exact h.logout hl hK hc
      case initPin p =>
        simp only [sessCall]
        rcases initPin_spec e l s p with h' | ⟨_, _, h1, h2, h'⟩
        · rw [h'.1]; exact h
        · have hso : l.token.login = .so := by
            unfold sessState at h2
            cases hlg : l.token.login with
            | so => rfl
            | user => rw [hlg] at h2; dsimp only at h2; split at h2 <;> cases h2
            | pub => rw [hlg] at h2; dsimp only at h2; split at h2 <;> cases h2
          have hnil : l.token.objs = [] := ho hso
          rw [h']
          refine (InOrder.away (l := (pinSet (setUserPin e l _)).1) hc ?_).mpr (.inl ?_)
          · show l.token.login ≠ .user
            rw [hso]; decide
          · show (storeObjs e.store _ _ l.token.objs).2.1 = []
            rw [hnil]; rfl
      case setPin o n =>
        simp only [sessCall]
        have hall : ∀ (key : Bytes) (r : Nat) (P : Obj → Prop), (∀ o, P o → ∃ c, o.keyData = some c) →
            (∀ o ∈ l.token.objs, P o) → ∀ o ∈ (storeObjs e.store key r l.token.objs).2.1, P o := by
          intro key r P hk hp
          rw [storeObjs_kept _ (fun o ho => hk o (hp o ho))]
          exact hp
        rcases setPin_spec e l s o n with h' | ⟨_, _, _, _, _, h2, ⟨_, _, h'⟩ | ⟨g1, g2, h'⟩⟩
        · rw [h'.1]; exact h
        · rw [h']
          exact h.frame hc rfl rfl ⟨rfl, rfl⟩ rfl (fun P hk _ hp => hall _ _ P hk hp)
        · rw [h']
          by_cases hu : l.token.login = .user
          · refine (InOrder.user (l := (pinSet (setUserPin e l _)).1) hc hu).mpr ?_
            refine hall _ _ (NeatOpen e.store) (fun o ho => ?_) ((InOrder.user hc hu).mp h)
            obtain ⟨d, hd, _⟩ := ho.1.kept
            exact ⟨d, hd⟩
          · have hpub : l.token.login = .pub := by
              cases hlg : l.token.login with
              | user => exact absurd hlg hu
              | pub => rfl
              | so =>
                unfold sessState at g1
                rw [hlg] at g1
                rcases g1 with g1 | g1 <;> cases g1
            have hnil : l.token.objs = [] := ho hpub
            refine (InOrder.away (l := (pinSet (setUserPin e l _)).1) hc hu).mpr (.inl ?_)
            show (storeObjs e.store _ _ l.token.objs).2.1 = []
            rw [hnil]; rfl

end Verif
