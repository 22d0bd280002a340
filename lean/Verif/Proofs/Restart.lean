import Verif.Spec.Restart
import Verif.Proofs.Look
import Verif.Proofs.Disk
import Verif.Props.DhDer
import Verif.Props.Codec

/-!
# Encoding, storing and loading keys
-/

namespace Verif

variable {x : StoreExt} {key : Bytes}

theorem shown_getAttributeValue (k : KeyExt) (o : Obj) (t : List Entry) :
    getAttributeValue k o.shown t = getAttributeValue k o t := by
  have h0 : ∀ a b n, getAttr k o.shown a b n = getAttr k o a b n := fun _ _ _ => rfl
  have h : ∀ t, getEntries k o.shown t = getEntries k o t := by
    intro t
    induction t with
    | nil => rfl
    | cons en t ih => unfold getEntries; rw [ih]; rfl
  unfold getAttributeValue
  rw [h]

/-! ## Encoding -/

theorem Obj.IsKey.typ_cases {o : Obj} (h : o.IsKey) :
    o.typ = CKK_RSA ∨ o.typ = CKK_EC ∨ o.typ = CKK_DH ∨ o.typ = CKK_AES ∨ o.typ = CKK_GENERIC_SECRET := by
  rcases h.2 with h | h | h | h
  · exact .inl h.1
  · exact .inr (.inl h.1)
  · exact .inr (.inr (.inl h.1))
  · rcases h.1 with h | h
    · exact .inr (.inr (.inr (.inl h)))
    · exact .inr (.inr (.inr (.inr h)))

theorem encodeKey_isKey {o : Obj} (h : o.IsKey) {c : Bytes} (hc : o.sealedKey x key = some c) :
    encodeKey x key o = (true, { o with keyData := some c }) := by
  obtain ⟨hcert, h⟩ := h
  rcases h with ⟨ht, ha, k, hd, hp⟩ | ⟨ht, ha, k, hd, hp⟩ | ⟨ht, ha, k, hd, h1, h2, h3, h4⟩ | ⟨ht, k, hd, hl⟩
  · have hs : o.isSecret = decide (o.cls = CKO_PRIVATE_KEY) := by simp [Obj.isSecret, ht, CKK_RSA, CKK_EC, CKK_DH, CKK_AES, CKK_GENERIC_SECRET]; rfl
    have hr : o.rsa = k := by simp [Obj.rsa, hd]
    rw [encodeKey, if_pos ht, encodeRsa]
    rcases ha with ha | ha
    · simp only [Obj.sealedKey, Obj.keyBytes, hd, ha, if_true, hs] at hc ⊢
      simp only [decide_true, if_true] at hc
      simp [hr, hc]
    · have hn : ¬ o.cls = CKO_PRIVATE_KEY := by rw [ha]; decide
      simp only [Obj.sealedKey, Obj.keyBytes, hd, if_neg hn, hs, decide_eq_false hn] at hc
      simp only [Bool.false_eq_true, if_false] at hc
      rw [if_neg hn, if_pos ha, hr]
      simp only [Option.map_id'] at hc
      simp [hc]
  · have hs : o.isSecret = decide (o.cls = CKO_PRIVATE_KEY) := by simp [Obj.isSecret, ht, CKK_RSA, CKK_EC, CKK_DH, CKK_AES, CKK_GENERIC_SECRET]; rfl
    have hr : o.ec = k := by simp [Obj.ec, hd]
    have hn0 : ¬ o.typ = CKK_RSA := by rw [ht]; decide
    rw [encodeKey, if_neg hn0, if_pos ht, encodeEcc]
    rcases ha with ha | ha
    · simp only [Obj.sealedKey, Obj.keyBytes, hd, ha, if_true, hs] at hc ⊢
      simp only [decide_true, if_true] at hc
      simp [hr, hc]
    · have hn : ¬ o.cls = CKO_PRIVATE_KEY := by rw [ha]; decide
      simp only [Obj.sealedKey, Obj.keyBytes, hd, if_neg hn, hs, decide_eq_false hn] at hc
      simp only [Bool.false_eq_true, if_false] at hc
      rw [if_neg hn, if_pos ha, hr]
      simp only [Option.map_id'] at hc
      simp [hc]
  · have hs : o.isSecret = decide (o.cls = CKO_PRIVATE_KEY) := by simp [Obj.isSecret, ht, CKK_RSA, CKK_EC, CKK_DH, CKK_AES, CKK_GENERIC_SECRET]; rfl
    have hr : o.dh = k := by simp [Obj.dh, hd]
    have hn0 : ¬ o.typ = CKK_RSA := by rw [ht]; decide
    have hn1 : ¬ o.typ = CKK_EC := by rw [ht]; decide
    rw [encodeKey, if_neg hn0, if_neg hn1, if_pos ht, encodeDh]
    simp only [Obj.sealedKey, Obj.keyBytes, hd, hs, Option.map_some, decide_eq_true_eq] at hc
    rw [hr, hc]
  · have hs : o.isSecret = true := by rcases ht with ht | ht <;> simp [Obj.isSecret, ht]
    have hr : o.symm = k := by simp [Obj.symm, hd]
    have hn0 : ¬ o.typ = CKK_RSA := by rcases ht with ht | ht <;> rw [ht] <;> decide
    have hn1 : ¬ o.typ = CKK_EC := by rcases ht with ht | ht <;> rw [ht] <;> decide
    have hn2 : ¬ o.typ = CKK_DH := by rcases ht with ht | ht <;> rw [ht] <;> decide
    rw [encodeKey, if_neg hn0, if_neg hn1, if_neg hn2, if_pos ht, encodeSymm]
    simp only [Obj.sealedKey, Obj.keyBytes, hd, hs, Option.map_some, if_true] at hc
    rw [hr, hc]

/-! ## Decoding -/

/-- Decoding the kept form gives the key. -/
theorem decodeObj_kept (hx : StoreLaws x) {o p : Obj} (h : o.IsKey) (hk : o.KeptUnder x key)
    (h1 : p.cls = o.cls) (h2 : p.typ = o.typ) (h3 : p.iv = o.iv) (h4 : p.keyData = o.keyData)
    (h5 : o.typ = CKK_DH → p.dh.p = o.dh.p ∧ p.dh.g = o.dh.g) :
    decodeObj x key p = (.ok, { p with data := o.data, encoded := false }) := by
  obtain ⟨c, hc, hkd⟩ := hk
  have hseal : ∀ pt, c = x.aeadEnc key o.iv pt → unsealData x key p = (.ok, pt) := by
    intro pt he
    have := hx.tag key o.iv pt
    unfold unsealData
    rw [h4, hkd]
    dsimp only
    rw [if_neg (by rw [he]; unfold tagSz; omega), h3, he, hx.cipher]
  suffices hs : decodeKey x key p = (.ok, { p with data := o.data, encoded := false }) by
    unfold decodeObj; rw [hs]; rfl
  obtain ⟨hcert, h⟩ := h
  rw [decodeKey, if_neg (by rw [h1]; exact hcert)]
  rcases h with ⟨ht, ha, k, hd, hp⟩ | ⟨ht, ha, k, hd, hp⟩ | ⟨ht, ha, k, hd, g1, g2, g3, g4⟩ | ⟨ht, k, hd, hl⟩
  · have hs : o.isSecret = decide (o.cls = CKO_PRIVATE_KEY) := by simp [Obj.isSecret, ht, CKK_RSA, CKK_EC, CKK_DH, CKK_AES, CKK_GENERIC_SECRET]; rfl
    rw [if_pos (h2.trans ht), decodeRsa]
    rcases ha with ha | ha
    · rw [if_pos (h1.trans ha)]
      simp only [Obj.sealedKey, Obj.keyBytes, hd, ha, if_true, hs, decide_true, Option.map_eq_some_iff] at hc
      obtain ⟨d, hd1, hd2⟩ := hc
      rw [hseal d hd2.symm]
      dsimp only
      rw [hx.rsa _ _ hd1, hd]
      rfl
    · have hn : ¬ o.cls = CKO_PRIVATE_KEY := by rw [ha]; decide
      rw [if_neg (by rw [h1]; exact hn)]
      simp only [Obj.sealedKey, Obj.keyBytes, hd, if_neg hn, hs, decide_eq_false hn, Bool.false_eq_true, if_false, Option.map_id'] at hc
      rw [h4, hkd, Option.bind_some, hx.rsaPub _ _ hc, hd, ← hp ha]
      rfl
  · have hs : o.isSecret = decide (o.cls = CKO_PRIVATE_KEY) := by simp [Obj.isSecret, ht, CKK_RSA, CKK_EC, CKK_DH, CKK_AES, CKK_GENERIC_SECRET]; rfl
    rw [if_neg (by rw [h2, ht]; decide), if_pos (h2.trans ht), decodeEcc]
    rcases ha with ha | ha
    · rw [if_pos (h1.trans ha)]
      simp only [Obj.sealedKey, Obj.keyBytes, hd, ha, if_true, hs, decide_true, Option.map_eq_some_iff] at hc
      obtain ⟨d, hd1, hd2⟩ := hc
      rw [hseal d hd2.symm]
      dsimp only
      rw [hx.ec _ _ hd1, hd]
      rfl
    · have hn : ¬ o.cls = CKO_PRIVATE_KEY := by rw [ha]; decide
      rw [if_neg (by rw [h1]; exact hn)]
      simp only [Obj.sealedKey, Obj.keyBytes, hd, if_neg hn, hs, decide_eq_false hn, Bool.false_eq_true, if_false, Option.map_id'] at hc
      rw [h4, hkd, Option.bind_some, hx.ecPub _ _ hc, hd, ← hp ha]
      rfl
  · have hs : o.isSecret = decide (o.cls = CKO_PRIVATE_KEY) := by simp [Obj.isSecret, ht, CKK_RSA, CKK_EC, CKK_DH, CKK_AES, CKK_GENERIC_SECRET]; rfl
    obtain ⟨i1, i2⟩ := h5 ht
    have hr : o.dh = k := by simp [Obj.dh, hd]
    rw [hr] at i1 i2
    have hdata : KeyData.dh { p.dh with key := k.key } = o.data := by
      rw [hd]; congr 1; cases k; simp_all
    rw [if_neg (by rw [h2, ht]; decide), if_neg (by rw [h2, ht]; decide), if_pos (h2.trans ht), decodeDh]
    simp only [Obj.sealedKey, Obj.keyBytes, hd, hs, Option.map_some, decide_eq_true_eq, Option.some.injEq] at hc
    rcases ha with ha | ha
    · rw [if_pos (h1.trans ha)]
      rw [if_pos ha] at hc
      rw [hseal k.key hc.symm]
      dsimp only
      rw [if_neg (by unfold maxDhKey; omega), hdata]
      rfl
    · have hn : ¬ o.cls = CKO_PRIVATE_KEY := by rw [ha]; decide
      rw [if_neg (by rw [h1]; exact hn)]
      rw [if_neg hn] at hc
      rw [h4, hkd, ← hc]
      dsimp only
      rw [if_neg (by unfold maxDhKey; omega), hdata]
      rfl
  · have hs : o.isSecret = true := by rcases ht with ht | ht <;> simp [Obj.isSecret, ht]
    have ht' : p.typ = CKK_AES ∨ p.typ = CKK_GENERIC_SECRET := by rw [h2]; exact ht
    have hn0 : ¬ p.typ = CKK_RSA := by rcases ht' with ht | ht <;> rw [ht] <;> decide
    have hn1 : ¬ p.typ = CKK_EC := by rcases ht' with ht | ht <;> rw [ht] <;> decide
    have hn2 : ¬ p.typ = CKK_DH := by rcases ht' with ht | ht <;> rw [ht] <;> decide
    rw [if_neg hn0, if_neg hn1, if_neg hn2, if_pos ht', decodeSymm]
    simp only [Obj.sealedKey, Obj.keyBytes, hd, hs, Option.map_some, if_true, Option.some.injEq] at hc
    rw [hseal k hc.symm]
    dsimp only
    rw [if_neg (by unfold maxSymKey; omega), hd]
    rfl

/-! ## Logout and login -/

/-- A key that can be encoded, or a certificate. -/
def Obj.Keepable (x : StoreExt) (o : Obj) : Prop :=
  o.cls = CKO_CERTIFICATE ∨ (o.IsKey ∧ (o.keyBytes x).isSome)

/-- The object with its kept form under `key`. -/
def Obj.sealUnder (x : StoreExt) (key : Bytes) (o : Obj) : Obj :=
  if o.cls = CKO_CERTIFICATE then o else { o with keyData := o.sealedKey x key }

theorem cleared_eq (p : Obj) :
    ∃ d b, cleared p = { p with data := d, encoded := b } ∧
      (p.typ = CKK_DH → (cleared p).dh.p = p.dh.p ∧ (cleared p).dh.g = p.dh.g) := by
  unfold cleared
  by_cases h1 : p.typ = CKK_RSA
  · rw [if_pos h1]
    split
    · exact ⟨_, _, rfl, fun h => by rw [h1] at h; cases h⟩
    · exact ⟨p.data, p.encoded, rfl, fun _ => ⟨rfl, rfl⟩⟩
  rw [if_neg h1]
  by_cases h2 : p.typ = CKK_EC
  · rw [if_pos h2]
    split
    · exact ⟨_, _, rfl, fun h => by rw [h2] at h; cases h⟩
    · exact ⟨p.data, p.encoded, rfl, fun _ => ⟨rfl, rfl⟩⟩
  rw [if_neg h2]
  by_cases h3 : p.typ = CKK_DH
  · rw [if_pos h3]
    split
    · exact ⟨_, _, rfl, fun _ => ⟨rfl, rfl⟩⟩
    · exact ⟨p.data, p.encoded, rfl, fun _ => ⟨rfl, rfl⟩⟩
  rw [if_neg h3]
  exact ⟨_, _, rfl, fun h => absurd h h3⟩

theorem encodeObj_keepable {o : Obj} (h : o.Keepable x) (key : Bytes) :
    encodeObj x key true o = (true, if o.cls = CKO_CERTIFICATE then o else cleared (o.sealUnder x key)) := by
  unfold encodeObj
  by_cases hc : o.cls = CKO_CERTIFICATE
  · simp only [if_pos hc]
  · rw [if_neg hc, if_neg hc]
    rcases h with h | ⟨h1, h2⟩
    · exact absurd h hc
    · obtain ⟨b, hb⟩ := Option.isSome_iff_exists.mp h2
      have hs : o.sealedKey x key = some (if o.isSecret then x.aeadEnc key o.iv b else b) := by
        unfold Obj.sealedKey; rw [hb]; rfl
      rw [encodeKey_isKey h1 hs]
      simp only [Obj.sealUnder, if_neg hc, hs, and_self, if_true]

theorem encodeAll_keepable {os : List Obj} (h : ∀ o ∈ os, o.Keepable x) (key : Bytes) :
    encodeAll x key os =
      os.map fun o => if o.cls = CKO_CERTIFICATE then o else cleared (o.sealUnder x key) := by
  induction os with
  | nil => rfl
  | cons o os ih =>
    simp only [encodeAll, encodeObj_keepable (h o List.mem_cons_self), if_true, List.map_cons]
    rw [ih fun p hp => h p (List.mem_cons_of_mem _ hp)]

/-- One object through logout and login. -/
theorem decode_encode (hx : StoreLaws x) {o : Obj} (h : o.Keepable x) (key : Bytes) :
    decodeObj x key (if o.cls = CKO_CERTIFICATE then o else cleared (o.sealUnder x key)) =
      (.ok, { o.sealUnder x key with encoded := false }) := by
  by_cases hc : o.cls = CKO_CERTIFICATE
  · rw [if_pos hc]
    simp only [decodeObj, decodeKey, if_pos hc, Obj.sealUnder]
    rfl
  · rw [if_neg hc]
    rcases h with h | ⟨h1, h2⟩
    · exact absurd h hc
    · obtain ⟨b, hb⟩ := Option.isSome_iff_exists.mp h2
      have hs : o.sealedKey x key = some (if o.isSecret then x.aeadEnc key o.iv b else b) := by
        unfold Obj.sealedKey; rw [hb]; rfl
      have he : o.sealUnder x key = { o with keyData := o.sealedKey x key } := if_neg hc
      obtain ⟨d, b', h3, h4⟩ := cleared_eq (o.sealUnder x key)
      rw [he] at h3 h4 ⊢
      have hk : ({ o with keyData := o.sealedKey x key } : Obj).KeptUnder x key := ⟨_, hs, hs⟩
      have hi : ({ o with keyData := o.sealedKey x key } : Obj).IsKey := h1
      rw [decodeObj_kept hx hi hk (by rw [h3]) (by rw [h3]) (by rw [h3]) (by rw [h3]) h4, h3]

theorem decodeAll_keepable (hx : StoreLaws x) {os : List Obj} (h : ∀ o ∈ os, o.Keepable x) (key : Bytes) :
    decodeAll x key (encodeAll x key os) =
      (.ok, os.map fun o => { o.sealUnder x key with encoded := false }) := by
  rw [encodeAll_keepable h]
  induction os with
  | nil => rfl
  | cons o os ih =>
    simp only [List.map_cons, decodeAll, decode_encode hx (h o List.mem_cons_self), if_true]
    rw [ih fun p hp => h p (List.mem_cons_of_mem _ hp)]

theorem shown_sealUnder (o : Obj) (key : Bytes) :
    ({ o.sealUnder x key with encoded := false } : Obj).shown = o.shown := by
  unfold Obj.sealUnder
  split <;> rfl

end Verif
