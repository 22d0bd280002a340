import Verif.Proofs.AtRest

/-!
# Keys in the storage directory, if classes are kept
-/

namespace Verif

variable {e : Env}

/-- What an encoded key may be, by the kind of the file. -/
def Lie (e : Env) : StoreType → Bytes → Prop
  | .symmKey, c | .rsaPriv, c | .eccPriv, c | .dhPriv, c => Encrypted e c
  | .rsaPub, c => PublicRsa e c
  | .eccPub, c => PublicEc e c
  | _, _ => True

/-- What may follow it. -/
def Tail (f : StoreType) (r : Bytes) : Prop :=
  r = [] ∨ ((f = .dhPriv ∨ f = .dhPub) ∧ ∃ p g der, dhParamsToDer p g = some der ∧ r = wrArray der)

/-- The encoded key has the form its file is to have. -/
def LieOk (e : Env) (o : Obj) : Prop :=
  ∀ f, f ≠ .cert → keyFile o = some f → ∀ c, o.keyData = some c → Lie e f c

/-- All files do. -/
def LieDisk (e : Env) (d : Disk) : Prop :=
  ∀ f i b, f ≠ .token → f ≠ .object → f ≠ .cert → d (f, i) = some b → b = [] ∨ ∃ c r, b = wrArray c ++ r ∧ Lie e f c ∧ Tail f r

theorem LieOk.none {o : Obj} (h : o.keyData = none) : LieOk e o := by
  intro f _ _ c hc; rw [h] at hc; cases hc

theorem LieOk.data {o p : Obj} (h : LieOk e o) (h1 : p.cls = o.cls) (h2 : p.typ = o.typ) (h3 : p.keyData = o.keyData) :
    LieOk e p := by
  intro f hf hk c hc
  rw [keyFile_same h1 h2] at hk
  rw [h3] at hc
  exact h f hf hk c hc

theorem encodeKey_lie {k : Bytes} (hk : StorageKey e k) {o : Obj} (h : LieOk e o) :
    LieOk e (encodeKey e.store k o).2 := by
  have henc : ∀ iv b, Encrypted e (e.store.aeadEnc k iv b) := fun iv b => ⟨k, iv, b, hk, List.prefix_refl _⟩
  have hkf : ∀ f, keyFile (encodeKey e.store k o).2 = some f → keyFile o = some f := by
    intro f hf
    rw [← hf]
    refine (keyFile_same ?_ ?_).symm <;>
    · unfold encodeKey encodeRsa encodeEcc encodeDh encodeSymm
      repeat' split
      all_goals rfl
  intro f hf hkf' c hc
  have hfile := hkf f hkf'
  unfold keyFile at hfile
  split at hfile
  · cases hfile; exact absurd rfl hf
  unfold encodeKey at hc
  split at hfile
  · rename_i ht
    rw [if_pos ht] at hc
    simp only [encodeRsa] at hc
    cases hfile
    split at hc
    · rename_i hp
      rw [if_pos hp]
      obtain ⟨d, _, rfl⟩ := Option.map_eq_some_iff.mp hc
      exact henc _ _
    · rename_i hp
      rw [if_neg hp]
      split at hc
      · exact .inl ⟨_, _, hc, List.prefix_refl _⟩
      · obtain ⟨d, _, rfl⟩ := Option.map_eq_some_iff.mp hc
        exact .inr ⟨_, List.prefix_refl _⟩
  rename_i n1
  rw [if_neg n1] at hc
  split at hfile
  · rename_i ht
    rw [if_pos ht] at hc
    simp only [encodeEcc] at hc
    cases hfile
    split at hc
    · rename_i hp
      rw [if_pos hp]
      obtain ⟨d, _, rfl⟩ := Option.map_eq_some_iff.mp hc
      exact henc _ _
    · rename_i hp
      rw [if_neg hp]
      split at hc
      · exact .inl ⟨_, _, hc, List.prefix_refl _⟩
      · obtain ⟨d, _, rfl⟩ := Option.map_eq_some_iff.mp hc
        exact .inr ⟨_, List.prefix_refl _⟩
  rename_i n2
  rw [if_neg n2] at hc
  split at hfile
  · rename_i ht
    rw [if_pos ht] at hc
    simp only [encodeDh] at hc
    cases hfile
    split at hc
    · rename_i hp
      rw [if_pos hp]
      cases hc
      exact henc _ _
    · rename_i hp
      rw [if_neg hp]
      trivial
  rename_i n3
  rw [if_neg n3] at hc
  split at hfile
  · rename_i ht
    rw [if_pos ht] at hc
    cases hfile
    simp only [encodeSymm] at hc
    cases hc
    exact henc _ _
  · cases hfile

theorem encodeObj_lie {k : Bytes} (hk : StorageKey e k) (b : Bool) {o : Obj} (h : LieOk e o) :
    LieOk e (encodeObj e.store k b o).2 := by
  have h1 := encodeKey_lie hk h
  unfold encodeObj
  dsimp only
  repeat' split
  · exact h
  · generalize (encodeKey e.store k o).2 = q at h1
    unfold cleared
    repeat' split
    all_goals exact h1.data rfl rfl rfl
  · exact h1

theorem decodeObj_lie (k : Bytes) {o : Obj} (h : LieOk e o) : LieOk e (decodeObj e.store k o).2 := by
  show LieOk e (decodeKey e.store k o).2
  unfold decodeKey decodeRsa decodeEcc decodeDh decodeSymm decoded
  repeat' split
  all_goals exact h.data rfl rfl rfl

theorem fresh_lie {o : Obj} (h : LieOk e o) (r : Nat) : LieOk e (if needsIv o then { o with iv := e.store.rand r 12 } else o) := by
  split
  · exact h.data rfl rfl rfl
  · exact h

theorem enc_lie {k : Bytes} (hk : StorageKey e k) {o : Obj} (h : LieOk e o) :
    LieOk e (if o.keyData.isNone then encodeKey e.store k o else (true, o)).2 := by
  split
  · exact encodeKey_lie hk h
  · exact h

theorem storeObj_lie {k : Bytes} (hk : StorageKey e k) (r i : Nat) {o : Obj} (h : LieOk e o) :
    LieOk e (storeObj e.store k r o i).obj := by
  have h1 := fresh_lie h r
  have h2 := enc_lie hk h1
  unfold storeObj
  dsimp only
  split
  · exact h1
  · split <;> exact h1
  · split
    · split <;> exact h2
    · exact h2

theorem LieDisk.put {d : Disk} (h : LieDisk e d) {w : Write}
    (h2 : w.1.1 ≠ .token → w.1.1 ≠ .object → w.1.1 ≠ .cert → w.2 = [] ∨ ∃ c r, w.2 = wrArray c ++ r ∧ Lie e w.1.1 c ∧ Tail w.1.1 r) :
    LieDisk e (d.put w) := by
  intro f i b f1 f2 f3 hb
  unfold Disk.put at hb
  split at hb
  · rename_i hn
    cases hb
    have : w.1.1 = f := by rw [← hn]
    rw [← this] at f1 f2 f3 ⊢
    exact h2 f1 f2 f3
  · exact h f i b f1 f2 f3 hb

theorem storeObj_lieDisk {k : Bytes} (hk : StorageKey e k) (r i : Nat) {o : Obj} (h : LieOk e o) {d : Disk}
    (hd : LieDisk e d) : LieDisk e (d.puts (storeObj e.store k r o i).wr) := by
  have hw : LieDisk e (d.put ((.object, i), wrObject o)) := hd.put (fun _ h => absurd rfl h)
  have h2 := enc_lie hk (fresh_lie h r)
  have hview : ∀ p : Obj, (if p.keyData.isNone then encodeKey e.store k p else (true, p)).2.cls = p.cls ∧
      (if p.keyData.isNone then encodeKey e.store k p else (true, p)).2.typ = p.typ := by
    intro p
    split
    · unfold encodeKey encodeRsa encodeEcc encodeDh encodeSymm
      repeat' split
      all_goals exact ⟨rfl, rfl⟩
    · exact ⟨rfl, rfl⟩
  have hfr : (if needsIv o then { o with iv := e.store.rand r 12 } else o).cls = o.cls ∧
      (if needsIv o then { o with iv := e.store.rand r 12 } else o).typ = o.typ := by
    split <;> exact ⟨rfl, rfl⟩
  unfold storeObj
  dsimp only
  split
  · exact hw
  · split
    · exact hw
    · exact hw.put (fun _ _ h => absurd rfl h)
  · rename_i f hcert hf
    generalize hp : (if needsIv o then { o with iv := e.store.rand r 12 } else o) = p at h2 hfr ⊢
    have hvp := hview p
    generalize hq : (if p.keyData.isNone then encodeKey e.store k p else (true, p)) = q at h2 hvp ⊢
    obtain ⟨b, q⟩ := q
    have hq1 : keyFile q = some f := by
      rw [← hf]
      exact keyFile_same (hvp.1.trans hfr.1) (hvp.2.trans hfr.2)
    dsimp only
    split
    · rename_i c hc
      split
      · rename_i t ht
        refine hw.put (fun _ _ hm => .inr ⟨c, t, rfl, h2 f hm hq1 c hc, ?_⟩)
        unfold keyTail at ht
        split at ht
        · rename_i hdh
          obtain ⟨der, hder, rfl⟩ := Option.map_eq_some_iff.mp ht
          refine .inr ⟨?_, _, _, der, hder, rfl⟩
          unfold keyFile at hq1
          have hdh : q.typ = CKK_DH := hdh
          rw [hdh] at hq1
          split at hq1
          · cases hq1; exact absurd rfl hm
          · rw [if_neg (by decide), if_neg (by decide), if_pos rfl] at hq1
            split at hq1 <;> cases hq1
            · exact .inl rfl
            · exact .inr rfl
        · cases ht; exact .inl rfl
      · exact hw.put (fun _ _ hm => .inr ⟨c, [], by rw [List.append_nil], h2 f hm hq1 c hc, .inl rfl⟩)
    · exact hw.put (fun _ _ _ => .inl rfl)

theorem unstore_lieDisk {o : Obj} {i : Nat} {d : Disk} (hd : LieDisk e d) : LieDisk e (d.puts (unstore o i)) := by
  unfold unstore
  split
  · exact (hd.put (w := ((.object, i), [])) (fun _ _ _ => .inl rfl)).put (fun _ _ _ => .inl rfl)
  · exact hd.put (fun _ _ _ => .inl rfl)

theorem allocArray_prefix' {c v r rest : Bytes} (h : Rd.allocArray (wrArray c ++ r) = some (v, rest)) : v <+: c := by
  have hr : ReadsBack Rd.int (wrWord32 (BitVec.ofNat 32 c.length)) (BitVec.ofNat 32 c.length).toInt := by
    have := readsBack_int (c.length : Int)
    rwa [BitVec.ofInt_natCast] at this
  obtain ⟨len, b', h1, h2⟩ := rd_bind h
  have h3 := hr.1 (c ++ r)
  rw [show wrWord32 (BitVec.ofNat 32 c.length) ++ (c ++ r) = wrArray c ++ r from (List.append_assoc _ _ _).symm, h1] at h3
  obtain ⟨rfl, rfl⟩ := Prod.mk.inj (Option.some.inj h3)
  split at h2
  · cases h2
  · rename_i hneg
    unfold Rd.fixed at h2
    split at h2
    · cases h2
      have hle : (BitVec.ofNat 32 c.length).toInt.toNat ≤ c.length := by
        have h4 : (BitVec.ofNat 32 c.length).toNat ≤ c.length := by
          rw [BitVec.toNat_ofNat]; exact Nat.mod_le _ _
        rw [BitVec.toInt_eq_toNat_cond]
        split <;> omega
      rw [List.take_append_of_le_length hle]
      exact List.take_prefix _ _
    · cases h2

theorem Lie.prefix {f : StoreType} {c v : Bytes} (h : Lie e f c) (hv : v <+: c) : Lie e f v := by
  have h1 : Encrypted e c → Encrypted e v := fun ⟨k, iv, pt, hk, hc⟩ => ⟨k, iv, pt, hk, hv.trans hc⟩
  have h2 : PublicRsa e c → PublicRsa e v := by
    rintro (⟨k, d, hd, hc⟩ | ⟨n, hc⟩)
    · exact .inl ⟨k, d, hd, hv.trans hc⟩
    · exact .inr ⟨n, hv.trans hc⟩
  have h3 : PublicEc e c → PublicEc e v := by
    rintro (⟨k, d, hd, hc⟩ | ⟨n, hc⟩)
    · exact .inl ⟨k, d, hd, hv.trans hc⟩
    · exact .inr ⟨n, hv.trans hc⟩
  cases f <;> first | exact h1 h | exact h2 h | exact h3 h | trivial

theorem loadObj_lie {d : Disk} (hd : LieDisk e d) {u typ i : Nat} {o : Obj}
    (h : loadObj e.store d (newObj u typ) i = some o) : LieOk e o := by
  unfold loadObj at h
  obtain ⟨p, _, h⟩ := Option.bind_eq_some_iff.mp h
  split at h
  · cases h
  rename_i f hf
  have hne := keyFile_ne hf
  have hread : ∀ {α : Type} (r : Rd α) (z : α), readFile d (f, i) r = some z → f ≠ .cert →
      ∃ c t x, Lie e f c ∧ r (wrArray c ++ t) = some (z, x) ∨ r [] = some (z, x) := by
    intro α r z hz hcert
    unfold readFile at hz
    obtain ⟨b, hb, hz⟩ := Option.bind_eq_some_iff.mp hz
    obtain ⟨⟨v, x⟩, h3, rfl⟩ := Option.map_eq_some_iff.mp hz
    rcases hd f i b hne.1 hne.2 hcert hb with rfl | ⟨c, t, rfl, hl, _⟩
    · exact ⟨[], [], x, .inr h3⟩
    · exact ⟨c, t, x, .inl ⟨hl, h3⟩⟩
  split at h
  · obtain ⟨r, hr, h⟩ := Option.bind_eq_some_iff.mp h
    obtain ⟨pg, _, rfl⟩ := Option.map_eq_some_iff.mp h
    intro f' hf' hk c' hc'
    cases hc'
    have hff : f' = f := by
      have : keyFile p = some f' := by rw [← hk]; exact (keyFile_same rfl rfl).symm
      rw [hf] at this; cases this; rfl
    subst hff
    obtain ⟨c, t, x, ⟨hl, h3⟩ | h3⟩ := hread rdDhFile r hr hf'
    · unfold rdDhFile at h3
      obtain ⟨kd, b', h4, h5⟩ := rd_bind h3
      obtain ⟨der, b'', _, h6⟩ := rd_bind h5
      cases h6
      exact hl.prefix (allocArray_prefix' h4)
    · cases h3
  · obtain ⟨kd, hkd, rfl⟩ := Option.map_eq_some_iff.mp h
    intro f' hf' hk c' hc'
    cases hc'
    have hff : f' = f := by
      have : keyFile p = some f' := by rw [← hk]; exact (keyFile_same rfl rfl).symm
      rw [hf] at this; cases this; rfl
    subst hff
    obtain ⟨c, t, x, ⟨hl, h3⟩ | h3⟩ := hread Rd.allocArray _ hkd hf'
    · exact hl.prefix (allocArray_prefix' h3)
    · cases h3

theorem setAttributeValue_keyData (x : KeyExt) (b : Bool) (o : Obj) (t : List Entry) :
    (setAttributeValue x b o t).2.keyData = o.keyData := by
  refine setAttributeValue_inv (P := fun p => p.keyData = o.keyData) _ _ _ _ ?_ ?_ rfl
  · intro p v hp
    obtain ⟨d, s, h⟩ := setKey_frame x p v
    rw [h]; exact hp
  · intro p en _ hp
    rw [(setAttr_rest p en).keyData]; exact hp

theorem setAttributeValue_lie {b : Bool} {o : Obj} {t : List Entry} (ht : ∀ en ∈ t, en.typ ≠ .cls) (h : LieOk e o) :
    LieOk e (setAttributeValue e.key b o t).2 := by
  refine setAttributeValue_inv (P := LieOk e) _ _ _ _ ?_ ?_ h
  · intro p v hp
    obtain ⟨d, s, h⟩ := setKey_frame e.key p v
    rw [h]; exact hp.data rfl rfl rfl
  · intro p en hen hp
    have hr := setAttr_rest p en
    exact hp.data (setAttr_cls p en (ht en hen)) hr.typ hr.keyData

theorem lieOk_closed (e : Env) : Closed e (LieOk e) (StorageKey e) (LieDisk e) (fun _ => True) (fun t => ∀ en ∈ t, en.typ ≠ .cls) where
  name := fun _ _ _ _ h => h.data rfl rfl rfl
  new := fun _ _ _ _ _ _ _ _ => .none (setAttributeValue_keyData ..)
  set := fun _ _ _ ht h => setAttributeValue_lie ht h
  copy := fun _ _ _ _ _ => .none (setAttributeValue_keyData ..)
  enc := fun _ _ b hk h => encodeObj_lie hk b h
  dec := fun _ k h => decodeObj_lie k h
  sto := fun _ _ r i hk h => storeObj_lie hk r i h
  symm := fun _ _ _ _ h => h.data rfl rfl rfl
  rsa := fun _ _ _ _ _ h _ => h.data rfl rfl rfl
  pair := by
    intro _ _ _ _ a b a' b' hp hg _ _ _ _ ha hb
    obtain ⟨h1, h2⟩ := pairGen_rest hp hg
    refine ⟨?_, ?_⟩
    · simp only [Obj.rest, Prod.mk.injEq] at h1
      exact ha.data h1.1 h1.2.2.2 h1.2.2.1
    · simp only [Obj.rest, Prod.mk.injEq] at h2
      exact hb.data h2.1 h2.2.2.2 h2.2.2.1
  der := by
    intro _ _ _ _ h hd
    have h1 := deriveTail_rest hd
    simp only [Obj.rest, Prod.mk.injEq] at h1
    exact h.data h1.1 h1.2.2.2 h1.2.2.1
  load := fun _ _ _ _ _ _ hd h => loadObj_lie hd h
  key0 := .inl rfl
  keyH := by
    intro pin seed h
    have h : (decide (pin.length ≥ 4) && decide (pin.length ≤ 32)) = true := h
    rw [Bool.and_eq_true] at h
    exact .inr ⟨pin, seed, of_decide_eq_true h.1, of_decide_eq_true h.2, rfl⟩
  tokFile := fun _ _ hd => hd.put (fun h => absurd rfl h)
  objFile := fun _ _ _ r i hk h hd => storeObj_lieDisk hk r i h hd
  delFile := fun _ _ _ _ hd => unstore_lieDisk hd

theorem LieDisk.secrets {d : Disk} (h : LieDisk e d) : SecretsEncrypted e d := by
  refine ⟨?_, ?_, ?_⟩
  · intro f hf i b hb
    have hne : f ≠ .token ∧ f ≠ .object ∧ f ≠ .cert ∧ f ≠ .dhPub ∧ (∀ c, Lie e f c → Encrypted e c) := by
      simp only [secretKinds, List.mem_cons, List.not_mem_nil, or_false] at hf
      rcases hf with rfl | rfl | rfl | rfl <;>
        exact ⟨(fun h => by cases h), (fun h => by cases h), (fun h => by cases h), (fun h => by cases h), fun _ h => h⟩
    rcases h f i b hne.1 hne.2.1 hne.2.2.1 hb with h | ⟨c, r, rfl, hl, hr⟩
    · exact .inl h
    · refine .inr ⟨c, hne.2.2.2.2 c hl, ?_⟩
      rcases hr with rfl | ⟨hf', p, g, der, hd, rfl⟩
      · exact .inl (List.append_nil _)
      · rcases hf' with hf' | hf'
        · exact .inr ⟨hf', p, g, der, hd, rfl⟩
        · exact absurd hf' hne.2.2.2.1
  · intro i b hb
    rcases h .rsaPub i b (by simp) (by simp) (by simp) hb with h | ⟨c, r, rfl, hl, hr⟩
    · exact .inl h
    · refine .inr ⟨c, hl, ?_⟩
      rcases hr with rfl | ⟨hf' | hf', _⟩
      · exact List.append_nil _
      · cases hf'
      · cases hf'
  · intro i b hb
    rcases h .eccPub i b (by simp) (by simp) (by simp) hb with h | ⟨c, r, rfl, hl, hr⟩
    · exact .inl h
    · refine .inr ⟨c, hl, ?_⟩
      rcases hr with rfl | ⟨hf' | hf', _⟩
      · exact List.append_nil _
      · cases hf'
      · cases hf'

end Verif
