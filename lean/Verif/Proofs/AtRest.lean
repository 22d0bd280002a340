import Verif.Spec.AtRest
import Verif.Proofs.Dates
import Verif.Proofs.Reload

/-!
# What lies in the storage directory: the invariant
-/

namespace Verif

variable {e : Env}

/-- What the encoded key of an object of the type may be. -/
def KeyForm (e : Env) (typ : Nat) (c : Bytes) : Prop :=
  (typ = CKK_RSA → Encrypted e c ∨ PublicRsa e c) ∧ (typ = CKK_EC → Encrypted e c ∨ PublicEc e c) ∧
  (typ = CKK_AES ∨ typ = CKK_GENERIC_SECRET → Encrypted e c)

/-- Not a certificate; the key is kept in a form it may be kept in. -/
structure RestOk (e : Env) (o : Obj) : Prop where
  cls : o.cls % 2 ^ 64 ≠ CKO_CERTIFICATE
  iv : o.iv.length = 12
  form : ∀ c, o.keyData = some c → KeyForm e o.typ c

theorem RestOk.notCert {o : Obj} (h : RestOk e o) : o.cls ≠ CKO_CERTIFICATE := by
  intro hx; exact h.cls (by rw [hx]; decide)

/-- The directory: no object is a certificate; the keys are encrypted. -/
structure DiskOk (e : Env) (d : Disk) : Prop where
  obj : ∀ i b, d (.object, i) = some b → b = [] ∨ ∃ o : Obj, o.cls % 2 ^ 64 ≠ CKO_CERTIFICATE ∧ o.iv.length = 12 ∧
    b = wrObject o
  key : KeysEncrypted e d

/-! ## Encoding -/

theorem encodeKey_form {k : Bytes} (hk : StorageKey e k) {o : Obj} (h : RestOk e o) :
    RestOk e (encodeKey e.store k o).2 := by
  have henc : ∀ iv b, Encrypted e (e.store.aeadEnc k iv b) := fun iv b => ⟨k, iv, b, hk, List.prefix_refl _⟩
  unfold encodeKey
  split
  · rename_i ht
    refine ⟨h.cls, h.iv, ?_⟩
    intro c hc
    refine ⟨fun _ => ?_, fun h' => ?_, fun h' => ?_⟩
    · simp only [encodeRsa] at hc
      split at hc
      · obtain ⟨d, _, rfl⟩ := Option.map_eq_some_iff.mp hc
        exact .inl (henc _ _)
      split at hc
      · exact .inr (.inl ⟨_, _, hc, List.prefix_refl _⟩)
      · obtain ⟨d, _, rfl⟩ := Option.map_eq_some_iff.mp hc
        exact .inr (.inr ⟨_, List.prefix_refl _⟩)
    · have : o.typ = CKK_EC := h'
      rw [ht] at this; cases this
    · have : o.typ = CKK_AES ∨ o.typ = CKK_GENERIC_SECRET := h'
      rw [ht] at this; rcases this with h | h <;> cases h
  split
  · rename_i ht
    refine ⟨h.cls, h.iv, ?_⟩
    intro c hc
    refine ⟨fun h' => ?_, fun _ => ?_, fun h' => ?_⟩
    · have : o.typ = CKK_RSA := h'
      rw [ht] at this; cases this
    · simp only [encodeEcc] at hc
      split at hc
      · obtain ⟨d, _, rfl⟩ := Option.map_eq_some_iff.mp hc
        exact .inl (henc _ _)
      split at hc
      · exact .inr (.inl ⟨_, _, hc, List.prefix_refl _⟩)
      · obtain ⟨d, _, rfl⟩ := Option.map_eq_some_iff.mp hc
        exact .inr (.inr ⟨_, List.prefix_refl _⟩)
    · have : o.typ = CKK_AES ∨ o.typ = CKK_GENERIC_SECRET := h'
      rw [ht] at this; rcases this with h | h <;> cases h
  split
  · rename_i ht
    refine ⟨h.cls, h.iv, ?_⟩
    intro c _
    refine ⟨fun h' => ?_, fun h' => ?_, fun h' => ?_⟩
    · have : o.typ = CKK_RSA := h'
      rw [ht] at this; cases this
    · have : o.typ = CKK_EC := h'
      rw [ht] at this; cases this
    · have : o.typ = CKK_AES ∨ o.typ = CKK_GENERIC_SECRET := h'
      rw [ht] at this; rcases this with h | h <;> cases h
  split
  · rename_i n1 n2 _ ht
    refine ⟨h.cls, h.iv, ?_⟩
    intro c hc
    cases hc
    exact ⟨fun h' => absurd h' n1, fun h' => absurd h' n2, fun _ => henc _ _⟩
  · exact h

theorem RestOk.data {o : Obj} (h : RestOk e o) {p : Obj} (h1 : p.cls = o.cls) (h2 : p.iv = o.iv)
    (h3 : p.keyData = o.keyData) (h4 : p.typ = o.typ) : RestOk e p :=
  ⟨by rw [h1]; exact h.cls, by rw [h2]; exact h.iv, by rw [h3, h4]; exact h.form⟩

theorem encodeObj_form {k : Bytes} (hk : StorageKey e k) (b : Bool) {o : Obj} (h : RestOk e o) :
    RestOk e (encodeObj e.store k b o).2 := by
  have h1 := encodeKey_form hk h
  unfold encodeObj
  dsimp only
  repeat' split
  · exact h
  · obtain ⟨d, q, hc, _⟩ := cleared_eq (encodeKey e.store k o).2
    rw [hc]
    exact h1.data rfl rfl rfl rfl
  · exact h1

theorem decodeObj_form (k : Bytes) {o : Obj} (h : RestOk e o) : RestOk e (decodeObj e.store k o).2 := by
  show RestOk e (decodeKey e.store k o).2
  unfold decodeKey decodeRsa decodeEcc decodeDh decodeSymm decoded
  repeat' split
  all_goals exact h.data rfl rfl rfl rfl

/-- The object on which the key is encoded when it is stored. -/
theorem storeObj_fresh (hr : RandLen e) {o : Obj} (h : RestOk e o) (r : Nat) :
    RestOk e (if needsIv o then { o with iv := e.store.rand r 12 } else o) := by
  split
  · exact ⟨h.cls, hr _ _, h.form⟩
  · exact h

theorem storeObj_enc {k : Bytes} (hk : StorageKey e k) {o : Obj} (h : RestOk e o) :
    RestOk e (if o.keyData.isNone then encodeKey e.store k o else (true, o)).2 := by
  split
  · exact encodeKey_form hk h
  · exact h

theorem storeObj_form (hr : RandLen e) {k : Bytes} (hk : StorageKey e k) (r i : Nat) {o : Obj} (h : RestOk e o) :
    RestOk e (storeObj e.store k r o i).obj := by
  have h1 := storeObj_fresh hr h r
  have h2 := storeObj_enc hk h1
  unfold storeObj
  dsimp only
  split
  · exact h1
  · split <;> exact h1
  · split
    · split <;> exact h2
    · exact h2

/-! ## Files -/

theorem keyFile_form {o : Obj} {f : StoreType} (hc : o.cls ≠ CKO_CERTIFICATE) (h : keyFile o = some f) (hf : f ∈ keyKinds) :
    o.typ ≠ CKK_DH ∧ ∀ c, KeyForm e o.typ c ↔ MayLie e f c := by
  unfold keyFile at h
  rw [if_neg hc] at h
  split at h
  · rename_i ht
    refine ⟨by rw [ht]; decide, fun c => ?_⟩
    unfold KeyForm
    rw [ht]
    split at h <;> cases h <;>
      exact ⟨fun h => h.1 rfl, fun h => ⟨fun _ => h, (fun h => by cases h), (fun h => by rcases h with h | h <;> cases h)⟩⟩
  split at h
  · rename_i ht
    refine ⟨by rw [ht]; decide, fun c => ?_⟩
    unfold KeyForm
    rw [ht]
    split at h <;> cases h <;>
      exact ⟨fun h => h.2.1 rfl, fun h => ⟨(fun h => by cases h), fun _ => h, (fun h => by rcases h with h | h <;> cases h)⟩⟩
  split at h
  · split at h <;> cases h <;> simp [keyKinds] at hf
  split at h
  · rename_i n1 n2 n3 ht
    cases h
    refine ⟨n3, fun c => ?_⟩
    unfold KeyForm
    exact ⟨fun h => h.2.2 ht, fun h => ⟨fun h' => absurd h' n1, fun h' => absurd h' n2, fun _ => h⟩⟩
  · cases h

theorem DiskOk.put {d : Disk} (h : DiskOk e d) {w : Write}
    (h1 : w.1.1 = .object → w.2 = [] ∨ ∃ o : Obj, o.cls % 2 ^ 64 ≠ CKO_CERTIFICATE ∧ o.iv.length = 12 ∧ w.2 = wrObject o)
    (h2 : w.1.1 ∈ keyKinds → w.2 = [] ∨ ∃ c, w.2 = wrArray c ∧ MayLie e w.1.1 c) : DiskOk e (d.put w) := by
  refine ⟨?_, ?_⟩
  · intro i b hb
    unfold Disk.put at hb
    split at hb
    · rename_i hf
      cases hb
      exact h1 (by rw [← hf])
    · exact h.obj i b hb
  · intro f hf i b hb
    unfold Disk.put at hb
    split at hb
    · rename_i hn
      cases hb
      have : w.1.1 = f := by rw [← hn]
      rw [← this] at hf ⊢
      exact h2 hf
    · exact h.key f hf i b hb

theorem notKind {f : StoreType} (h : f = .token ∨ f = .object ∨ f = .cert) : f ∉ keyKinds := by
  rcases h with rfl | rfl | rfl <;> simp [keyKinds]

theorem storeObj_disk (hr : RandLen e) {k : Bytes} (hk : StorageKey e k) (r i : Nat) {o : Obj} (h : RestOk e o) {d : Disk}
    (hd : DiskOk e d) : DiskOk e (d.puts (storeObj e.store k r o i).wr) := by
  have hw : DiskOk e (d.put ((.object, i), wrObject o)) :=
    hd.put (fun _ => .inr ⟨o, h.cls, h.iv, rfl⟩) (fun h => absurd h (notKind (.inr (.inl rfl))))
  have h2 := storeObj_enc hk (storeObj_fresh hr h r)
  have hview : ∀ p : Obj, (if p.keyData.isNone then encodeKey e.store k p else (true, p)).2.cls = p.cls ∧
      (if p.keyData.isNone then encodeKey e.store k p else (true, p)).2.typ = p.typ := by
    intro p
    split
    · unfold encodeKey encodeRsa encodeEcc encodeDh encodeSymm
      repeat' split
      all_goals exact ⟨rfl, rfl⟩
    · exact ⟨rfl, rfl⟩
  have hfr : (if needsIv o then { o with iv := e.store.rand r 12 } else o).cls = o.cls ∧
      (if needsIv o then { o with iv := e.store.rand r 12 } else o).typ = o.typ := by
    split <;> exact ⟨rfl, rfl⟩
  unfold storeObj
  dsimp only
  split
  · exact hw
  · rename_i hf
    unfold keyFile at hf
    rw [if_neg h.notCert] at hf
    exfalso
    repeat' split at hf
    all_goals cases hf
  · rename_i f _ hf
    generalize hp : (if needsIv o then { o with iv := e.store.rand r 12 } else o) = p at h2 hfr ⊢
    have hvp := hview p
    generalize hq : (if p.keyData.isNone then encodeKey e.store k p else (true, p)) = q at h2 hvp ⊢
    obtain ⟨b, q⟩ := q
    have hk' : f ∈ keyKinds → q.typ ≠ CKK_DH ∧ ∀ c, q.keyData = some c → MayLie e f c := by
      intro hm
      have hq1 : keyFile q = some f := by
        rw [← hf]
        exact keyFile_same (hvp.1.trans hfr.1) (hvp.2.trans hfr.2)
      have hform := keyFile_form (e := e) h2.notCert hq1 hm
      exact ⟨hform.1, fun c hc => (hform.2 c).mp (h2.form c hc)⟩
    have hne : f ≠ .object := (keyFile_ne hf).2
    dsimp only
    split
    · rename_i c hc
      split
      · rename_i t ht
        refine hw.put (fun hx => absurd hx hne) (fun hm => ?_)
        have hkd := hk' hm
        have ht0 : t = [] := by
          unfold keyTail at ht
          rw [if_neg hkd.1] at ht
          cases ht; rfl
        exact .inr ⟨c, by rw [ht0, List.append_nil], hkd.2 c hc⟩
      · exact hw.put (fun hx => absurd hx hne) (fun hm => .inr ⟨c, rfl, (hk' hm).2 c hc⟩)
    · exact hw.put (fun hx => absurd hx hne) (fun _ => .inl rfl)

theorem unstore_disk {o : Obj} {i : Nat} {d : Disk} (hd : DiskOk e d) : DiskOk e (d.puts (unstore o i)) := by
  unfold unstore
  split
  · exact (hd.put (w := ((.object, i), [])) (fun _ => .inl rfl) (fun _ => .inl rfl)).put (fun _ => .inl rfl) (fun _ => .inl rfl)
  · exact hd.put (fun _ => .inl rfl) (fun _ => .inl rfl)

/-! ## Loading -/

theorem MayLie.prefix {f : StoreType} (hf : f ∈ keyKinds) {c v : Bytes} (h : MayLie e f c) (hv : v <+: c) : MayLie e f v := by
  have h1 : Encrypted e c → Encrypted e v := fun ⟨k, iv, pt, hk, hc⟩ => ⟨k, iv, pt, hk, hv.trans hc⟩
  have h2 : PublicRsa e c → PublicRsa e v := by
    rintro (⟨k, d, hd, hc⟩ | ⟨n, hc⟩)
    · exact .inl ⟨k, d, hd, hv.trans hc⟩
    · exact .inr ⟨n, hv.trans hc⟩
  have h3 : PublicEc e c → PublicEc e v := by
    rintro (⟨k, d, hd, hc⟩ | ⟨n, hc⟩)
    · exact .inl ⟨k, d, hd, hv.trans hc⟩
    · exact .inr ⟨n, hv.trans hc⟩
  cases f <;> first | exact h1 h | exact Or.imp h1 h2 h | exact Or.imp h1 h3 h | trivial

theorem allocArray_prefix {c v rest : Bytes} (h : Rd.allocArray (wrArray c) = some (v, rest)) : v <+: c := by
  have hr : ReadsBack Rd.int (wrWord32 (BitVec.ofNat 32 c.length)) (BitVec.ofNat 32 c.length).toInt := by
    have := readsBack_int (c.length : Int)
    rwa [BitVec.ofInt_natCast] at this
  obtain ⟨len, b', h1, h2⟩ := rd_bind h
  have h3 := hr.1 c
  rw [show wrWord32 (BitVec.ofNat 32 c.length) ++ c = wrArray c from rfl, h1] at h3
  obtain ⟨rfl, rfl⟩ := Prod.mk.inj (Option.some.inj h3)
  split at h2
  · cases h2
  · unfold Rd.fixed at h2
    split at h2
    · cases h2
      exact List.take_prefix _ _
    · cases h2

theorem ofBytes_beBytes_mod (len n : Nat) : ofBytes (beBytes len n) = n % 256 ^ len := by
  induction len generalizing n with
  | zero => simp [beBytes, ofBytes, Nat.mod_one]
  | succ k ih =>
    have : (UInt8.ofNat (n % 256)).toNat = n % 256 := by
      rw [UInt8.toNat_ofNat']; omega
    rw [beBytes, ofBytes_append_one, ih, this, Nat.pow_succ, Nat.mul_comm (256 ^ k), Nat.mod_mul]
    omega

theorem rdObject_cls {p o o' : Obj} {rest : Bytes} (hi : p.iv.length = 12) (hc : p.cls % 2 ^ 64 ≠ CKO_CERTIFICATE)
    (h : rdObject o (wrObject p) = some (o', rest)) :
    o'.cls % 2 ^ 64 ≠ CKO_CERTIFICATE ∧ o'.iv.length = 12 ∧ o'.keyData = o.keyData ∧ o'.typ = o.typ := by
  unfold rdObject at h
  obtain ⟨iv, b1, e1, h⟩ := rd_bind h
  obtain ⟨hd, b2, e2, h⟩ := rd_bind h
  obtain ⟨cls, b3, e3, h⟩ := rd_bind h
  have hcls : cls % 2 ^ 64 ≠ CKO_CERTIFICATE := by
    have hw : wrObject p = p.iv ++ (wrUlong p.handle ++ (wrUlong p.cls ++ (wrUlong p.keyGenMech ++
        (wrBool p.onToken ++ (wrBool p.local' ++ (wrWord32 p.flag ++ (wrWord32 p.opFlag ++
        (p.startDate ++ (p.endDate ++ (wrArray p.keyId ++ wrArray p.label)))))))))) := by
      simp only [wrObject, List.append_assoc]
    have r1 : ∀ r, Rd.fixed 12 (p.iv ++ r) = some (p.iv, r) := by
      intro r; unfold Rd.fixed
      rw [if_pos (by rw [List.length_append]; omega), ← hi, List.take_left' rfl, List.drop_left' rfl]
    rw [hw, r1] at e1
    cases e1
    rw [(readsBack_ulong p.handle).1] at e2
    cases e2
    rw [(readsBack_ulong p.cls).1] at e3
    cases e3
    intro hx
    apply hc
    rw [← hx]
    have : ofBytes (beBytes 8 p.cls) = p.cls % 2 ^ 64 := by
      exact ofBytes_beBytes_mod 8 p.cls
    rw [this, Nat.mod_mod]
  obtain ⟨_, _, _, h⟩ := rd_bind h
  obtain ⟨_, _, _, h⟩ := rd_bind h
  obtain ⟨_, _, _, h⟩ := rd_bind h
  obtain ⟨_, _, _, h⟩ := rd_bind h
  obtain ⟨_, _, _, h⟩ := rd_bind h
  obtain ⟨_, _, _, h⟩ := rd_bind h
  obtain ⟨_, _, _, h⟩ := rd_bind h
  obtain ⟨_, _, _, h⟩ := rd_bind h
  obtain ⟨_, _, _, h⟩ := rd_bind h
  cases h
  exact ⟨hcls, fixed_length e1, rfl, rfl⟩

theorem loadObj_form {d : Disk} (hd : DiskOk e d) {u typ i : Nat} {o : Obj}
    (h : loadObj e.store d (newObj u typ) i = some o) : RestOk e o := by
  unfold loadObj at h
  obtain ⟨o1, h1, h⟩ := Option.bind_eq_some_iff.mp h
  unfold readFile at h1
  obtain ⟨b, hb, h1⟩ := Option.bind_eq_some_iff.mp h1
  obtain ⟨⟨p, rest⟩, h2, rfl⟩ := Option.map_eq_some_iff.mp h1
  dsimp only at h
  obtain ⟨hc, hi, hkd, hty⟩ : p.cls % 2 ^ 64 ≠ CKO_CERTIFICATE ∧ p.iv.length = 12 ∧ p.keyData = (newObj u typ).keyData ∧
      p.typ = (newObj u typ).typ := by
    rcases hd.obj i b hb with rfl | ⟨q, q1, q2, rfl⟩
    · cases h2
    · exact rdObject_cls q2 q1 h2
  have hncert : p.cls ≠ CKO_CERTIFICATE := by
    intro hx; exact hc (by rw [hx]; decide)
  split at h
  · cases h
  rename_i f hf
  split at h
  · rename_i hdh
    obtain ⟨r, _, h⟩ := Option.bind_eq_some_iff.mp h
    obtain ⟨pg, _, rfl⟩ := Option.map_eq_some_iff.mp h
    refine ⟨hc, hi, ?_⟩
    intro c _
    have ht : p.typ = CKK_DH := hdh.2
    unfold KeyForm
    show (p.typ = CKK_RSA → _) ∧ (p.typ = CKK_EC → _) ∧ (p.typ = CKK_AES ∨ p.typ = CKK_GENERIC_SECRET → _)
    rw [ht]
    exact ⟨(fun h => by cases h), (fun h => by cases h), (fun h => by rcases h with h | h <;> cases h)⟩
  · rename_i hndh
    obtain ⟨kd, hk, rfl⟩ := Option.map_eq_some_iff.mp h
    refine ⟨hc, hi, ?_⟩
    intro c hkc
    cases hkc
    show KeyForm e p.typ kd
    by_cases hm : f ∈ keyKinds
    · refine ((keyFile_form hncert hf hm).2 kd).mpr ?_
      unfold readFile at hk
      obtain ⟨b', hb', hk⟩ := Option.bind_eq_some_iff.mp hk
      obtain ⟨⟨v, rest'⟩, h3, rfl⟩ := Option.map_eq_some_iff.mp hk
      rcases hd.key f hm i b' hb' with rfl | ⟨c, rfl, hl⟩
      · cases h3
      · exact hl.prefix hm (allocArray_prefix h3)
    · -- a DH key
      exfalso
      have hf' := hf
      unfold keyFile at hf'
      rw [if_neg hncert] at hf'
      split at hf'
      · split at hf' <;> cases hf' <;> simp [keyKinds] at hm
      split at hf'
      · split at hf' <;> cases hf' <;> simp [keyKinds] at hm
      split at hf'
      · rename_i hdh
        exact hndh ⟨hncert, hdh⟩
      split at hf'
      · cases hf'; simp [keyKinds] at hm
      · cases hf'

/-! ## Attributes -/

/-- The class in the template is not that of certificates. -/
def ClassOk (t : List Entry) : Prop := ∀ en ∈ t, en.typ = .cls → leNat en.val % 2 ^ 64 ≠ CKO_CERTIFICATE

theorem setAttr_form {o : Obj} {en : Entry} (ht : en.typ = .cls → leNat en.val % 2 ^ 64 ≠ CKO_CERTIFICATE)
    (h : RestOk e o) : RestOk e (setAttr o en).2 := by
  have hrest := setAttr_rest o en
  refine ⟨?_, by rw [hrest.iv]; exact h.iv, by rw [hrest.keyData, hrest.typ]; exact h.form⟩
  by_cases hc : en.typ = .cls
  · have : (setAttr o en).2.cls = o.cls ∨ (setAttr o en).2.cls = leNat en.val := by
      unfold setAttr; rw [hc]; dsimp only; split <;> simp
    rcases this with h1 | h1
    · rw [h1]; exact h.cls
    · rw [h1]; exact ht hc
  · rw [setAttr_cls o en hc]; exact h.cls

theorem set_form {o : Obj} (b : Bool) {t : List Entry} (ht : ClassOk t) (h : RestOk e o) :
    RestOk e (setAttributeValue e.key b o t).2 := by
  refine setAttributeValue_inv (P := RestOk e) _ _ _ _ ?_ (fun p en hen hp => setAttr_form (ht en hen) hp) h
  intro p v hp
  obtain ⟨d, s, h⟩ := setKey_frame e.key p v
  rw [h]
  exact hp.data rfl rfl rfl rfl

theorem ulong_mod (n : Nat) : leNat (ulong n) = n % 2 ^ 64 := leNat_leBytes 8 n

/-- What is read into a template has the class of the object. -/
theorem getEntries_class {o : Obj} (h : RestOk e o) {t : List Entry} (hr : (getEntries e.key o t).1 = .ok) :
    ClassOk (getEntries e.key o t).2 := by
  induction t with
  | nil => intro en hen; cases hen
  | cons a t ih =>
    simp only [getEntries] at hr ⊢
    split at hr
    · rename_i ha
      rw [if_pos ha]
      intro en hen hty
      rcases List.mem_cons.mp hen with rfl | hen
      · have hta : a.typ = .cls := by
          unfold getEntry at hty
          dsimp only at hty
          split at hty <;> exact hty
        have hv : (getEntry e.key o a).2.val = [] ∨ (getEntry e.key o a).2.val = ulong o.cls := by
          unfold getEntry at ha ⊢
          rw [hta] at ha ⊢
          dsimp only [getAttr] at ha ⊢
          unfold getData at ha ⊢
          cases hm : a.mem with
          | none => left; simp [Entry.val]
          | some m =>
            rw [hm] at ha
            right
            simp only [Option.isSome_some, Bool.not_true, Bool.false_eq_true, if_false] at ha ⊢
            by_cases hl : a.len < (ulong o.cls).length
            · simp only [if_pos hl] at ha; cases ha
            · simp only [if_neg hl]
              simp [Entry.val]
        rcases hv with hv | hv <;> rw [hv]
        · decide
        · rw [ulong_mod, Nat.mod_mod]; exact h.cls
      · exact ih hr en hen hty
    · rename_i ha
      exact absurd hr ha

theorem copy_form {o : Obj} (h : RestOk e o) {t : List Entry} (hr : (getAttributeValue e.key o t).1 = .ok) :
    RestOk e (setAttributeValue e.key true (newObj 0 o.typ) (getAttributeValue e.key o t).2).2 := by
  refine set_form _ ?_ ⟨by show 0 % 2 ^ 64 ≠ _; decide, rfl, fun c hc => by cases hc⟩
  unfold getAttributeValue at hr ⊢
  dsimp only at hr ⊢
  split at hr
  · rename_i hc; exact absurd hr hc
  · rename_i hc; rw [if_neg hc]; exact getEntries_class h hr

/-! ## Key generation -/

/-- What `RestOk` speaks of. -/
def Obj.rest (o : Obj) : Nat × Bytes × Option Bytes × Nat := (o.cls, o.iv, o.keyData, o.typ)

theorem RestOk.of {o p : Obj} (h : RestOk e o) (hp : p.rest = o.rest) : RestOk e p := by
  obtain ⟨h1, hp⟩ := Prod.mk.inj hp
  obtain ⟨h2, hp⟩ := Prod.mk.inj hp
  obtain ⟨h3, h4⟩ := Prod.mk.inj hp
  exact h.data h1 h2 h3 h4

theorem pairGen_rest {rng : Nat} {m : Mech} {typ : Nat} {gen : Obj → Obj → IRet × Obj × Obj}
    (h : pairGen e rng m = some (typ, gen)) {a b a' b' : Obj} {r : IRet} (hg : gen a b = (r, a', b')) :
    a'.rest = a.rest ∧ b'.rest = b.rest := by
  unfold pairGen at h
  split at h
  · obtain ⟨_, rfl⟩ := Prod.mk.inj (Option.some.inj h)
    unfold rsaGenerate at hg
    dsimp only at hg
    repeat' split at hg
    all_goals obtain ⟨_, hh⟩ := Prod.mk.inj hg; obtain ⟨rfl, rfl⟩ := Prod.mk.inj hh; exact ⟨rfl, rfl⟩
  · obtain ⟨_, rfl⟩ := Prod.mk.inj (Option.some.inj h)
    unfold ecGenerate at hg
    repeat' split at hg
    all_goals obtain ⟨_, hh⟩ := Prod.mk.inj hg; obtain ⟨rfl, rfl⟩ := Prod.mk.inj hh; exact ⟨rfl, rfl⟩
  · obtain ⟨_, rfl⟩ := Prod.mk.inj (Option.some.inj h)
    unfold dhGenerate at hg
    dsimp only at hg
    repeat' split at hg
    all_goals obtain ⟨_, hh⟩ := Prod.mk.inj hg; obtain ⟨rfl, rfl⟩ := Prod.mk.inj hh; exact ⟨rfl, rfl⟩
  · cases h

theorem deriveTail_rest {x : KeyExt} {o o' : Obj} {b : Bytes} (h : (deriveTail x o b).obj = some o') :
    o'.rest = o.rest := by
  have hs : ∀ v, (setSecretKey o v).2.rest = o.rest := by
    intro v
    unfold setSecretKey
    repeat' split
    all_goals rfl
  unfold deriveTail at h
  split at h
  · cases h
  dsimp only at h
  split at h
  · cases h
  split at h
  · rename_i heq
    cases h
    have := hs (fun a => if a = .value then some (b.drop (b.length - ‹Nat›)) else none)
    rw [heq] at this
    exact this
  · cases h
  · cases h

theorem templClass_form {t : List Entry} (ht : ClassOk t) {cls : Nat} (h : templClass t = .ok cls) :
    cls % 2 ^ 64 ≠ CKO_CERTIFICATE := by
  unfold templClass at h
  split at h
  · cases h; decide
  · rename_i en hen
    split at h
    · cases h
    split at h
    · cases h
    cases h
    have hm := List.mem_of_find?_eq_some hen
    have hty := List.find?_some hen
    exact ht en (List.mem_reverse.mp hm) (by simpa using hty)

theorem restOk_closed (hr : RandLen e) : Closed e (RestOk e) (StorageKey e) (DiskOk e) ClassOk ClassOk where
  name := fun _ _ _ _ h => h.data rfl rfl rfl rfl
  new := by
    intro typ cls b t _ ht h _
    refine set_form b ht ⟨?_, rfl, fun c hc => by cases hc⟩
    show cls % 2 ^ 64 ≠ CKO_CERTIFICATE
    rcases h with rfl | rfl | rfl | h
    · decide
    · decide
    · decide
    · exact templClass_form ht h
  set := fun _ b _ ht h => set_form b ht h
  copy := fun _ _ h ht _ => copy_form h ht
  enc := fun _ _ b hk h => encodeObj_form hk b h
  dec := fun _ k h => decodeObj_form k h
  sto := fun _ _ r i hk h => storeObj_form hr hk r i h
  symm := fun _ _ _ _ h => h.data rfl rfl rfl rfl
  rsa := fun _ _ _ _ _ h _ => h.data rfl rfl rfl rfl
  pair := fun _ _ _ _ _ _ _ _ hp hg _ _ _ _ ha hb => ⟨ha.of (pairGen_rest hp hg).1, hb.of (pairGen_rest hp hg).2⟩
  der := fun _ _ _ _ h hd => h.of (deriveTail_rest hd)
  load := fun _ _ _ _ _ _ hd h => loadObj_form hd h
  key0 := .inl rfl
  keyH := by
    intro pin seed h
    have h : (decide (pin.length ≥ 4) && decide (pin.length ≤ 32)) = true := h
    rw [Bool.and_eq_true] at h
    exact .inr ⟨pin, seed, of_decide_eq_true h.1, of_decide_eq_true h.2, rfl⟩
  tokFile := fun _ _ hd => hd.put (fun h => by cases h) (fun h => absurd h (by simp [keyKinds]))
  objFile := fun _ _ _ r i hk h hd => storeObj_disk hr hk r i h hd
  delFile := fun _ _ _ _ hd => unstore_disk hd

end Verif
