import Verif.Proofs.AtRest2
import Verif.Proofs.Typed
import Verif.Spec.Safe

/-!
# Keys fit their arrays
-/

namespace Verif

variable {e : Env}

/-- Longest encoded key, by the kind of the file: DH public keys are stored as they are,
the others encrypted with a tag of 16 bytes. -/
def Room : StoreType → Nat → Prop
  | .dhPub, n => n ≤ 512
  | .dhPriv, n | .symmKey, n => n ≤ 528
  | _, _ => True

/-- Key and encoded key fit the arrays of the object. -/
structure Small (o : Obj) : Prop where
  symm : o.symm.length ≤ 512
  dh : o.dh.key.length ≤ 512
  cls : o.cls < 2 ^ 64
  enc : ∀ f, keyFile o = some f → ∀ c, o.keyData = some c → Room f c.length

/-- The encoded keys in the files fit. -/
def SmallDisk (d : Disk) : Prop :=
  ∀ f i b, f ≠ .token → f ≠ .object → f ≠ .cert → d (f, i) = some b → b = [] ∨ ∃ c r, b = wrArray c ++ r ∧ Room f c.length

theorem Room.mono {f : StoreType} {n m : Nat} (h : Room f n) (hm : m ≤ n) : Room f m := by
  cases f <;> first | exact Nat.le_trans hm h | trivial

theorem Small.same {o p : Obj} (h : Small o) (h0 : p.data = o.data) (h1 : p.cls = o.cls) (h2 : p.typ = o.typ)
    (h3 : p.keyData = o.keyData) : Small p := by
  refine ⟨?_, ?_, ?_, ?_⟩
  · have : p.symm = o.symm := by unfold Obj.symm; rw [h0]
    rw [this]; exact h.symm
  · have : p.dh = o.dh := by unfold Obj.dh; rw [h0]
    rw [this]; exact h.dh
  · rw [h1]; exact h.cls
  · intro f hk c hc
    rw [keyFile_same h1 h2] at hk
    rw [h3] at hc
    exact h.enc f hk c hc

theorem Small.data {o p : Obj} (h : Small o) (hs : p.symm.length ≤ 512) (hd : p.dh.key.length ≤ 512) (h1 : p.cls = o.cls)
    (h2 : p.typ = o.typ) (h3 : p.keyData = o.keyData) : Small p := by
  refine ⟨hs, hd, by rw [h1]; exact h.cls, ?_⟩
  intro f hk c hc
  rw [keyFile_same h1 h2] at hk
  rw [h3] at hc
  exact h.enc f hk c hc

theorem Small.none {o : Obj} (h : o.keyData = none) (hs : o.symm.length ≤ 512) (hd : o.dh.key.length ≤ 512)
    (hc : o.cls < 2 ^ 64) : Small o :=
  ⟨hs, hd, hc, fun f _ c hc => by rw [h] at hc; cases hc⟩

theorem encodeKey_same (x : StoreExt) (k : Bytes) (o : Obj) :
    (encodeKey x k o).2.cls = o.cls ∧ (encodeKey x k o).2.typ = o.typ ∧ (encodeKey x k o).2.data = o.data := by
  unfold encodeKey encodeRsa encodeEcc encodeDh encodeSymm
  repeat' split
  all_goals exact ⟨rfl, rfl, rfl⟩

theorem encodeKey_small (hl : SealLen e) (k : Bytes) {o : Obj} (h : Small o) (hc : o.cls ≠ CKO_CERTIFICATE) :
    Small (encodeKey e.store k o).2 := by
  obtain ⟨s1, s2, s3⟩ := encodeKey_same e.store k o
  refine ⟨?_, ?_, by rw [s1]; exact h.cls, ?_⟩
  · have : (encodeKey e.store k o).2.symm = o.symm := by unfold Obj.symm; rw [s3]
    rw [this]; exact h.symm
  · have : (encodeKey e.store k o).2.dh = o.dh := by unfold Obj.dh; rw [s3]
    rw [this]; exact h.dh
  · intro f hf c hk
    rw [keyFile_same s1 s2] at hf
    unfold keyFile at hf
    rw [if_neg hc] at hf
    unfold encodeKey at hk
    split at hf
    · cases hf; split <;> trivial
    rename_i n1
    rw [if_neg n1] at hk
    split at hf
    · cases hf; split <;> trivial
    rename_i n2
    rw [if_neg n2] at hk
    split at hf
    · rename_i hd
      rw [if_pos hd] at hk
      simp only [encodeDh] at hk
      cases hf
      have hdh := h.dh
      split at hk
      · rename_i hp
        rw [if_pos hp]
        cases hk
        have := hl.enc k o.iv o.dh.key
        show _ ≤ 528
        omega
      · rename_i hp
        rw [if_neg hp]
        cases hk
        exact hdh
    rename_i n3
    rw [if_neg n3] at hk
    split at hf
    · rename_i hd
      rw [if_pos hd] at hk
      cases hf
      simp only [encodeSymm] at hk
      cases hk
      have := hl.enc k o.iv o.symm
      have := h.symm
      show _ ≤ 528
      omega
    · cases hf

theorem cleared_small {o : Obj} (h : Small o) : Small (cleared o) := by
  unfold cleared
  repeat' split
  all_goals first
    | exact h
    | (refine h.data ?_ ?_ rfl rfl rfl <;>
        first
        | (show List.length (List.replicate _ _) ≤ _; rw [List.length_replicate]; first | exact h.symm | exact h.dh)
        | (show List.length [] ≤ _; exact Nat.zero_le _))

theorem encodeObj_small (hl : SealLen e) (k : Bytes) (b : Bool) {o : Obj} (h : Small o) :
    Small (encodeObj e.store k b o).2 := by
  unfold encodeObj
  dsimp only
  split
  · exact h
  rename_i hc
  have h1 := encodeKey_small hl k h hc
  split
  · exact cleared_small h1
  · exact h1

theorem unseal_len (hl : SealLen e) {k : Bytes} {o : Obj} {pt d : Bytes} (hk : o.keyData = some d)
    (h : unsealData e.store k o = (.ok, pt)) : pt.length + 16 ≤ d.length := by
  unfold unsealData at h
  rw [hk] at h
  dsimp only at h
  split at h
  · cases h
  split at h
  · cases h
  · rename_i hd
    cases h
    exact hl.dec _ _ _ _ hd

/-- Decoding never leaves the arrays, and what it leaves is small again. -/
theorem decodeKey_small (hl : SealLen e) (k : Bytes) {o : Obj} (h : Small o) :
    (decodeKey e.store k o).1 ≠ .ub ∧ Small (decodeKey e.store k o).2 := by
  have hsz : ∀ pt f, unsealData e.store k o = (.ok, pt) → keyFile o = some f → (f = .dhPriv ∨ f = .symmKey) → pt.length ≤ 512 := by
    intro pt f hu hf hor
    cases hk : o.keyData with
    | none => unfold unsealData at hu; rw [hk] at hu; cases hu
    | some d =>
      have h1 := unseal_len hl hk hu
      have h2 := h.enc f hf d hk
      rcases hor with rfl | rfl <;> (have h2 : d.length ≤ 528 := h2; omega)
  have hne : ∀ r pt, unsealData e.store k o = (r, pt) → r ≠ .ub := by
    intro r pt hu
    unfold unsealData at hu
    split at hu
    · cases hu; exact fun h => by cases h
    · split at hu
      · cases hu; exact fun h => by cases h
      · split at hu <;> (cases hu; exact fun h => by cases h)
  unfold decodeKey
  split
  · exact ⟨(fun h => by cases h), h.same rfl rfl rfl rfl⟩
  rename_i hc
  have z : ([] : Bytes).length ≤ 512 := Nat.zero_le _
  split
  · unfold decodeRsa decoded
    split
    · split
      · split
        · exact ⟨(fun h => by cases h), h.data z z rfl rfl rfl⟩
        · exact ⟨(fun h => by cases h), h.same rfl rfl rfl rfl⟩
      · rename_i hu; exact ⟨hne _ _ hu, h.same rfl rfl rfl rfl⟩
    · split
      · exact ⟨(fun h => by cases h), h.data z z rfl rfl rfl⟩
      · exact ⟨(fun h => by cases h), h.same rfl rfl rfl rfl⟩
  split
  · unfold decodeEcc decoded
    split
    · split
      · split
        · exact ⟨(fun h => by cases h), h.data z z rfl rfl rfl⟩
        · exact ⟨(fun h => by cases h), h.data z z rfl rfl rfl⟩
      · rename_i hu; exact ⟨hne _ _ hu, h.same rfl rfl rfl rfl⟩
    · split
      · exact ⟨(fun h => by cases h), h.data z z rfl rfl rfl⟩
      · exact ⟨(fun h => by cases h), h.same rfl rfl rfl rfl⟩
  rename_i n1 n2
  split
  · rename_i hd
    have hf : keyFile o = some (if o.cls = CKO_PRIVATE_KEY then .dhPriv else .dhPub) := by
      unfold keyFile
      rw [if_neg hc, if_neg n1, if_neg n2, if_pos hd]
    unfold decodeDh decoded
    split
    · rename_i hp
      rw [if_pos hp] at hf
      split
      · rename_i pt hu
        have := hsz _ _ hu hf (.inl rfl)
        split
        · rename_i hgt; exact absurd this (Nat.not_le_of_lt hgt)
        · exact ⟨(fun h => by cases h), h.data z this rfl rfl rfl⟩
      · rename_i hu; exact ⟨hne _ _ hu, h.same rfl rfl rfl rfl⟩
    · rename_i hp
      rw [if_neg hp] at hf
      split
      · exact ⟨(fun h => by cases h), h.data z z rfl rfl rfl⟩
      · rename_i d hk
        have : d.length ≤ 512 := h.enc _ hf d hk
        split
        · rename_i hgt; exact absurd this (Nat.not_le_of_lt hgt)
        · exact ⟨(fun h => by cases h), h.data z this rfl rfl rfl⟩
  rename_i n3
  split
  · rename_i hd
    have hf : keyFile o = some .symmKey := by
      unfold keyFile
      rw [if_neg hc, if_neg n1, if_neg n2, if_neg n3, if_pos hd]
    unfold decodeSymm decoded
    split
    · rename_i pt hu
      have := hsz _ _ hu hf (.inr rfl)
      split
      · rename_i hgt; exact absurd this (Nat.not_le_of_lt hgt)
      · exact ⟨(fun h => by cases h), h.data this z rfl rfl rfl⟩
    · rename_i hu; exact ⟨hne _ _ hu, h.same rfl rfl rfl rfl⟩
  · exact ⟨(fun h => by cases h), h⟩

theorem fresh_small {o : Obj} (h : Small o) (r : Nat) : Small (if needsIv o then { o with iv := e.store.rand r 12 } else o) := by
  split
  · exact h.same rfl rfl rfl rfl
  · exact h

theorem enc_small (hl : SealLen e) (k : Bytes) {o : Obj} (h : Small o) (hc : o.cls ≠ CKO_CERTIFICATE) :
    Small (if o.keyData.isNone then encodeKey e.store k o else (true, o)).2 := by
  split
  · exact encodeKey_small hl k h hc
  · exact h

theorem fresh_cls (o : Obj) (iv : Bytes) : (if needsIv o then { o with iv := iv } else o).cls = o.cls ∧
    (if needsIv o then { o with iv := iv } else o).typ = o.typ := by
  split <;> exact ⟨rfl, rfl⟩

theorem keyFile_cert {o : Obj} {f : StoreType} (h : keyFile o = some f) (hf : f ≠ .cert) : o.cls ≠ CKO_CERTIFICATE := by
  intro hc
  unfold keyFile at h
  rw [if_pos hc] at h
  cases h; exact hf rfl

theorem storeObj_small (hl : SealLen e) (k : Bytes) (r i : Nat) {o : Obj} (h : Small o) :
    Small (storeObj e.store k r o i).obj := by
  have h1 := fresh_small (e := e) h r
  unfold storeObj
  dsimp only
  split
  · exact h1
  · split <;> exact h1
  · rename_i f hcert hf
    have h2 := enc_small hl k h1 (by rw [(fresh_cls o _).1]; exact keyFile_cert hf hcert)
    split
    · split <;> exact h2
    · exact h2

theorem SmallDisk.put {d : Disk} (h : SmallDisk d) {w : Write}
    (h2 : w.1.1 ≠ .token → w.1.1 ≠ .object → w.1.1 ≠ .cert → w.2 = [] ∨ ∃ c r, w.2 = wrArray c ++ r ∧ Room w.1.1 c.length) :
    SmallDisk (d.put w) := by
  intro f i b f1 f2 f3 hb
  unfold Disk.put at hb
  split at hb
  · rename_i hn
    cases hb
    have : w.1.1 = f := by rw [← hn]
    rw [← this] at f1 f2 f3 ⊢
    exact h2 f1 f2 f3
  · exact h f i b f1 f2 f3 hb

theorem storeObj_smallDisk (hl : SealLen e) (k : Bytes) (r i : Nat) {o : Obj} (h : Small o) {d : Disk}
    (hd : SmallDisk d) : SmallDisk (d.puts (storeObj e.store k r o i).wr) := by
  have hw : SmallDisk (d.put ((.object, i), wrObject o)) := hd.put (fun _ h => absurd rfl h)
  have h1 := fresh_small (e := e) h r
  have hview : ∀ p : Obj, (if p.keyData.isNone then encodeKey e.store k p else (true, p)).2.cls = p.cls ∧
      (if p.keyData.isNone then encodeKey e.store k p else (true, p)).2.typ = p.typ := by
    intro p
    split
    · exact ⟨(encodeKey_same ..).1, (encodeKey_same ..).2.1⟩
    · exact ⟨rfl, rfl⟩
  have hfr := fresh_cls o (e.store.rand r 12)
  unfold storeObj
  dsimp only
  split
  · exact hw
  · split
    · exact hw
    · exact hw.put (fun _ _ h => absurd rfl h)
  · rename_i f hcert hf
    have h2 := enc_small hl k h1 (by rw [hfr.1]; exact keyFile_cert hf hcert)
    generalize hp : (if needsIv o then { o with iv := e.store.rand r 12 } else o) = p at h2 hfr ⊢
    have hvp := hview p
    generalize hq : (if p.keyData.isNone then encodeKey e.store k p else (true, p)) = q at h2 hvp ⊢
    obtain ⟨b, q⟩ := q
    have hq1 : keyFile q = some f := by
      rw [← hf]
      exact keyFile_same (hvp.1.trans hfr.1) (hvp.2.trans hfr.2)
    dsimp only
    split
    · rename_i c hc
      split
      · exact hw.put (fun _ _ _ => .inr ⟨c, _, rfl, h2.enc f hq1 c hc⟩)
      · exact hw.put (fun _ _ _ => .inr ⟨c, [], by rw [List.append_nil], h2.enc f hq1 c hc⟩)
    · exact hw.put (fun _ _ _ => .inl rfl)

theorem unstore_smallDisk {o : Obj} {i : Nat} {d : Disk} (hd : SmallDisk d) : SmallDisk (d.puts (unstore o i)) := by
  unfold unstore
  split
  · exact (hd.put (w := ((.object, i), [])) (fun _ _ _ => .inl rfl)).put (fun _ _ _ => .inl rfl)
  · exact hd.put (fun _ _ _ => .inl rfl)

theorem rd_ulong {b rest : Bytes} {n : Nat} (h : Rd.ulong b = some (n, rest)) : n < 2 ^ 64 := by
  unfold Rd.ulong at h
  split at h
  · cases h
  · rename_i v r hv
    cases h
    have := ofBytes_lt v
    rw [rd_fixed hv] at this
    exact this

theorem rdObject_cls_lt {o o' : Obj} {b rest : Bytes} (h : rdObject o b = some (o', rest)) : o'.cls < 2 ^ 64 := by
  unfold rdObject at h
  obtain ⟨_, _, _, h⟩ := rd_bind h
  obtain ⟨_, _, _, h⟩ := rd_bind h
  obtain ⟨_, _, h1, h⟩ := rd_bind h
  obtain ⟨_, _, _, h⟩ := rd_bind h
  obtain ⟨_, _, _, h⟩ := rd_bind h
  obtain ⟨_, _, _, h⟩ := rd_bind h
  obtain ⟨_, _, _, h⟩ := rd_bind h
  obtain ⟨_, _, _, h⟩ := rd_bind h
  obtain ⟨_, _, _, h⟩ := rd_bind h
  obtain ⟨_, _, _, h⟩ := rd_bind h
  obtain ⟨_, _, _, h⟩ := rd_bind h
  obtain ⟨_, _, _, h⟩ := rd_bind h
  cases h
  exact rd_ulong h1

theorem loadObj_small {d : Disk} (hd : SmallDisk d) {u typ i : Nat} {o : Obj}
    (h : loadObj e.store d (newObj u typ) i = some o) : Small o := by
  unfold loadObj at h
  obtain ⟨p, hp, h⟩ := Option.bind_eq_some_iff.mp h
  have hdata : p.data = .none := by
    unfold readFile at hp
    obtain ⟨b, _, hp⟩ := Option.bind_eq_some_iff.mp hp
    obtain ⟨⟨v, x⟩, h3, rfl⟩ := Option.map_eq_some_iff.mp hp
    exact rdObject_data h3
  have hcls : p.cls < 2 ^ 64 := by
    unfold readFile at hp
    obtain ⟨b, _, hp⟩ := Option.bind_eq_some_iff.mp hp
    obtain ⟨⟨v, x⟩, h3, rfl⟩ := Option.map_eq_some_iff.mp hp
    exact rdObject_cls_lt h3
  have z : ([] : Bytes).length ≤ 512 := Nat.zero_le _
  have hsy : p.symm = [] := by unfold Obj.symm; rw [hdata]
  have hdh : p.dh.key = [] := by unfold Obj.dh; rw [hdata]
  split at h
  · cases h
  rename_i f hf
  have hne := keyFile_ne hf
  have hroom : ∀ {α : Type} (r : Rd α) (z : α) (kd : Bytes), readFile d (f, i) r = some z →
      (∀ b x, r b = some (z, x) → ∃ y, Rd.allocArray b = some (kd, y)) → Room f kd.length := by
    intro α r z kd hz hr
    unfold readFile at hz
    obtain ⟨b, hb, hz⟩ := Option.bind_eq_some_iff.mp hz
    obtain ⟨⟨v, x⟩, h3, rfl⟩ := Option.map_eq_some_iff.mp hz
    obtain ⟨y, hy⟩ := hr b x h3
    by_cases hcert : f = .cert
    · subst hcert; trivial
    · rcases hd f i b hne.1 hne.2 hcert hb with rfl | ⟨c, t, rfl, hl⟩
      · cases hy
      · exact hl.mono (allocArray_prefix' hy).length_le
  split at h
  · obtain ⟨r, hr, h⟩ := Option.bind_eq_some_iff.mp h
    obtain ⟨pg, _, rfl⟩ := Option.map_eq_some_iff.mp h
    refine ⟨z, by show p.dh.key.length ≤ 512; rw [hdh]; exact z, hcls, ?_⟩
    intro f' hk c' hc'
    cases hc'
    have hff : f' = f := by
      have : keyFile p = some f' := by rw [← hk]; exact (keyFile_same rfl rfl).symm
      rw [hf] at this; cases this; rfl
    subst hff
    refine hroom rdDhFile r _ hr (fun b x h3 => ?_)
    unfold rdDhFile at h3
    obtain ⟨kd, b', h4, h5⟩ := rd_bind h3
    obtain ⟨der, b'', _, h6⟩ := rd_bind h5
    cases h6
    exact ⟨_, h4⟩
  · obtain ⟨kd, hkd, rfl⟩ := Option.map_eq_some_iff.mp h
    refine ⟨by show p.symm.length ≤ 512; rw [hsy]; exact z, by show p.dh.key.length ≤ 512; rw [hdh]; exact z, hcls, ?_⟩
    intro f' hk c' hc'
    cases hc'
    have hff : f' = f := by
      have : keyFile p = some f' := by rw [← hk]; exact (keyFile_same rfl rfl).symm
      rw [hf] at this; cases this; rfl
    subst hff
    exact hroom Rd.allocArray kd _ hkd (fun b x h3 => ⟨x, h3⟩)

end Verif
