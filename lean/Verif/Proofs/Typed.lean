import Verif.Proofs.Dates
import Verif.Spec.Typed

/-!
# The value of every object is of the kind its class and type say
-/

namespace Verif

variable {e : Env}

/-- `Typed` depends on the value, the type and whether the class is that of certificates. -/
theorem Obj.Typed.of {o o' : Obj} (h : o.Typed) (h1 : o'.data = o.data) (h2 : o'.typ = o.typ)
    (h3 : o'.cls = CKO_CERTIFICATE ↔ o.cls = CKO_CERTIFICATE) : o'.Typed := by
  unfold Obj.Typed at *
  rw [h1, h2]
  cases hd : o.data <;> simp only [hd, h3, ne_eq] at h ⊢ <;> exact h

theorem setAttr_typed {o : Obj} (en : Entry) (h : o.Typed) : (setAttr o en).2.Typed := by
  have hr := setAttr_rest o en
  refine h.of hr.data hr.typ ?_
  by_cases hc : en.typ = .cls
  · unfold setAttr
    rw [hc]
    dsimp only
    split
    · rfl
    · rename_i hn
      show leNat en.val = CKO_CERTIFICATE ↔ _
      simp only [reinterprets, bne_iff_ne, ne_eq, Decidable.not_not] at hn
      rw [← beq_iff_eq (a := leNat en.val), ← hn, beq_iff_eq]
  · rw [setAttr_cls o en hc]

theorem setSecretKey_typed {o : Obj} (v : CKA → Option Bytes) (hc : o.cls ≠ CKO_CERTIFICATE) (h1 : o.typ ≠ CKK_RSA)
    (h2 : o.typ ≠ CKK_EC) (h3 : o.typ ≠ CKK_DH) : (setSecretKey o v).2.Typed := by
  unfold setSecretKey
  repeat' split
  all_goals exact ⟨hc, h1, h2, h3⟩

theorem setKey_typed (x : KeyExt) {o : Obj} (v : CKA → Option Bytes) (h : o.Typed) : (setKey x o v).2.Typed := by
  unfold setKey
  split
  · rename_i hc
    unfold setCert
    dsimp only
    repeat' split
    all_goals first | exact hc | exact h
  rename_i hc
  split
  · rename_i ht
    unfold setRsaKey
    dsimp only
    repeat' split
    all_goals exact ⟨hc, ht⟩
  rename_i h1
  split
  · rename_i ht
    unfold setEcKey
    dsimp only
    split
    all_goals exact ⟨hc, ht⟩
  rename_i h2
  split
  · rename_i ht
    unfold setDhKey
    dsimp only
    repeat' split
    all_goals exact ⟨hc, ht⟩
  rename_i h3
  exact setSecretKey_typed v hc h1 h2 h3

theorem encodeKey_typed (x : StoreExt) (k : Bytes) {o : Obj} (h : o.Typed) : (encodeKey x k o).2.Typed := by
  refine h.of ?_ ?_ ?_ <;>
  · unfold encodeKey
    repeat' split
    all_goals rfl

theorem cleared_typed {o : Obj} (hc : o.cls ≠ CKO_CERTIFICATE) (h : o.Typed) : (cleared o).Typed := by
  unfold cleared
  split
  · rename_i ht
    split
    · exact ⟨hc, ht⟩
    · exact h
  rename_i h1
  split
  · rename_i ht
    split
    · exact ⟨hc, ht⟩
    · exact h
  rename_i h2
  split
  · rename_i ht
    split
    · exact ⟨hc, ht⟩
    · exact h
  rename_i h3
  exact ⟨hc, h1, h2, h3⟩

theorem encodeObj_typed (x : StoreExt) (k : Bytes) (b : Bool) {o : Obj} (h : o.Typed) : (encodeObj x k b o).2.Typed := by
  unfold encodeObj
  split
  · exact h
  · rename_i hc
    dsimp only
    split
    · refine cleared_typed ?_ (encodeKey_typed x k h)
      unfold encodeKey
      repeat' split
      all_goals exact hc
    · exact encodeKey_typed x k h

theorem decodeObj_typed (x : StoreExt) (k : Bytes) {o : Obj} (h : o.Typed) : (decodeObj x k o).2.Typed := by
  show (decodeKey x k o).2.Typed
  unfold decodeKey
  split
  · exact h
  rename_i hc
  split
  · rename_i ht
    unfold decodeRsa decoded
    repeat' split
    all_goals first | exact h | exact ⟨hc, ht⟩
  rename_i h1
  split
  · rename_i ht
    unfold decodeEcc decoded
    repeat' split
    all_goals first | exact h | exact ⟨hc, ht⟩
  rename_i h2
  split
  · rename_i ht
    unfold decodeDh decoded
    repeat' split
    all_goals first | exact h | exact ⟨hc, ht⟩
  rename_i h3
  unfold decodeSymm decoded
  repeat' split
  all_goals first | exact h | exact ⟨hc, h1, h2, h3⟩

theorem storeObj_typed (x : StoreExt) (k : Bytes) (r : Nat) {o : Obj} (i : Nat) (h : o.Typed) :
    (storeObj x k r o i).obj.Typed := by
  have h1 : (if needsIv o then { o with iv := x.rand r 12 } else o : Obj).Typed := by split <;> exact h
  unfold storeObj
  dsimp only
  generalize (if needsIv o then { o with iv := x.rand r 12 } else o : Obj) = o1 at h1
  have h2 : (if o1.keyData.isNone then encodeKey x k o1 else (true, o1)).2.Typed := by
    split
    · exact encodeKey_typed x k h1
    · exact h1
  generalize (if o1.keyData.isNone then encodeKey x k o1 else (true, o1)) = p at h2
  repeat' split
  all_goals first | exact h1 | exact h2

theorem pairGen_typed {rng : Nat} {m : Mech} {typ : Nat} {gen : Obj → Obj → IRet × Obj × Obj}
    (h : pairGen e rng m = some (typ, gen)) {a b a' b' : Obj} {r : IRet} (hg : gen a b = (r, a', b'))
    (h1 : a.typ = typ) (h2 : a.cls ≠ CKO_CERTIFICATE) (h3 : b.typ = typ) (h4 : b.cls ≠ CKO_CERTIFICATE)
    (ha : a.Typed) (hb : b.Typed) : a'.Typed ∧ b'.Typed := by
  unfold pairGen at h
  split at h
  · obtain ⟨rfl, rfl⟩ := Prod.mk.inj (Option.some.inj h)
    unfold rsaGenerate at hg
    dsimp only at hg
    repeat' split at hg
    all_goals
      obtain ⟨_, hh⟩ := Prod.mk.inj hg; obtain ⟨rfl, rfl⟩ := Prod.mk.inj hh
      refine ⟨?_, ?_⟩ <;> first | exact ha | exact hb | exact ⟨h2, h1⟩ | exact ⟨h4, h3⟩
  · obtain ⟨rfl, rfl⟩ := Prod.mk.inj (Option.some.inj h)
    unfold ecGenerate at hg
    repeat' split at hg
    all_goals
      obtain ⟨_, hh⟩ := Prod.mk.inj hg; obtain ⟨rfl, rfl⟩ := Prod.mk.inj hh
      refine ⟨?_, ?_⟩ <;> first | exact ha | exact hb | exact ⟨h2, h1⟩ | exact ⟨h4, h3⟩
  · obtain ⟨rfl, rfl⟩ := Prod.mk.inj (Option.some.inj h)
    unfold dhGenerate at hg
    dsimp only at hg
    repeat' split at hg
    all_goals
      obtain ⟨_, hh⟩ := Prod.mk.inj hg; obtain ⟨rfl, rfl⟩ := Prod.mk.inj hh
      refine ⟨?_, ?_⟩ <;> first | exact ha | exact hb | exact ⟨h2, h1⟩ | exact ⟨h4, h3⟩
  · cases h

/-- Only AES and generic keys have a length attribute. -/
theorem symmKeyLen_typ {x : KeyExt} {o : Obj} {n m : Nat} (h : symmKeyLen x o n = some m) :
    o.typ = CKK_AES ∨ o.typ = CKK_GENERIC_SECRET := by
  unfold symmKeyLen at h
  dsimp only at h
  split at h
  · rename_i hok
    have hok : (getKeyAttr x o .valueLen true 8).ret = .ok := hok
    unfold getKeyAttr at hok
    rw [if_neg (by simp)] at hok
    repeat' split at hok
    all_goals first
      | assumption
      | cases hok
  · cases h

theorem deriveTail_typed {x : KeyExt} {o o' : Obj} {b : Bytes} (hc : o.cls = CKO_CERTIFICATE → o.typ ≤ 2)
    (h : (deriveTail x o b).obj = some o') : o'.Typed := by
  unfold deriveTail at h
  split at h
  · cases h
  rename_i n hn
  have ht := symmKeyLen_typ hn
  dsimp only at h
  split at h
  · cases h
  split at h
  · rename_i heq
    cases h
    have h0 : o.cls ≠ CKO_CERTIFICATE := by
      intro h0
      have := hc h0
      rcases ht with ht | ht <;> rw [ht] at this <;> revert this <;> decide
    have := setSecretKey_typed (o := o) (fun a => if a = .value then some (b.drop (b.length - n)) else none) h0
      (by rcases ht with ht | ht <;> rw [ht] <;> decide) (by rcases ht with ht | ht <;> rw [ht] <;> decide)
      (by rcases ht with ht | ht <;> rw [ht] <;> decide)
    rw [heq] at this
    exact this
  · cases h
  · cases h

theorem rdObject_data {o o' : Obj} {b rest : Bytes} (h : rdObject o b = some (o', rest)) : o'.data = o.data := by
  unfold rdObject at h
  obtain ⟨_, _, _, h⟩ := rd_bind h
  obtain ⟨_, _, _, h⟩ := rd_bind h
  obtain ⟨_, _, _, h⟩ := rd_bind h
  obtain ⟨_, _, _, h⟩ := rd_bind h
  obtain ⟨_, _, _, h⟩ := rd_bind h
  obtain ⟨_, _, _, h⟩ := rd_bind h
  obtain ⟨_, _, _, h⟩ := rd_bind h
  obtain ⟨_, _, _, h⟩ := rd_bind h
  obtain ⟨_, _, _, h⟩ := rd_bind h
  obtain ⟨_, _, _, h⟩ := rd_bind h
  obtain ⟨_, _, _, h⟩ := rd_bind h
  obtain ⟨_, _, _, h⟩ := rd_bind h
  cases h
  rfl

theorem loadObj_typed {x : StoreExt} {d : Disk} {o o' : Obj} {i : Nat} (ho : o.data = .none)
    (h : loadObj x d o i = some o') : o'.Typed := by
  unfold loadObj at h
  obtain ⟨o1, h1, h⟩ := Option.bind_eq_some_iff.mp h
  have hd : o1.data = .none := by
    unfold readFile at h1
    obtain ⟨b, _, h1⟩ := Option.bind_eq_some_iff.mp h1
    obtain ⟨⟨p, rest⟩, h2, rfl⟩ := Option.map_eq_some_iff.mp h1
    exact (rdObject_data h2).trans ho
  split at h
  · cases h
  split at h
  · rename_i hc
    obtain ⟨_, _, h⟩ := Option.bind_eq_some_iff.mp h
    obtain ⟨_, _, rfl⟩ := Option.map_eq_some_iff.mp h
    exact hc
  · obtain ⟨_, _, rfl⟩ := Option.map_eq_some_iff.mp h
    unfold Obj.Typed
    rw [hd]
    trivial

theorem typed_closed (e : Env) :
    Closed e Obj.Typed (fun _ => True) (fun _ => True) (fun _ => True) (fun _ => True) where
  name := fun _ _ _ _ h => h
  new := fun typ cls b t _ _ _ _ => setAttributeValue_inv (P := Obj.Typed) _ _ _ _
    (fun p v hp => setKey_typed e.key v hp) (fun p en _ hp => setAttr_typed en hp) trivial
  set := fun o b t _ h => setAttributeValue_inv (P := Obj.Typed) _ _ _ _
    (fun p v hp => setKey_typed e.key v hp) (fun p en _ hp => setAttr_typed en hp) h
  copy := fun o t h _ _ => setAttributeValue_inv (P := Obj.Typed) _ _ _ _
    (fun p v hp => setKey_typed e.key v hp) (fun p en _ hp => setAttr_typed en hp) trivial
  enc := fun o k b _ h => encodeObj_typed _ _ _ h
  dec := fun o k h => decodeObj_typed _ _ h
  sto := fun o k r i _ h => storeObj_typed _ _ _ _ h
  symm := fun _ _ ht hc _ => ⟨hc, by rw [ht]; decide, by rw [ht]; decide, by rw [ht]; decide⟩
  rsa := fun _ _ _ ht hc _ _ => ⟨hc, ht⟩
  pair := fun _ _ _ _ _ _ _ _ hp hg h1 h2 h3 h4 ha hb => pairGen_typed hp hg h1 h2 h3 h4 ha hb
  der := fun _ _ _ hc _ hd => deriveTail_typed hc hd
  load := fun _ _ _ _ _ _ _ h => loadObj_typed rfl h
  key0 := trivial
  keyH := fun _ _ _ => trivial
  tokFile := fun _ _ _ => trivial
  objFile := fun _ _ _ _ _ _ _ _ => trivial
  delFile := fun _ _ _ _ _ => trivial

theorem typed_run (e : Env) {l : Lib} (h : Start l) (cs : List Call) :
    AllObj Obj.Typed (fun _ => True) (fun _ => True) (run e l cs) :=
  all_run (typed_closed e) (h.allObj trivial trivial) cs (fun _ _ _ _ => trivial) (fun _ _ _ _ => trivial)

end Verif
