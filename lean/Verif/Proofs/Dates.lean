import Verif.Proofs.AllObj
/-!
# Dates are at most eight bytes
-/
namespace Verif

/-- The dates fit their arrays. -/
def DatesOk (o : Obj) : Prop := o.startDate.length ≤ 8 ∧ o.endDate.length ≤ 8

/-- Both dates. -/
def Obj.dates (o : Obj) : Bytes × Bytes := (o.startDate, o.endDate)

theorem DatesOk.of {o o' : Obj} (h : DatesOk o) (hd : o'.dates = o.dates) : DatesOk o' := by
  obtain ⟨h1, h2⟩ := Prod.mk.inj hd
  unfold DatesOk; rw [h1, h2]; exact h

theorem setAttr_dates {o : Obj} (en : Entry) (h : DatesOk o) : DatesOk (setAttr o en).2 := by
  have hv : en.len = 8 → en.val.length ≤ 8 := by
    intro h8; unfold Entry.val; rw [List.length_take]; omega
  obtain ⟨h1, h2⟩ := h
  unfold setAttr
  dsimp only
  split
  all_goals first
    | exact ⟨h1, h2⟩
    | (split <;> first | exact ⟨h1, h2⟩
                       | (rename_i hl; exact ⟨hv (by omega), h2⟩)
                       | (rename_i hl; exact ⟨h1, hv (by omega)⟩))

theorem encodeObj_dates (x : StoreExt) (k : Bytes) (p : Bool) (o : Obj) : (encodeObj x k p o).2.dates = o.dates := by
  have h1 : (encodeKey x k o).2.dates = o.dates := by
    unfold encodeKey
    repeat' split
    all_goals rfl
  have h2 : ∀ o : Obj, (cleared o).dates = o.dates := by
    intro o
    unfold cleared
    repeat' split
    all_goals rfl
  unfold encodeObj
  dsimp only
  repeat' split
  · rfl
  · exact (h2 _).trans h1
  · exact h1

theorem decodeObj_dates (x : StoreExt) (k : Bytes) (o : Obj) : (decodeObj x k o).2.dates = o.dates := by
  show (decodeKey x k o).2.dates = o.dates
  unfold decodeKey decodeRsa decodeEcc decodeDh decodeSymm decoded
  repeat' split
  all_goals rfl

theorem storeObj_dates (x : StoreExt) (k : Bytes) (r : Nat) (o : Obj) (i : Nat) :
    (storeObj x k r o i).obj.dates = o.dates := by
  have h := congrArg (fun o : Obj => o.dates) (storeObj_view x k r o i)
  exact h

theorem pairGen_dates {e : Env} {rng : Nat} {m : Mech} {typ : Nat} {gen : Obj → Obj → IRet × Obj × Obj}
    (h : pairGen e rng m = some (typ, gen)) {a b a' b' : Obj} {r : IRet} (hg : gen a b = (r, a', b')) :
    a'.dates = a.dates ∧ b'.dates = b.dates := by
  unfold pairGen at h
  split at h
  · obtain ⟨_, rfl⟩ := Prod.mk.inj (Option.some.inj h)
    unfold rsaGenerate at hg
    dsimp only at hg
    repeat' split at hg
    all_goals obtain ⟨_, hh⟩ := Prod.mk.inj hg; obtain ⟨rfl, rfl⟩ := Prod.mk.inj hh; exact ⟨rfl, rfl⟩
  · obtain ⟨_, rfl⟩ := Prod.mk.inj (Option.some.inj h)
    unfold ecGenerate at hg
    repeat' split at hg
    all_goals obtain ⟨_, hh⟩ := Prod.mk.inj hg; obtain ⟨rfl, rfl⟩ := Prod.mk.inj hh; exact ⟨rfl, rfl⟩
  · obtain ⟨_, rfl⟩ := Prod.mk.inj (Option.some.inj h)
    unfold dhGenerate at hg
    dsimp only at hg
    repeat' split at hg
    all_goals obtain ⟨_, hh⟩ := Prod.mk.inj hg; obtain ⟨rfl, rfl⟩ := Prod.mk.inj hh; exact ⟨rfl, rfl⟩
  · cases h

theorem deriveTail_dates {x : KeyExt} {o o' : Obj} {b : Bytes} (h : (deriveTail x o b).obj = some o') :
    o'.dates = o.dates := by
  have hs : ∀ v, (setSecretKey o v).2.dates = o.dates := by
    intro v
    unfold setSecretKey
    repeat' split
    all_goals rfl
  unfold deriveTail at h
  split at h
  · cases h
  dsimp only at h
  split at h
  · cases h
  split at h
  · rename_i heq
    cases h
    have := hs (fun a => if a = .value then some (b.drop (b.length - ‹Nat›)) else none)
    rw [heq] at this
    exact this
  · cases h
  · cases h

theorem fixed_length {n : Nat} {b v rest : Bytes} (h : Rd.fixed n b = some (v, rest)) : v.length = n := by
  unfold Rd.fixed at h
  split at h
  · cases h; rw [List.length_take]; omega
  · cases h

theorem rdObject_dates {o o' : Obj} {b rest : Bytes} (h : rdObject o b = some (o', rest)) : DatesOk o' := by
  unfold rdObject at h
  obtain ⟨_, _, _, h⟩ := rd_bind h
  obtain ⟨_, _, _, h⟩ := rd_bind h
  obtain ⟨_, _, _, h⟩ := rd_bind h
  obtain ⟨_, _, _, h⟩ := rd_bind h
  obtain ⟨_, _, _, h⟩ := rd_bind h
  obtain ⟨_, _, _, h⟩ := rd_bind h
  obtain ⟨_, _, _, h⟩ := rd_bind h
  obtain ⟨_, _, _, h⟩ := rd_bind h
  obtain ⟨_, _, h1, h⟩ := rd_bind h
  obtain ⟨_, _, h2, h⟩ := rd_bind h
  obtain ⟨_, _, _, h⟩ := rd_bind h
  obtain ⟨_, _, _, h⟩ := rd_bind h
  cases h
  exact ⟨Nat.le_of_eq (fixed_length h1), Nat.le_of_eq (fixed_length h2)⟩

theorem loadObj_dates {x : StoreExt} {d : Disk} {o o' : Obj} {i : Nat} (h : loadObj x d o i = some o') :
    DatesOk o' := by
  unfold loadObj at h
  obtain ⟨o1, h1, h⟩ := Option.bind_eq_some_iff.mp h
  have hd : DatesOk o1 := by
    unfold readFile at h1
    obtain ⟨b, _, h1⟩ := Option.bind_eq_some_iff.mp h1
    obtain ⟨⟨p, rest⟩, h2, rfl⟩ := Option.map_eq_some_iff.mp h1
    exact rdObject_dates h2
  split at h
  · cases h
  split at h
  · obtain ⟨_, _, h⟩ := Option.bind_eq_some_iff.mp h
    obtain ⟨_, _, rfl⟩ := Option.map_eq_some_iff.mp h
    exact hd
  · obtain ⟨_, _, rfl⟩ := Option.map_eq_some_iff.mp h
    exact hd

theorem datesOk_closed (e : Env) : Closed e DatesOk (fun _ => True) (fun _ => True) (fun _ => True) (fun _ => True) where
  name := fun _ _ _ _ h => h
  new := fun typ cls b t _ _ _ _ => setAttributeValue_inv (P := DatesOk) _ _ _ _
    (fun p v hp => by obtain ⟨d, s, h⟩ := setKey_frame e.key p v; rw [h]; exact hp)
    (fun p en _ hp => setAttr_dates en hp) ⟨by show 8 ≤ 8; omega, by show 8 ≤ 8; omega⟩
  set := fun o b t _ h => setAttributeValue_inv (P := DatesOk) _ _ _ _
    (fun p v hp => by obtain ⟨d, s, h⟩ := setKey_frame e.key p v; rw [h]; exact hp)
    (fun p en _ hp => setAttr_dates en hp) h
  copy := fun o t h _ _ => setAttributeValue_inv (P := DatesOk) _ _ _ _
    (fun p v hp => by obtain ⟨d, s, h⟩ := setKey_frame e.key p v; rw [h]; exact hp)
    (fun p en _ hp => setAttr_dates en hp) ⟨by show 8 ≤ 8; omega, by show 8 ≤ 8; omega⟩
  enc := fun o k b _ h => h.of (encodeObj_dates ..)
  dec := fun o k h => h.of (decodeObj_dates ..)
  sto := fun o k r i _ h => h.of (storeObj_dates ..)
  symm := fun _ _ _ _ h => h
  rsa := fun _ _ _ _ _ h _ => h
  pair := fun _ _ _ _ _ _ _ _ hp hg _ _ _ _ ha hb => ⟨ha.of (pairGen_dates hp hg).1, hb.of (pairGen_dates hp hg).2⟩
  der := fun _ _ _ _ h hd => h.of (deriveTail_dates hd)
  load := fun _ _ _ _ _ _ _ h => loadObj_dates h
  key0 := trivial
  keyH := fun _ _ _ => trivial
  tokFile := fun _ _ _ => trivial
  objFile := fun _ _ _ _ _ _ _ _ => trivial
  delFile := fun _ _ _ _ _ => trivial

theorem Start.allObj {P : Obj → Prop} {G : Bytes → Prop} {D : Disk → Prop} {l : Lib} (h : Start l)
    (hk : G (List.replicate 32 0)) (hd : D l.disk) : AllObj P G D l := by
  refine ⟨?_, ?_, ?_, hd⟩
  · rw [h.token]; intro o ho; cases ho
  · rw [h.sessions]; intro s hs; cases hs
  · rw [h.token]; exact hk

/-- After any history the dates of all objects are at most eight bytes long. -/
theorem dates_run (e : Env) {l : Lib} (h : Start l) (cs : List Call) :
    AllObj DatesOk (fun _ => True) (fun _ => True) (run e l cs) :=
  all_run (datesOk_closed e) (h.allObj trivial trivial) cs (fun _ _ _ _ => trivial) (fun _ _ _ _ => trivial)

end Verif
