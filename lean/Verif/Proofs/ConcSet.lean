import Verif.Spec.ConcSet
import Verif.Props.ConcObj

/-!
# Attribute changes in parts
-/

namespace Verif

variable {e : Env}

/-! ## What only concerns the storage of an object plays no part -/

/-- A change that neither looks at nor touches what only concerns the storage, and leaves the
identity of the object. -/
structure Plainly (f : Obj → IRet × Obj) : Prop where
  ret : ∀ o, (f o.view).1 = (f o).1
  view : ∀ o, (f o.view).2 = (f o).2.view
  key : ∀ o, (f o).2.key = o.key
  iv : ∀ o, (f o).2.iv = o.iv

theorem setAttr_view (o : Obj) (en : Entry) : setAttr o.view en = ((setAttr o en).1, (setAttr o en).2.view) := by
  cases hr : reinterprets o (leNat en.val) <;> unfold setAttr <;> cases en.typ <;>
    first
    | rfl
    | (simp only; split <;> rfl)
    | (have hr' : reinterprets o.view (leNat en.val) = _ := hr
       simp only [hr, hr', Bool.false_eq_true, if_false, if_true]; try rfl)

theorem setKey_view (x : KeyExt) (o : Obj) (v : CKA → Option Bytes) :
    setKey x o.view v = ((setKey x o v).1, (setKey x o v).2.view) := by
  have h1 : setCert o.view v = ((setCert o v).1, (setCert o v).2.view) := by
    have ho : o.view.data = o.data := rfl
    unfold setCert
    dsimp only
    rw [ho]
    generalize (match o.data with | .cert _ t => t | _ => 0) = old
    split
    · split
      · rfl
      · split
        · rfl
        · split <;> rfl
    · split
      · rfl
      · split <;> rfl
  have h2 : setRsaKey x o.view v = ((setRsaKey x o v).1, (setRsaKey x o v).2.view) := by
    unfold setRsaKey
    split
    · dsimp only
      split
      · rfl
      · split
        · rfl
        · split <;> rfl
    · rfl
  have h3 : setEcKey x o.view v = ((setEcKey x o v).1, (setEcKey x o v).2.view) := by
    unfold setEcKey
    dsimp only
    split <;> rfl
  have h4 : setDhKey x o.view v = ((setDhKey x o v).1, (setDhKey x o v).2.view) := by
    have ho : o.view.dh = o.dh := rfl
    unfold setDhKey
    dsimp only
    rw [ho]
    split
    · rfl
    · split
      · rfl
      · split <;> rfl
  have h5 : setSecretKey o.view v = ((setSecretKey o v).1, (setSecretKey o v).2.view) := by
    have ho : o.view.typ = o.typ := rfl
    unfold setSecretKey
    rw [ho]
    split
    · rfl
    · split <;> rfl
  have hc : o.view.cls = o.cls := rfl
  have ht : o.view.typ = o.typ := rfl
  unfold setKey
  rw [hc, ht]
  split
  · exact h1
  split
  · exact h2
  split
  · exact h3
  split
  · exact h4
  · exact h5

theorem plainly_setAttr (en : Entry) : Plainly fun o => setAttr o en := by
  refine ⟨fun o => by rw [setAttr_view], fun o => by rw [setAttr_view], fun o => ?_, fun o => (setAttr_rest o en).iv⟩
  have h := setAttr_rest o en
  simp only [Obj.key, h.handle, h.uid, h.onToken]

theorem plainly_setKey (x : KeyExt) (v : CKA → Option Bytes) : Plainly fun o => setKey x o v := by
  refine ⟨fun o => by rw [setKey_view], fun o => by rw [setKey_view], fun o => ?_, fun o => ?_⟩
  all_goals
    obtain ⟨d, s, h⟩ := setKey_frame x o v
    rw [h]
    try rfl

/-! ## The invariants are kept -/

/-- What is known of the library: the sessions, the objects, the handles. -/
structure Intact (n : Nat) (l : Lib) : Prop where
  si : SInv l
  cap : CapInv l
  hi : HandleInv n l

theorem Intact.mono {n m : Nat} {l : Lib} (h : Intact n l) (hn : n ≤ m) : Intact m l := ⟨h.si, h.cap, h.hi.mono hn⟩

theorem Intact.bad {n : Nat} {l : Lib} (h : Intact n l) (b : Bool) : Intact n { l with bad := b } :=
  ⟨⟨h.si.shape, h.si.idle, h.si.so⟩, h.cap.bad b, h.hi.bad b⟩

theorem Intact.step (hh : HashLen e) (hr : RandLen e) {n : Nat} {l : Lib} (h : Intact n l) (hn : n + 2 < 2 ^ 28)
    (c : Call) (hb : BoolToken [c]) : Intact (n + 2) (step e l c).1 :=
  ⟨h.si.step e c, h.cap.step hh hr h.si c, h.hi.step hh hr h.si h.cap hn c hb⟩

theorem writePart_intact {n : Nat} {l l' : Lib} (h : Intact n l) {uid : Nat} {f : Obj → IRet × Obj} (hf : Plainly f) {r : IRet}
    (hw : writePart l uid f = some (r, l')) : Intact n l' := by
  unfold writePart at hw
  cases hfi : l.token.objs.find? (fun o => o.uid == uid) with
  | none => rw [hfi] at hw; cases hw
  | some o =>
    rw [hfi] at hw
    simp only [Option.map_some, Option.some.injEq, Prod.mk.injEq] at hw
    obtain ⟨_, rfl⟩ := hw
    have hm := List.mem_of_find?_eq_some hfi
    have hk := hf.key o
    have huid : (f o).2.uid = o.uid := congrArg (·.2.1) hk
    have hsame := replObj_same (f o).2 l.token.objs (by
      intro p hp hpu
      have := uid_inj h.cap.pop.uidOk.1 hp hm (hpu.trans huid)
      subst this
      exact ⟨hk.symm, by rw [hf.iv]; exact id⟩)
    have hcnt : 0 < l.count := by
      by_cases hc : 0 < l.count
      · exact hc
      · have := (h.cap.off (by omega)).1
        rw [this] at hm; cases hm
    have hq : Quiet l { l with token := { l.token with objs := replObj (f o).2 l.token.objs } } :=
      ⟨hsame.1, rfl, rfl, rfl, rfl, hsame.2⟩
    refine ⟨⟨h.si.shape, h.si.idle, h.si.so⟩, ⟨?_, ⟨h.cap.shape.label, h.cap.shape.so, h.cap.shape.user, h.cap.shape.seed⟩, ?_⟩, ?_⟩
    · unfold Lib.PopA
      rw [hq.tok]
      exact h.cap.pop
    · intro hx
      have : l.count ≤ 0 := hx
      omega
    · have hx := h.hi
      unfold HandleInv at hx ⊢
      rw [if_pos hcnt] at hx
      rw [if_pos (show (0 : Int) < _ from hcnt)]
      exact hx.quiet hq

/-- What is written through a pointer to the object shown as `ov`. -/
theorem writePart_has {l l' : Lib} (hu : UidOk l) {ov : Obj} {f : Obj → IRet × Obj} (hf : Plainly f) (hx : Has ov l.token.objs)
    {r : IRet} (hw : writePart l ov.uid f = some (r, l')) : r = (f ov).1 ∧ Has (f ov).2 l'.token.objs ∧
      l'.sessions = l.sessions ∧ l'.count = l.count ∧ l'.bad = l.bad := by
  obtain ⟨p, hp, rfl⟩ := List.mem_map.mp hx
  have hfi : l.token.objs.find? (fun o => o.uid == p.view.uid) = some p := by
    cases hq : l.token.objs.find? (fun o => o.uid == p.view.uid) with
    | none => exact absurd (List.find?_eq_none.mp hq p hp) (by simp [Obj.view])
    | some q =>
      have h2 : q.uid = p.view.uid := by simpa using List.find?_some hq
      rw [uid_inj hu.1 (List.mem_of_find?_eq_some hq) hp h2]
  unfold writePart at hw
  rw [hfi] at hw
  simp only [Option.map_some, Option.some.injEq, Prod.mk.injEq] at hw
  obtain ⟨rfl, rfl⟩ := hw
  refine ⟨(hf.ret p).symm, ?_, rfl, rfl, rfl⟩
  rw [hf.view]
  refine List.mem_map_of_mem ?_
  unfold replObj
  refine List.mem_map.mpr ⟨p, hp, ?_⟩
  have : p.uid = (f p).2.uid := (congrArg (·.2.1) (hf.key p)).symm
  rw [if_pos this]

/-- What is written through a pointer to another object. -/
theorem writePart_other {l l' : Lib} {ov : Obj} {uid : Nat} {f : Obj → IRet × Obj} (hf : Plainly f) (hx : Has ov l.token.objs)
    (hne : uid ≠ ov.uid) {r : IRet} (hw : writePart l uid f = some (r, l')) : Has ov l'.token.objs ∧
      l'.sessions = l.sessions ∧ l'.count = l.count ∧ l'.bad = l.bad := by
  unfold writePart at hw
  cases hfi : l.token.objs.find? (fun o => o.uid == uid) with
  | none => rw [hfi] at hw; cases hw
  | some o =>
    rw [hfi] at hw
    simp only [Option.map_some, Option.some.injEq, Prod.mk.injEq] at hw
    obtain ⟨_, rfl⟩ := hw
    have h1 : o.uid = uid := by simpa using List.find?_some hfi
    refine ⟨has_repl hx ?_, rfl, rfl, rfl⟩
    have h2 : (f o).2.uid = o.uid := congrArg (·.2.1) (hf.key o)
    rw [h2, h1]; exact hne

/-! ## A whole change -/

theorem setAttrs_view (o : Obj) (t : List Entry) : setAttrs o.view t = ((setAttrs o t).1, (setAttrs o t).2.view) := by
  induction t generalizing o with
  | nil => rfl
  | cons en t ih =>
    simp only [setAttrs, setAttr_view]
    cases hr : (setAttr o en).1 <;> first | rfl | exact ih _

theorem setAttributeValue_view (x : KeyExt) (b : Bool) (o : Obj) (t : List Entry) :
    setAttributeValue x b o.view t = ((setAttributeValue x b o t).1, (setAttributeValue x b o t).2.view) := by
  have hk : keyParams o.view = keyParams o := rfl
  unfold setAttributeValue
  dsimp only
  rw [hk]
  split
  · rfl
  split
  · rfl
  split
  · rfl
  split
  · rfl
  rw [setKey_view]
  cases hr : (setKey x o (keyVals t)).1 <;> first | rfl | exact setAttrs_view _ _

theorem setAttrs_then {o ov : Obj} {d : List Entry} (h : setAttrs o d = (.ok, ov)) (r : List Entry) :
    setAttrs o (d ++ r) = setAttrs ov r := by
  induction d generalizing o with
  | nil => cases h; rfl
  | cons en d ih =>
    simp only [setAttrs, List.cons_append] at h ⊢
    cases hr : (setAttr o en).1 <;> rw [hr] at h <;> first | exact ih h | cases h

/-- The checks passed, the rest is done entry by entry. -/
theorem settable_whole {x : KeyExt} {o : Obj} {t : List Entry} (h : settable o t = true) :
    setAttributeValue x true o t =
      match (setKey x o (keyVals t)).1 with
      | .ok => setAttrs (setKey x o (keyVals t)).2 t
      | .ub => (.ub, (setKey x o (keyVals t)).2)
      | _ => (.functionFailed, (setKey x o (keyVals t)).2) := by
  unfold settable at h
  simp only [Bool.and_eq_true, decide_eq_true_eq] at h
  obtain ⟨h1, h2⟩ := h
  unfold setAttributeValue
  cases hk : keyParams o with
  | none => rw [hk] at h2; cases h2
  | some ps =>
    rw [hk] at h2
    simp only [h1, Bool.not_true, Bool.false_eq_true, if_false, ne_eq, not_true_eq_false]
    have h3 : (ps.any fun a => (keyAttr t a).any fun e => e.mem.isNone) = false := by simpa using h2
    rw [h3]
    simp only [Bool.false_eq_true, if_false]
    cases (setKey x o (keyVals t)).1 <;> rfl

theorem settable_view (o : Obj) (t : List Entry) : settable o.view t = settable o t := rfl

end Verif
