import Verif.Props.History
import Verif.Props.AttrFlags
import Verif.Props.AttrData
import Verif.Spec.LastSet

/-!
# The attributes of an object that are not key material
-/

namespace Verif

variable {e : Env}

/-- An object without its key and what only concerns its storage. -/
def Obj.face (o : Obj) : Obj :=
  { o with data := .none, size := 0, encoded := false, iv := [], keyData := none }

theorem face_getAttr (x : KeyExt) (o : Obj) {a : CKA} (ha : a.NotKeyMaterial) : getAttr x o.face a = getAttr x o a := by
  rcases ha with ha | ha
  · funext buf len
    have h1 : o.face.typ = o.typ := rfl
    have h2 : o.face.onToken = o.onToken := rfl
    have h3 : o.face.local' = o.local' := rfl
    have h4 : o.face.opFlag = o.opFlag := rfl
    have h5 : o.face.cls = o.cls := rfl
    cases a <;> simp only [CKA.IsBool, CKA.kind, reduceCtorEq, Option.some.injEq] at ha <;>
      simp [getAttr, getKeyAttr, misread, rsaGetAttr, ecGetAttr, dhGetAttr, secretGetAttr, h1, h2, h3, h4, h5]
  · simp only [List.mem_cons, List.not_mem_nil, or_false] at ha
    rcases ha with rfl | rfl | rfl | rfl | rfl | rfl | rfl <;> rfl

theorem face_eq {x : KeyExt} {o o' : Obj} (h : o'.face = o.face) {a : CKA} (ha : a.NotKeyMaterial) :
    getAttr x o' a = getAttr x o a := by
  rw [← face_getAttr x o ha, ← face_getAttr x o' ha, h]

theorem view_face {o o' : Obj} (h : o'.view = o.view) : o'.face = o.face := (congrArg Obj.face h :)

theorem encodeObj_face (x : StoreExt) (k : Bytes) (p : Bool) (o : Obj) : (encodeObj x k p o).2.face = o.face := by
  have h1 : (encodeKey x k o).2.face = o.face := by
    unfold encodeKey
    repeat' split
    all_goals rfl
  have h2 : ∀ o : Obj, (cleared o).face = o.face := by
    intro o
    unfold cleared
    repeat' split
    all_goals rfl
  unfold encodeObj
  dsimp only
  repeat' split
  · rfl
  · exact (h2 _).trans h1
  · exact h1

theorem decodeObj_face (x : StoreExt) (k : Bytes) (o : Obj) : (decodeObj x k o).2.face = o.face := by
  show (decodeKey x k o).2.face = o.face
  unfold decodeKey decodeRsa decodeEcc decodeDh decodeSymm decoded
  repeat' split
  all_goals rfl

theorem decodeAll_face (x : StoreExt) (k : Bytes) (os : List Obj) : (decodeAll x k os).2.map Obj.face = os.map Obj.face := by
  induction os with
  | nil => rfl
  | cons a os ih =>
    simp only [decodeAll]
    split
    · simp only [List.map_cons, decodeObj_face, ih]
    · simp only [List.map_cons, decodeObj_face]

theorem encodeAll_face (x : StoreExt) (k : Bytes) (os : List Obj) : (encodeAll x k os).map Obj.face = os.map Obj.face := by
  induction os with
  | nil => rfl
  | cons a os ih =>
    simp only [encodeAll]
    split
    · simp only [List.map_cons, encodeObj_face, ih]
    · simp only [List.map_cons, encodeObj_face]

/-- There is an object with handle `k` of which attribute `a` reads as `g`. -/
def Exhibits (e : Env) (a : CKA) (g : Bool → Nat → GRet) (k : Nat) (os : List Obj) : Prop :=
  ∃ o ∈ os, o.handle = k ∧ getAttr e.key o a = g

/-- The object of session `h` with handle `k` reads as `g`. -/
def ShownIn (e : Env) (a : CKA) (g : Bool → Nat → GRet) (l : Lib) (h k : Nat) : Prop :=
  ∃ s, getSession l h = some s ∧ Exhibits e a g k (if handleOnToken k then l.token.objs else s.objs)

variable {a : CKA} {g : Bool → Nat → GRet} {k : Nat}

theorem Exhibits.face {os os' : List Obj} (h : os'.map Obj.face = os.map Obj.face) (ha : a.NotKeyMaterial)
    (hs : Exhibits e a g k os) : Exhibits e a g k os' := by
  obtain ⟨o, ho, h1, h2⟩ := hs
  have : o.face ∈ os'.map Obj.face := h ▸ List.mem_map_of_mem ho
  obtain ⟨o', ho', hf⟩ := List.mem_map.mp this
  exact ⟨o', ho', (congrArg Obj.handle hf :).trans h1, (face_eq hf ha).trans h2⟩

theorem Exhibits.view {os os' : List Obj} (h : os'.map Obj.view = os.map Obj.view) (hs : Exhibits e a g k os) : Exhibits e a g k os' := by
  obtain ⟨o, ho, h1, h2⟩ := hs
  have : o.view ∈ os'.map Obj.view := h ▸ List.mem_map_of_mem ho
  obtain ⟨o', ho', hf⟩ := List.mem_map.mp this
  refine ⟨o', ho', (congrArg Obj.handle hf :).trans h1, ?_⟩
  rw [← h2]
  funext b n
  rw [← view_getAttr, ← view_getAttr e.key o, hf]

theorem tied_not {as : List Entry} (h : ∀ en ∈ as, en.typ ∉ tied a) :
    (∀ en ∈ as, en.typ ≠ a) ∧ (a = .wrap → ∀ en ∈ as, en.typ ≠ .unwrap) ∧ (a = .trusted → ∀ en ∈ as, en.typ ≠ .encrypt) := by
  refine ⟨fun en hen hx => h en hen ?_, fun hx en hen hy => h en hen ?_, fun hx en hen hy => h en hen ?_⟩
  · rw [hx]; cases a <;> simp [tied]
  · subst hx; rw [hy]; simp [tied]
  · subst hx; rw [hy]; simp [tied]

/-- A change to other attributes. -/
theorem Exhibits.repl {os : List Obj} {o : Obj} (hn : (os.map (·.uid)).Nodup) (ho : o ∈ os) (b : Bool) {t : List Entry} (ha : a.NotKeyMaterial)
    (ht : o.handle = k → ∀ en ∈ t, en.typ ∉ tied a) (hs : Exhibits e a g k os) :
    Exhibits e a g k (replObj (setAttributeValue e.key b o t).2 os) := by
  obtain ⟨p, hp, h1, h2⟩ := hs
  have hk := (setAttributeValue_key e.key b o t).1
  have hu : (setAttributeValue e.key b o t).2.uid = o.uid := congrArg (fun k : OKey => k.2.1) hk
  have hh : (setAttributeValue e.key b o t).2.handle = o.handle := congrArg (·.1) hk
  by_cases hpo : p.uid = o.uid
  · obtain rfl := uid_inj hn hp ho hpo
    refine ⟨_, List.mem_map.mpr ⟨p, hp, by rw [hu, if_pos rfl]⟩, hh.trans h1, ?_⟩
    obtain ⟨t1, t2, t3⟩ := tied_not (ht h1)
    rw [unnamed_getAttr e.key b p t a ha t1 t2 t3, h2]
  · refine ⟨p, List.mem_map.mpr ⟨p, hp, by rw [hu, if_neg hpo]⟩, h1, h2⟩

/-- A call after which the object is still there. -/
theorem ShownIn.step {l : Lib} (hp : l.PopA) (hi : SInv l) (hbad : l.bad = false) (hcnt : 0 < l.count) {h : Nat} {c : Call}
    (ha : a.NotKeyMaterial) (hb : Retains (tied a) h k c) (hs : ShownIn e a g l h k) :
    ShownIn e a g (step e l c).1 h k ∧ 0 < (step e l c).1.count := by
  by_cases hsp : Spares h k c
  · obtain ⟨s, h1, o, ho, rfl, h2⟩ := hs
    obtain ⟨hk, hc⟩ := keeps_step (e := e) (q := false) (ov := o.view) hp hi hbad hcnt hsp (fun h => by cases h) h1
    refine ⟨?_, hc⟩
    obtain ⟨s', g1, _, g4⟩ := hk.ses s h1
    refine ⟨s', g1, ?_⟩
    have : Has o.view (if handleOnToken o.handle then (Verif.step e l c).1.token.objs else s'.objs) := by
      cases hon : handleOnToken o.handle with
      | true => rw [hon] at ho; exact hk.tok hon (List.mem_map_of_mem ho)
      | false => rw [hon] at ho; exact g4 hon (List.mem_map_of_mem ho)
    obtain ⟨o', ho', hv⟩ := List.mem_map.mp this
    refine ⟨o', ho', (congrArg Obj.handle hv :), ?_⟩
    rw [← h2]
    funext b n
    rw [← view_getAttr, ← view_getAttr e.key o, hv]
  · have hcn : ¬ l.count ≤ 0 := by omega
    obtain ⟨e1, e2, e3, _⟩ := step_sessions (e := e) hbad c
    have lift : ShownIn e a g (callBody e l c).1 h k ∧ 0 < (callBody e l c).1.count →
        ShownIn e a g (Verif.step e l c).1 h k ∧ 0 < (Verif.step e l c).1.count := by
      rintro ⟨⟨s, q1, q2⟩, q3⟩
      refine ⟨⟨s, by rw [getSession_congr e1]; exact q1, by rw [e3]; exact q2⟩, by rw [e2]; exact q3⟩
    refine lift ?_
    cases c with
    | cInit => exact absurd trivial hsp
    | cFinal => exact absurd hb (by simp [Retains])
    | slot i c => cases c <;> first | exact absurd trivial hsp | exact absurd hb hsp | exact absurd hb (by simp [Retains])
    | sess j c =>
      simp only [callBody, if_neg hcn]
      cases hg : getSession l j with
      | none => exact ⟨hs, hcnt⟩
      | some sj =>
        cases c with
        | login u p n =>
          have hon : handleOnToken k = true := by cases hx : handleOnToken k with | true => rfl | false => exact absurd hx hsp
          obtain ⟨s, h1, h2⟩ := hs
          have hsess : (login e l u p n).1.sessions = l.sessions := by
            simp only [login, soLogin, userLogin]
            repeat' split
            all_goals rfl
          have hcount : (login e l u p n).1.count = l.count := by
            simp only [login, soLogin, userLogin]
            repeat' split
            all_goals rfl
          have hface : (login e l u p n).1.token.objs.map Obj.face = l.token.objs.map Obj.face := by
            simp only [login, soLogin, userLogin]
            repeat' split
            all_goals first | rfl | exact decodeAll_face ..
          rw [if_pos hon] at h2
          exact ⟨⟨s, (getSession_congr hsess h).trans h1,
            by rw [if_pos hon]; exact h2.face hface ha⟩, by show 0 < (login e l u p n).1.count; rw [hcount]; exact hcnt⟩
        | logout =>
          have hon : handleOnToken k = true := by cases hx : handleOnToken k with | true => rfl | false => exact absurd hx hsp
          obtain ⟨s, h1, h2⟩ := hs
          have hface : (logout e l).token.objs.map Obj.face = l.token.objs.map Obj.face := by
            unfold logout
            dsimp only
            split
            · exact encodeAll_face ..
            · rfl
          rw [if_pos hon] at h2
          exact ⟨⟨s, h1, by rw [if_pos hon]; exact h2.face hface ha⟩, hcnt⟩
        | setAttr i t =>
          obtain rfl : i = k := Decidable.byContradiction hsp
          obtain ⟨s, h1, h2⟩ := hs
          simp only [sessCall, cSetAttr]
          cases t with
          | none => exact ⟨⟨s, h1, h2⟩, hcnt⟩
          | some t =>
            dsimp only
            split
            · exact ⟨⟨s, h1, h2⟩, hcnt⟩
            split
            · exact ⟨⟨s, h1, h2⟩, hcnt⟩
            rename_i o hf
            obtain ⟨p1, p2, p3⟩ := findObj_parts hf
            have ht : ∀ en ∈ t, en.typ ∉ tied a := hb rfl
            unfold putObj
            cases hon : handleOnToken i with
            | true =>
              rw [hon, if_pos rfl] at h2
              simp only [if_true]
              refine ⟨⟨s, h1, ?_⟩, hcnt⟩
              rw [hon, if_pos rfl]
              exact h2.repl hp.uidOk.1 (p2 hon) true ha (fun _ => ht)
            | false =>
              rw [hon] at h2
              simp only [Bool.false_eq_true, if_false] at h2 ⊢
              have hj := getSession_handle hg
              refine ⟨?_, hcnt⟩
              by_cases hjh : h = sj.handle
              · have : sj = s := by rw [hjh, hj.1] at h1; exact Option.some.inj (hg.symm.trans h1)
                subst this
                refine ⟨_, by rw [hjh, getSession_upd_eq (by intro _; exact ⟨rfl, rfl⟩), hj.1, hg]; rfl, ?_⟩
                rw [hon]
                exact h2.repl (hp.uidOk.2 sj hj.2.2) (p3 hon) true ha (fun _ => ht)
              · refine ⟨s, by rw [getSession_upd_ne (by intro _; rfl) hjh]; exact h1, ?_⟩
                rw [hon]; exact h2
        | close => exact absurd hb hsp
        | destroy i => exact absurd hb hsp
        | _ => exact absurd trivial hsp

/-- Any number of calls. -/
theorem ShownIn.run (hh : HashLen e) (hr : RandLen e) {h : Nat} (ha : a.NotKeyMaterial) (cs : List Call)
    (hcs : ∀ c ∈ cs, Retains (tied a) h k c) :
    ∀ {l : Lib}, CapInv l → SInv l → 0 < l.count → (run e l cs).bad = false → ShownIn e a g l h k →
      ShownIn e a g (run e l cs) h k ∧ 0 < (run e l cs).count := by
  induction cs with
  | nil => intro l _ _ hc _ hw; exact ⟨hw, hc⟩
  | cons c cs ih =>
    intro l hcap hi hcnt hgood hw
    have hg1 : (Verif.step e l c).1.bad = false := run_good hgood
    obtain ⟨h1, h2⟩ := hw.step hcap.pop hi (step_good hg1).1 hcnt ha (hcs c List.mem_cons_self)
    exact ih (fun d hd => hcs d (List.mem_cons_of_mem _ hd)) (hcap.step hh hr hi c) (hi.step e c) h2 hgood h1

/-- An object that is shown is found. -/
theorem ShownIn.look {n : Nat} {l : Lib} (hi : HandleInv n l) (hn : n < 2 ^ 28) (hc : 0 < l.count) {h : Nat}
    (hs : ShownIn e a g l h k) : ∃ o, look l h k = some (some o) ∧ getAttr e.key o a = g := by
  obtain ⟨s, h1, o, ho, rfl, h2⟩ := hs
  unfold HandleInv at hi
  rw [if_pos hc] at hi
  have had : Addressed l h o.handle o := by
    refine ⟨?_, rfl⟩
    have : sessObjs l h = s.objs := by unfold sessObjs; rw [h1]; rfl
    rw [this]
    split at ho
    · exact List.mem_append_right _ ho
    · exact List.mem_append_left _ ho
  refine ⟨o.view, ?_, ?_⟩
  · unfold Verif.look
    rw [h1, Option.map_some, addressed_find hi hn h1 had, Option.map_some]
  · rw [← h2]; rfl

/-- The answer to reading one attribute depends on it only. -/
theorem read_one {x : KeyExt} {o o' : Obj} (h : getAttr x o a = getAttr x o' a) (m : Option Bytes) (n : Nat) :
    getAttributeValue x o [⟨a, m, n⟩] = getAttributeValue x o' [⟨a, m, n⟩] := by
  have h1 : getEntry x o ⟨a, m, n⟩ = getEntry x o' ⟨a, m, n⟩ := by
    unfold getEntry
    rw [h]
  unfold getAttributeValue getEntries
  rw [h1]
  rfl

/-- Reading an attribute into a buffer of the right size. -/
theorem read_data {x : KeyExt} {o : Obj} {w : Bytes} (h : getAttr x o a = getData w) (m : Bytes) {n : Nat} (hs : SizeFor a n)
    (hn : w.length ≤ n) :
    getAttributeValue x o [⟨a, some m, n⟩] = (.ok, [⟨a, some (w ++ m.drop w.length), w.length⟩]) := by
  have hc : checkEntry false { typ := a, mem := some m, len := n } = .ok := by
    unfold SizeFor at hs
    unfold checkEntry
    simp only
    cases hk : a.kind with
    | none => simp [hk] at hs
    | some k => cases k <;> simp_all
  simp [getAttributeValue, checkAttributes, hc, getEntries, getEntry, h, getData, Nat.not_lt.mpr hn]

theorem reading_plain {v w : Bytes} (h : reading a v = some w) : a.NotKeyMaterial := by
  cases a <;> first | (simp only [reading, reduceCtorEq] at h; done) | decide

/-- What a successful change leaves. -/
theorem reading_set {x : KeyExt} {o o' : Obj} {t : List Entry} {v w : Bytes} (h : setAttributeValue x true o t = (.ok, o'))
    (hl : LastIn t a v) (hw : reading a v = some w) : getAttr x o' a = getData w := by
  have hm : Entry.of a v ∈ t := by obtain ⟨t1, t2, rfl, -⟩ := hl; simp
  have use : ∀ i, opIdx a = some i → rdIdx a = some i → (∀ b, opIdx b = some i → b = a) →
      w = (if v.headD 0 = 0 then [0] else [1]) → getAttr x o' a = getData w := by
    intro i h1 h2 h3 h4
    have : o'.opFlag.getLsbD i = isTrue v := setAttributeValue_last (fun o => o.opFlag.getLsbD i) h hl
      (by intro o _; rw [setAttr_opBit _ _ i (opIdx_lt _ _ h1), val_of, if_pos (show opIdx (Entry.of a v).typ = some i from h1)])
      (fun o en hen => by rw [setAttr_opBit _ _ i (opIdx_lt _ _ h1), if_neg (fun hx => hen (h3 _ hx))])
    rw [getAttr_bit x o' a i h2, this, h4]
    congr 1
    unfold isTrue cbool
    by_cases hz : v.headD 0 = 0
    · simp only [hz, bne_self_eq_false, Bool.false_eq_true, if_false, if_true]
    · simp only [hz, if_false, bne_iff_ne, ne_eq, not_false_eq_true, if_true]
  cases a <;> first | (simp only [reading, reduceCtorEq] at hw; done) | skip
  case label =>
    obtain rfl := Option.some.inj hw
    have : o'.label = v := setAttributeValue_last (fun o => o.label) h hl
      (by intro o _; simp [setAttr, Entry.of, Entry.val]) (fun o e he => setAttr_label o e he)
    funext b n; simp [getAttr, this]
  case id =>
    obtain rfl := Option.some.inj hw
    have : o'.keyId = v := setAttributeValue_last (fun o => o.keyId) h hl
      (by intro o _; simp [setAttr, Entry.of, Entry.val]) (fun o e he => setAttr_id o e he)
    funext b n; simp [getAttr, this]
  case startDate =>
    simp only [reading] at hw
    split at hw
    · cases hw
    rename_i h0
    obtain rfl := Option.some.inj hw
    have h8 := checked_len h hm (k := .date) rfl (.inr rfl)
    have : o'.startDate = v := setAttributeValue_last (fun o => o.startDate) h hl
      (by intro o _; simp [setAttr, Entry.of, Entry.val, h8, List.take_of_length_le (Nat.le_of_eq h8)]) (fun o e he => setAttr_start o e he)
    funext b n; simp only [getAttr, this, if_neg h0]
  case endDate =>
    simp only [reading] at hw
    split at hw
    · cases hw
    rename_i h0
    obtain rfl := Option.some.inj hw
    have h8 := checked_len h hm (k := .date) rfl (.inr rfl)
    have : o'.endDate = v := setAttributeValue_last (fun o => o.endDate) h hl
      (by intro o _; simp [setAttr, Entry.of, Entry.val, h8, List.take_of_length_le (Nat.le_of_eq h8)]) (fun o e he => setAttr_end o e he)
    funext b n; simp only [getAttr, this, if_neg h0]
  case cls =>
    obtain rfl := Option.some.inj hw
    have h8 := checked_len h hm (k := .ulong) rfl (.inl rfl)
    have : o'.cls = leNat v := setAttributeValue_last (fun o => o.cls) h hl
      (by
        intro o ho
        simp only [setAttr] at ho ⊢
        rw [val_of] at ho ⊢
        simp only [Entry.of] at ho ⊢
        split
        · rename_i hr; rw [if_pos hr] at ho; cases ho
        · rfl) (fun o e he => setAttr_cls o e he)
    have hb : ulong (leNat v) = v := by rw [ulong, ← h8]; exact leBytes_leNat v
    funext b n; simp [getAttr, this, hb]
  all_goals exact use _ rfl rfl (by intro b; cases b <;> simp [opIdx]) (Option.some.inj hw).symm

end Verif
