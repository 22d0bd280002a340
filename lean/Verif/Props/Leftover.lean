import Verif.Spec.Leftover
import Verif.Props.AtRest

/-!
# What destroyed objects leave in the directory (C37), and nonces (C38)
-/

namespace Verif

variable {e : Env} {x : StoreExt} {key : Bytes}

theorem puts_some {d : Disk} {ws : List Write} {f : FName} {b : Bytes} (h : d.puts ws f = some b) :
    (f, b) ∈ ws ∨ (d f = some b ∧ ∀ w ∈ ws, w.1 ≠ f) := by
  induction ws generalizing d with
  | nil => exact .inr ⟨h, fun w hw => by cases hw⟩
  | cons w ws ih =>
    rcases ih (d := d.put w) h with h | ⟨h, hn⟩
    · exact .inl (List.mem_cons_of_mem _ h)
    · unfold Disk.put at h
      split at h
      · rename_i hf
        cases h
        left
        rw [hf]
        exact List.mem_cons_self
      · rename_i hf
        refine .inr ⟨h, fun v hv => ?_⟩
        rcases List.mem_cons.mp hv with rfl | hv
        · exact fun hx => hf hx.symm
        · exact hn v hv

/-- The files written for the objects are theirs. -/
theorem storeObjs_fileOf (hx : StoreLaws x) {os : List Obj} (h : ∀ o ∈ os, o.Storable) (r : Nat) :
    ∀ w ∈ (storeObjs x key r os).1, ∃ a o c, os = a ++ o :: c ∧ o.FileOf c.length w.1 w.2 := by
  induction os with
  | nil => intro w hw; cases hw
  | cons o os ih =>
    obtain ⟨f, t, d, hf, _, ht, hd, _, he⟩ := storeObj_storable (key := key) hx (h o List.mem_cons_self) r os.length
    intro w hw
    simp only [storeObjs, he, if_true, List.cons_append, List.nil_append, List.mem_cons] at hw
    rcases hw with rfl | rfl | hw
    · exact ⟨[], o, os, rfl, rfl, .inl ⟨rfl, rfl⟩⟩
    · exact ⟨[], o, os, rfl, rfl, .inr ⟨hf, d, t, hd, ht, rfl⟩⟩
    · obtain ⟨a, p, c, rfl, hp⟩ := ih (fun p hp => h p (List.mem_cons_of_mem _ hp)) w hw
      exact ⟨o :: a, p, c, rfl, hp⟩

theorem TidyFiles.only {os : List Obj} {d : Disk} (h : TidyFiles os d) : OnlyFilesOf os d := by
  intro f b hb hf
  rcases h f b hb hf with h | ⟨a, o, r, rfl, ho⟩
  · exact .inl h
  · exact .inr ⟨o, List.mem_append_right _ List.mem_cons_self, _, ho⟩

/-- Storing a token of storable keys. -/
theorem store_storable (hx : StoreLaws e.store) {l : Lib} (h : ∀ o ∈ l.token.objs, o.Storable) :
    (Lib.store e l).1.token.objs = l.token.objs ∧
    (Lib.store e l).1.disk = (l.disk.put ((.token, 0), wrToken l.token.toRec)).puts
      (storeObjs e.store l.token.key l.rng l.token.objs).1 := by
  refine ⟨?_, rfl⟩
  show (storeObjs e.store l.token.key l.rng l.token.objs).2.1 = _
  rw [(storeObjs_storable hx h l.rng).1]

theorem put_token {d : Disk} {b : Bytes} {f : FName} (hf : f ≠ (.token, 0)) : (d.put ((.token, 0), b)) f = d f := by
  unfold Disk.put; exact if_neg hf

/-- Storing keeps the directory tidy. -/
theorem TidyFiles.store (hx : StoreLaws e.store) {l : Lib} (h : ∀ o ∈ l.token.objs, o.Storable)
    (ht : TidyFiles l.token.objs l.disk) : TidyFiles (Lib.store e l).1.token.objs (Lib.store e l).1.disk := by
  obtain ⟨h1, h2⟩ := store_storable hx h
  rw [h1, h2]
  intro f b hb hf
  rcases puts_some hb with hw | ⟨hb, _⟩
  · exact .inr (storeObjs_fileOf hx h _ _ hw)
  · rw [put_token hf] at hb
    exact ht f b hb hf

theorem OnlyFilesOf.store (hx : StoreLaws e.store) {l : Lib} (h : ∀ o ∈ l.token.objs, o.Storable)
    (ht : OnlyFilesOf l.token.objs l.disk) : OnlyFilesOf (Lib.store e l).1.token.objs (Lib.store e l).1.disk := by
  obtain ⟨h1, h2⟩ := store_storable hx h
  rw [h1, h2]
  intro f b hb hf
  rcases puts_some hb with hw | ⟨hb, _⟩
  · obtain ⟨a, o, c, h3, ho⟩ := storeObjs_fileOf hx h _ _ hw
    exact .inr ⟨o, by rw [h3]; exact List.mem_append_right _ List.mem_cons_self, _, ho⟩
  · rw [put_token hf] at hb
    exact ht f b hb hf

theorem dropWhile_uid {a : List Obj} {o : Obj} {r : List Obj} (hn : ((a ++ o :: r).map (·.uid)).Nodup) {u : Nat} (hu : o.uid = u) :
    ((a ++ o :: r).dropWhile fun p => p.uid != u) = o :: r := by
  induction a with
  | nil => simp [hu]
  | cons q a ih =>
    simp only [List.cons_append, List.map_cons, List.nodup_cons] at hn
    have hq : q.uid ≠ u := by
      intro hx
      refine hn.1 (List.mem_map.mpr ⟨o, List.mem_append_right _ List.mem_cons_self, ?_⟩)
      rw [hu, hx]
    simp only [List.cons_append, List.dropWhile_cons, bne_iff_ne, ne_eq, hq, not_false_eq_true, if_true]
    exact ih hn.2

/-- Emptying the files of an object. -/
theorem unstore_only {os : List Obj} (hn : (os.map (·.uid)).Nodup) {d : Disk} (ht : TidyFiles os d) (o : Obj) (ho : o ∈ os) :
    OnlyFilesOf (os.filter fun p => p.uid != o.uid)
      (d.puts (unstore o ((os.dropWhile fun p => p.uid != o.uid).length - 1))) := by
  intro f b hb hf
  have hun : ∀ i, ∀ w ∈ unstore o i, w.2 = [] := by
    intro i w hw
    unfold unstore at hw
    split at hw <;> simp only [List.mem_cons, List.not_mem_nil, or_false] at hw
    · rcases hw with rfl | rfl <;> rfl
    · rw [hw]
  rcases puts_some hb with hw | ⟨hb, hne⟩
  · exact .inl (hun _ _ hw)
  · rcases ht f b hb hf with h | ⟨a, p, r, hs, hp⟩
    · exact .inl h
    · by_cases hu : p.uid = o.uid
      · exfalso
        have hpo : p = o := by
          have := uid_inj hn (p := p) (q := o) (by rw [hs]; exact List.mem_append_right _ List.mem_cons_self) ho hu
          exact this
        subst hpo
        rw [hs] at hn hne
        rw [dropWhile_uid hn rfl] at hne
        simp only [List.length_cons, Nat.add_sub_cancel] at hne
        obtain ⟨hi, hp⟩ := hp
        obtain ⟨k, i⟩ := f
        dsimp only at hi hp
        subst hi
        rcases hp with ⟨hk, _⟩ | ⟨hk, _⟩
        · refine hne ((.object, r.length), []) ?_ (by rw [hk])
          unfold unstore; exact List.mem_cons_self
        · refine hne ((k, r.length), []) ?_ rfl
          unfold unstore
          rw [hk]
          exact List.mem_cons_of_mem _ List.mem_cons_self
      · refine .inr ⟨p, List.mem_filter.mpr ⟨by rw [hs]; exact List.mem_append_right _ List.mem_cons_self, ?_⟩, _, hp⟩
        simpa using hu

/-- A successful `C_DestroyObject` of a token object. -/
theorem destroy_token (hh : HashLen e) (hr : RandLen e) {l₀ : Lib} (h₀ : Start l₀) (hd : NoToken l₀) {cs : List Call}
    (hb : BoolToken cs) (hn : 2 * cs.length < 2 ^ 28) {h k : Nat} (hk : handleOnToken k = true)
    (hok : (answer e (run e l₀ cs) (.sess h (.destroy k))).rv = .ok) :
    ∃ o ∈ tokenObjs (run e l₀ cs), o.handle = k ∧ (step e (run e l₀ cs) (.sess h (.destroy k))).1 = removeToken e (run e l₀ cs) o := by
  obtain ⟨_, _, hx⟩ := reach_inv hh hr h₀ hd cs hb hn
  generalize run e l₀ cs = l at *
  obtain ⟨_, hpos, s, hs, hstep⟩ := sess_step hok
  unfold HandleInv at hx
  rw [if_pos hpos] at hx
  unfold answer at hok
  rw [hstep] at hok ⊢
  simp only [sessCall, cDestroy] at hok ⊢
  split at hok
  · cases hok
  rename_i hrw
  rw [if_neg hrw]
  split at hok
  · cases hok
  rename_i o ho
  have hf : l.token.objs.find? (fun o => o.handle == k) = some o := by
    unfold findObj at ho; rwa [hk] at ho
  have hm := List.mem_of_find?_eq_some hf
  have hon : o.onToken = true := hx.tok.bit o.hb (List.mem_map.mpr ⟨o, hm, rfl⟩)
  refine ⟨o, hm, by simpa using List.find?_some hf, ?_⟩
  simp only [hk, hon, if_true]

/-- **C37**, at the first destruction: if every file belongs to the object at its place (as it is
when nothing has been destroyed), then after `C_DestroyObject` of *any* token object every file is
empty or belongs to one of the remaining objects.
Missing: after that the files are no longer numbered as the objects are, and the next
destruction can leave a copy (`Demo.c37_violated`). -/
theorem c37_partial (hx : StoreLaws e.store) (hh : HashLen e) (hr : RandLen e) {l₀ : Lib} (h₀ : Start l₀) (hd : NoToken l₀)
    {cs : List Call} (hb : BoolToken cs) (hn : 2 * cs.length < 2 ^ 28)
    (hs : ∀ o ∈ tokenObjs (run e l₀ cs), o.Storable) (ht : TidyFiles (tokenObjs (run e l₀ cs)) (run e l₀ cs).disk)
    {h k : Nat} (hk : handleOnToken k = true) (hok : (answer e (run e l₀ cs) (.sess h (.destroy k))).rv = .ok) :
    let l' := run e l₀ (cs ++ [.sess h (.destroy k)])
    (∀ o ∈ tokenObjs l', o.handle ≠ k) ∧ OnlyFilesOf (tokenObjs l') l'.disk := by
  intro l'
  obtain ⟨o, ho, hok', hst⟩ := destroy_token hh hr h₀ hd hb hn hk hok
  have hrun : l' = removeToken e (run e l₀ cs) o := by
    rw [← hst]; show run e l₀ (cs ++ [_]) = _; rw [run_append]; rfl
  have huid := ((Start.capInv h₀ hd).run hh hr h₀.sinv cs).pop.uidOk.1
  have hdist := (c18_distinct hh hr h₀ hd cs hb hn).1
  rw [hrun]
  generalize run e l₀ cs = l at *
  have hs' : ∀ p ∈ l.token.objs.filter (fun p => p.uid != o.uid), p.Storable := fun p hp => hs p (List.mem_filter.mp hp).1
  refine ⟨?_, OnlyFilesOf.store hx (l := { l with
    token := { l.token with objs := l.token.objs.filter fun p => p.uid != o.uid }, disk := _ }) hs' (unstore_only huid ht o ho)⟩
  intro p hp hpk
  have h1 : tokenObjs (removeToken e l o) = l.token.objs.filter fun p => p.uid != o.uid :=
    (store_storable hx (l := { l with
      token := { l.token with objs := l.token.objs.filter fun p => p.uid != o.uid }, disk := _ }) hs').1
  rw [h1] at hp
  obtain ⟨hp, hpu⟩ := List.mem_filter.mp hp
  obtain ⟨a, b, hs1, _, _⟩ := split_uid huid ho
  have : p = o := by
    unfold tokenObjs at hdist
    rw [hs1] at hp hdist
    simp only [List.map_append, List.map_cons] at hdist
    have hd2 := List.nodup_append.mp hdist
    rcases List.mem_append.mp hp with hp | hp
    · exact absurd (hpk.trans hok'.symm) (hd2.2.2 p.handle (List.mem_map.mpr ⟨p, hp, rfl⟩) o.handle List.mem_cons_self)
    · rcases List.mem_cons.mp hp with hp | hp
      · exact hp
      · exact absurd (List.mem_map.mpr ⟨p, hp, hpk.trans hok'.symm⟩) (List.nodup_cons.mp hd2.2.1).1
  rw [this] at hpu
  simp at hpu

/-- **C37** for the newest object: destroying it keeps the directory tidy, so that this can go
on. -/
theorem c37_newest_partial (hx : StoreLaws e.store) (hh : HashLen e) (hr : RandLen e) {l₀ : Lib} (h₀ : Start l₀) (hd : NoToken l₀)
    {cs : List Call} (hb : BoolToken cs) (hn : 2 * cs.length < 2 ^ 28) {o : Obj} {os : List Obj}
    (hos : tokenObjs (run e l₀ cs) = o :: os)
    (hs : ∀ o ∈ tokenObjs (run e l₀ cs), o.Storable) (ht : TidyFiles (tokenObjs (run e l₀ cs)) (run e l₀ cs).disk)
    {h : Nat} (hk : handleOnToken o.handle = true) (hok : (answer e (run e l₀ cs) (.sess h (.destroy o.handle))).rv = .ok) :
    let l' := run e l₀ (cs ++ [.sess h (.destroy o.handle)])
    tokenObjs l' = os ∧ TidyFiles (tokenObjs l') l'.disk := by
  intro l'
  obtain ⟨p, hp, hpk, hst⟩ := destroy_token hh hr h₀ hd hb hn hk hok
  have hrun : l' = removeToken e (run e l₀ cs) p := by
    rw [← hst]; show run e l₀ (cs ++ [_]) = _; rw [run_append]; rfl
  have huid := ((Start.capInv h₀ hd).run hh hr h₀.sinv cs).pop.uidOk.1
  have hdist := (c18_distinct hh hr h₀ hd cs hb hn).1
  rw [hrun]
  generalize run e l₀ cs = l at *
  have hpo : p = o := by
    rw [hos] at hp hdist
    rcases List.mem_cons.mp hp with hp | hp
    · exact hp
    · exact absurd (List.mem_map.mpr ⟨p, hp, hpk⟩) (List.nodup_cons.mp hdist).1
  subst hpo
  have hos' : l.token.objs = p :: os := hos
  have hfil : (l.token.objs.filter fun q => q.uid != p.uid) = os := by
    rw [hos'] at huid ⊢
    simp only [List.map_cons, List.nodup_cons] at huid
    simp only [List.filter_cons, bne_self_eq_false, Bool.false_eq_true, if_false]
    refine List.filter_eq_self.mpr fun q hq => ?_
    simp only [bne_iff_ne, ne_eq]
    exact fun he => huid.1 (List.mem_map.mpr ⟨q, hq, he⟩)
  have hs' : ∀ q ∈ os, q.Storable := fun q hq => hs q (by rw [hos]; exact List.mem_cons_of_mem _ hq)
  have hrem : removeToken e l p = (Lib.store e { l with
      token := { l.token with objs := os },
      disk := l.disk.puts (unstore p ((l.token.objs.dropWhile fun q => q.uid != p.uid).length - 1)) }).1 := by
    unfold removeToken; rw [hfil]
  rw [hrem]
  refine ⟨(store_storable hx (l := { l with token := { l.token with objs := os }, disk := _ }) hs').1,
    TidyFiles.store hx (l := { l with token := { l.token with objs := os }, disk := _ }) hs' ?_⟩
  intro f b hb hf
  have honly := unstore_only huid ht p (by rw [hos']; exact List.mem_cons_self)
  rcases honly f b hb hf with h | ⟨q, hq, i, hqf⟩
  · exact .inl h
  · rcases puts_some hb with hw | ⟨hb, hne⟩
    · left
      unfold unstore at hw
      split at hw <;> simp only [List.mem_cons, List.not_mem_nil, or_false] at hw
      · rcases hw with hw | hw <;> cases hw <;> rfl
      · cases hw; rfl
    · rcases ht f b hb hf with h | ⟨a, q, r, hs, hq⟩
      · exact .inl h
      · rw [hos] at hs
        cases a with
        | nil =>
          exfalso
          cases hs
          rw [hos', show (p :: os : List Obj) = [] ++ p :: os from rfl,
            dropWhile_uid (a := []) (by rw [hos'] at huid; exact huid) rfl] at hne
          simp only [List.length_cons, Nat.add_sub_cancel] at hne
          obtain ⟨hi, hp⟩ := hq
          obtain ⟨k, i⟩ := f
          dsimp only at hi hp
          subst hi
          rcases hp with ⟨hk, _⟩ | ⟨hk, _⟩
          · refine hne ((.object, os.length), []) ?_ (by rw [hk])
            unfold unstore; exact List.mem_cons_self
          · refine hne ((k, os.length), []) ?_ rfl
            unfold unstore
            rw [hk]
            exact List.mem_cons_of_mem _ List.mem_cons_self
        | cons c a =>
          cases hs
          exact .inr ⟨a, q, r, rfl, hq⟩

/-! ## Creation -/

/-- The encoded key of a key object that has just been encoded. -/
theorem encodeObj_kept {k : Bytes} {o : Obj} (hc : o.cls ≠ CKO_CERTIFICATE) (h : (encodeObj x k false o).1 = true) :
    ((encodeObj x k false o).2.keyData).isSome = true := by
  unfold encodeObj at h ⊢
  rw [if_neg hc] at h ⊢
  simp only [Bool.false_eq_true, false_and, if_false] at h ⊢
  revert h
  unfold encodeKey
  repeat' split
  · exact id
  · exact id
  · exact fun _ => rfl
  · exact fun _ => rfl
  · intro h; cases h

/-- A key that has its encoded form is not changed when it is stored. -/
theorem storeObj_kept {k : Bytes} {o : Obj} (h : o.keyData.isSome = true) (r i : Nat) : (storeObj x k r o i).obj = o := by
  have h1 : needsIv o = false := by
    unfold needsIv
    cases hk : o.keyData with
    | none => rw [hk] at h; cases h
    | some d => simp
  have h2 : o.keyData.isNone = false := by
    cases hk : o.keyData with
    | none => rw [hk] at h; cases h
    | some d => rfl
  unfold storeObj
  simp only [h1, h2, Bool.false_eq_true, if_false]
  repeat' split
  all_goals rfl

/-- Adding an object to the token: if all objects are storable after it, the directory stays
tidy. -/
theorem sessAdd_tidy (hx : StoreLaws e.store) {l l' : Lib} {s : Session} {on k : Nat} {o : Obj}
    (h : sessAddObject e l s on o = (l', some k)) (hs : ∀ p ∈ tokenObjs l, p.Storable)
    (hs' : ∀ p ∈ tokenObjs l', p.Storable) (ht : TidyFiles (tokenObjs l) l.disk) :
    TidyFiles (tokenObjs l') l'.disk := by
  unfold sessAddObject at h
  dsimp only at h
  split at h
  · split at h
    · obtain ⟨_, h2⟩ := Prod.mk.inj h; cases h2
    split at h
    · rename_i hr
      obtain ⟨h1, _⟩ := Prod.mk.inj h
      subst h1
      generalize hq : (encodeObj e.store l.token.key false { o with onToken := decide (on % 2 = 1), uid := l.uid }) = q at *
      have hhead : ∃ p ps, tokenObjs (Lib.store e { l with uid := l.uid + 1, token := { l.token with objs := { q.2 with handle := nextHandle l.token.objs on } :: l.token.objs } }).1 = p :: ps ∧
          p = (storeObj e.store l.token.key l.rng { q.2 with handle := nextHandle l.token.objs on } l.token.objs.length).obj := by
        show ∃ p ps, (storeObjs e.store l.token.key l.rng (_ :: _)).2.1 = p :: ps ∧ _
        simp only [storeObjs]
        split
        · exact ⟨_, _, rfl, rfl⟩
        · exact ⟨_, _, rfl, rfl⟩
      obtain ⟨p, ps, hp, hpe⟩ := hhead
      have hps : p.Storable := hs' p (by rw [hp]; exact List.mem_cons_self)
      have hcls : p.cls = o.cls := by
        have h1 := congrArg (fun z : Obj => z.cls) (storeObj_view e.store l.token.key l.rng { q.2 with handle := nextHandle l.token.objs on } l.token.objs.length)
        rw [← hpe] at h1
        have h2 : q.2.cls = o.cls := by
          rw [← hq]
          unfold encodeObj encodeKey encodeRsa encodeEcc encodeDh encodeSymm
          simp only [Bool.false_eq_true, false_and, if_false]
          repeat' split
          all_goals rfl
        exact h1.trans h2
      have hkept : q.2.keyData.isSome = true := by
        have := encodeObj_kept (x := e.store) (k := l.token.key) (o := { o with onToken := decide (on % 2 = 1), uid := l.uid })
          (by show o.cls ≠ _; rw [← hcls]; exact hps.form.1) (by rw [hq]; exact hr)
        rwa [hq] at this
      have hpq : p = { q.2 with handle := nextHandle l.token.objs on } := by
        rw [hpe]; exact storeObj_kept (o := { q.2 with handle := nextHandle l.token.objs on }) hkept _ _
      refine TidyFiles.store hx (l := { l with uid := l.uid + 1, token := { l.token with objs := { q.2 with handle := nextHandle l.token.objs on } :: l.token.objs } }) ?_ ?_
      · intro z hz
        rcases List.mem_cons.mp hz with rfl | hz
        · rw [← hpq]; exact hps
        · exact hs z hz
      · intro f b hb hf
        rcases ht f b hb hf with h | ⟨a, z, r, hsp, hz⟩
        · exact .inl h
        · refine .inr ⟨{ q.2 with handle := nextHandle l.token.objs on } :: a, z, r, ?_, hz⟩
          show _ :: l.token.objs = _
          rw [show l.token.objs = a ++ z :: r from hsp]; rfl
    · obtain ⟨_, h2⟩ := Prod.mk.inj h; cases h2
  · split at h
    · obtain ⟨_, h2⟩ := Prod.mk.inj h; cases h2
    obtain ⟨h1, _⟩ := Prod.mk.inj h
    subst h1
    exact ht

/-- **C37**, making objects: a call that makes one object keeps the directory tidy. -/
theorem c37_create_partial (hx : StoreLaws e.store) {l : Lib} {h : Nat} {c : SessCall} (hc : c.creates ≠ [])
    (hg : ∀ m p q b, c ≠ .genPair m p q b) (hb : BoolToken [.sess h c])
    (hok : (answer e l (.sess h c)).rv = .ok) (hs : ∀ p ∈ tokenObjs l, p.Storable)
    (hs' : ∀ p ∈ tokenObjs (run e l [.sess h c]), p.Storable) (ht : TidyFiles (tokenObjs l) l.disk) :
    TidyFiles (tokenObjs (run e l [.sess h c])) (run e l [.sess h c]).disk := by
  obtain ⟨_, _, s, hss, hstep⟩ := sess_step hok
  have hrun : run e l [.sess h c] = (sessCall e l s c).1 := by rw [← hstep]; rfl
  rw [hrun] at hs' ⊢
  rcases creates_made (e := e) l s c hc (boolToken_tokOk (cs := []) hb) with hm | ⟨_, m, p, q, b, hcc⟩
  · generalize sessCall e l s c = r at *
    cases hm with
    | kept hk _ _ =>
      unfold tokenObjs at hs ht ⊢
      rw [hk.tok, hk.disk]; exact ht
    | one hk ha _ _ _ _ =>
      refine sessAdd_tidy hx ha ?_ hs' ?_
      · unfold tokenObjs; rw [hk.tok]; exact hs
      · unfold tokenObjs; rw [hk.tok, hk.disk]; exact ht
  · exact absurd hcc (hg m p q b)

/-! ## Nonces -/

/-- What is in the list after an object has been added to the token. -/
theorem sessAdd_head {l l' : Lib} {s : Session} {on k : Nat} {o : Obj} (h : sessAddObject e l s on o = (l', some k)) :
    l'.token.key = l.token.key ∧
    ((tokenObjs l').length = (tokenObjs l).length + 1 → ∃ p ps, tokenObjs l' = p :: ps ∧ p.handle = k ∧
      (p.cls ≠ CKO_CERTIFICATE → p.typ = CKK_AES ∨ p.typ = CKK_GENERIC_SECRET → p.iv = o.iv ∧
        p.keyData = some (e.store.aeadEnc l.token.key o.iv p.symm)) ∧
      ∀ p₀ ps₀, tokenObjs l = p₀ :: ps₀ → p₀.keyData.isSome = true → ∃ ps', ps = p₀ :: ps') := by
  unfold sessAddObject at h
  dsimp only at h
  split at h
  · split at h
    · obtain ⟨_, h2⟩ := Prod.mk.inj h; cases h2
    split at h
    · rename_i hr
      obtain ⟨h1, h2⟩ := Prod.mk.inj h
      subst h1
      cases h2
      refine ⟨rfl, fun _ => ?_⟩
      generalize hq : (encodeObj e.store l.token.key false { o with onToken := decide (on % 2 = 1), uid := l.uid }) = q at *
      have hhead : ∃ p ps, tokenObjs (Lib.store e { l with uid := l.uid + 1, token := { l.token with objs := { q.2 with handle := nextHandle l.token.objs on } :: l.token.objs } }).1 = p :: ps ∧
          p = (storeObj e.store l.token.key l.rng { q.2 with handle := nextHandle l.token.objs on } l.token.objs.length).obj ∧
          (ps = l.token.objs ∨ ∃ r, ps = (storeObjs e.store l.token.key r l.token.objs).2.1) := by
        show ∃ p ps, (storeObjs e.store l.token.key l.rng (_ :: _)).2.1 = p :: ps ∧ _
        simp only [storeObjs]
        split
        · exact ⟨_, _, rfl, rfl, .inr ⟨_, rfl⟩⟩
        · exact ⟨_, _, rfl, rfl, .inl rfl⟩
      obtain ⟨p, ps, hp, hpe, hps⟩ := hhead
      have hv := storeObj_view e.store l.token.key l.rng { q.2 with handle := nextHandle l.token.objs on } l.token.objs.length
      rw [← hpe] at hv
      refine ⟨p, ps, hp, congrArg (fun z : Obj => z.handle) hv, fun hc ht => ?_, fun p₀ ps₀ h0 hk0 => ?_⟩
      rotate_left
      · have h0 : l.token.objs = p₀ :: ps₀ := h0
        rw [h0] at hps
        rcases hps with rfl | ⟨r, rfl⟩
        · exact ⟨_, rfl⟩
        · simp only [storeObjs]
          split
          · exact ⟨_, by rw [storeObj_kept hk0]⟩
          · exact ⟨_, by rw [storeObj_kept hk0]⟩
      have hq2 : q.2.cls = o.cls ∧ q.2.typ = o.typ := by
        rw [← hq]
        unfold encodeObj encodeKey encodeRsa encodeEcc encodeDh encodeSymm
        simp only [Bool.false_eq_true, false_and, if_false]
        repeat' split
        all_goals exact ⟨rfl, rfl⟩
      have hcls : p.cls = o.cls := (congrArg (fun z : Obj => z.cls) hv).trans hq2.1
      have htyp : p.typ = o.typ := (congrArg (fun z : Obj => z.typ) hv).trans hq2.2
      rw [hcls] at hc
      rw [htyp] at ht
      have hqe : q = (true, { ({ o with onToken := decide (on % 2 = 1), uid := l.uid } : Obj) with
          keyData := some (e.store.aeadEnc l.token.key o.iv o.symm) }) := by
        rw [← hq]
        unfold encodeObj
        rw [if_neg hc]
        unfold encodeKey
        rcases ht with ht | ht <;> simp only [ht, Bool.false_eq_true, false_and, if_false] <;> rfl
      have hpq : p = { q.2 with handle := nextHandle l.token.objs on } := by
        rw [hpe]; exact storeObj_kept (o := { q.2 with handle := nextHandle l.token.objs on }) (by rw [hqe]; rfl) _ _
      rw [hpq, hqe]
      exact ⟨rfl, rfl⟩
    · obtain ⟨_, h2⟩ := Prod.mk.inj h; cases h2
  · split at h
    · obtain ⟨_, h2⟩ := Prod.mk.inj h; cases h2
    obtain ⟨h1, _⟩ := Prod.mk.inj h
    subst h1
    exact ⟨rfl, fun hx => absurd hx (by show l.token.objs.length ≠ l.token.objs.length + 1; omega)⟩

/-- The nonce of a new object is all zero. -/
theorem createObject_nonce (e : Env) (s : Session) (t : List Entry) : (createObject e s t).2.iv = List.replicate 12 0 := by
  have hn : ∀ typ cls, (newObject e s typ cls t).2.iv = List.replicate 12 0 := by
    intro typ cls
    unfold newObject
    refine setAttributeValue_inv (P := fun o => o.iv = List.replicate 12 0) _ _ _ _ ?_ ?_ rfl
    · intro p v hp
      obtain ⟨d, s, h⟩ := setKey_frame e.key p v
      rw [h]; exact hp
    · intro p en _ hp
      rw [(setAttr_rest p en).iv]; exact hp
  unfold createObject
  repeat' split
  all_goals first | rfl | exact hn _ _

/-- **C38**, what happens instead: in every state, a secret key made on the token by
`C_CreateObject` is encrypted under the storage key of the moment with the nonce zero. (The object made before stays next to it.) -/
theorem c38_zero_nonce {l : Lib} {h : Nat} {t : List Entry} (hok : (answer e l (createCall h t)).rv = .ok)
    (hl : (tokenObjs (run e l [createCall h t])).length = (tokenObjs l).length + 1) :
    (run e l [createCall h t]).token.key = l.token.key ∧
    ∃ p ps, tokenObjs (run e l [createCall h t]) = p :: ps ∧ (answer e l (createCall h t)).handle = some p.handle ∧
      (p.cls ≠ CKO_CERTIFICATE → p.typ = CKK_AES ∨ p.typ = CKK_GENERIC_SECRET →
        p.keyData = some (e.store.aeadEnc l.token.key (List.replicate 12 0) p.symm)) ∧
      ∀ p₀ ps₀, tokenObjs l = p₀ :: ps₀ → p₀.keyData.isSome = true → ∃ ps', ps = p₀ :: ps' := by
  obtain ⟨_, _, s, hss, hstep⟩ := sess_step hok
  have hrun : run e l [createCall h t] = (sessCall e l s (.create (some t) true)).1 := by rw [← hstep]; rfl
  rw [hrun] at hl ⊢
  unfold answer at hok ⊢
  unfold createCall at hok ⊢
  rw [hstep] at hok ⊢
  simp only [sessCall, cCreate, Bool.not_true, Bool.false_eq_true, if_false] at hok hl ⊢
  split at hok
  · cases hok
  rename_i hrw
  rw [if_neg hrw] at hl ⊢
  have hiv := createObject_nonce e s t
  split at hok
  · rename_i o ho
    rw [ho] at hiv
    simp only [ho] at hl ⊢
    unfold addObject at hok hl ⊢
    split at hok
    · rename_i hx; cases hok; simp [hx] at hl
    · rename_i on hon
      simp only [hon] at hl ⊢
      split at hok
      · cases hok
      · rename_i l' k hk
        simp only [hk] at hl ⊢
        obtain ⟨h1, h2⟩ := sessAdd_head hk
        obtain ⟨p, ps, hp, hpk, hc, hrest⟩ := h2 hl
        refine ⟨h1, p, ps, hp, by rw [hpk], fun a b => ?_, hrest⟩
        rw [(hc a b).2, hiv]
  · rename_i hne heq
    cases hok
    exact (hne rfl).elim

/-- **C38** is violated, in every environment and in every state: of two secret keys made on the token one after
the other both are encrypted under the same key with the same nonce. -/
theorem c38_violated {l : Lib} {h : Nat} {t t' : List Entry} (hok : (answer e l (createCall h t)).rv = .ok)
    (hok' : (answer e (run e l [createCall h t]) (createCall h t')).rv = .ok)
    (hl : (tokenObjs (run e l [createCall h t])).length = (tokenObjs l).length + 1)
    (hl' : (tokenObjs (run e l [createCall h t, createCall h t'])).length = (tokenObjs l).length + 2)
    (hk : ∀ p ∈ (tokenObjs (run e l [createCall h t, createCall h t'])).take 2, p.cls = CKO_SECRET_KEY ∧ p.typ = CKK_AES)
    (hk₁ : ∀ p ∈ (tokenObjs (run e l [createCall h t])).take 1, p.cls = CKO_SECRET_KEY ∧ p.typ = CKK_AES) :
    ∃ key nonce p q ps, tokenObjs (run e l [createCall h t, createCall h t']) = q :: p :: ps ∧
      p.keyData = some (e.store.aeadEnc key nonce p.symm) ∧ q.keyData = some (e.store.aeadEnc key nonce q.symm) := by
  have hrun : run e l [createCall h t, createCall h t'] = run e (run e l [createCall h t]) [createCall h t'] := rfl
  obtain ⟨a1, p, ps, a2, _, a3, _⟩ := c38_zero_nonce hok hl
  rw [hrun] at hl' hk ⊢
  obtain ⟨_, q, qs, b2, _, b3, b4⟩ := c38_zero_nonce hok' (by rw [hl', hl])
  have hp := hk₁ p (by rw [a2]; exact List.mem_cons_self)
  have hpd := a3 (by rw [hp.1]; decide) (.inl hp.2)
  obtain ⟨qs', rfl⟩ := b4 p ps a2 (by rw [hpd]; rfl)
  have hq := hk q (by rw [b2]; exact List.mem_cons_self)
  have hqd := b3 (by rw [hq.1]; decide) (.inl hq.2)
  rw [a1] at hqd
  exact ⟨_, _, p, q, qs', b2, hpd, hqd⟩

namespace Demo

/-- Two token keys. -/
def twoKeys : List Call := withKey ++ [createCall 65538 (openTmpl true 9)]

set_option maxRecDepth 20000 in
/-- C37 is violated: two keys are made, the older one is destroyed and then the newer one. Both calls
succeed and the token is empty, but the file of the newer key is still there, and it is
the value of the key encrypted under the user's storage key. -/
theorem c37_violated :
    let cs := twoKeys ++ [.sess 65538 (.destroy tok1), .sess 65538 (.destroy (tok1 + 1))]
    rvs env fresh cs = List.replicate 11 .ok ∧ tokenObjs (run env fresh cs) = [] ∧
    (run env fresh cs).disk (.symmKey, 1) =
      some (wrArray (env.store.aeadEnc (run env fresh cs).token.key (List.replicate 12 0) (List.replicate 16 9))) := by decide

set_option maxRecDepth 20000 in
theorem setup_disk : ∃ a b, (run env fresh setup).disk = (fresh.disk.put ((.token, 0), a)).put ((.token, 0), b) :=
  ⟨_, _, rfl⟩

theorem setup_tidy : TidyFiles (tokenObjs (run env fresh setup)) (run env fresh setup).disk := by
  obtain ⟨a, b, h⟩ := setup_disk
  intro f c hc hf
  rw [h, put_token hf, put_token hf] at hc
  cases hc

set_option maxRecDepth 20000 in
theorem twoKeys_objs : ∀ o ∈ tokenObjs (run env fresh twoKeys), o.typ = CKK_AES ∧ o.cls = CKO_SECRET_KEY ∧
    o.data = .symm o.symm ∧ o.symm.length = 16 := by decide

set_option maxRecDepth 20000 in
theorem twoKeys_stored : ∀ o ∈ tokenObjs (run env fresh twoKeys),
    (o.iv.length = 12 ∧ o.handle ≤ tok1 + 1 ∧ o.keyGenMech < 2 ^ 64 ∧ o.startDate.length = 8 ∧ o.endDate.length = 8 ∧
      o.keyId = [] ∧ o.label = []) ∧ o.keyData.map (·.length) = some 32 := by decide

theorem twoKeys_storable : ∀ o ∈ tokenObjs (run env fresh twoKeys), o.Storable := by
  intro o ho
  obtain ⟨h1, h2, h3, h4⟩ := twoKeys_objs o ho
  obtain ⟨⟨i1, i2, i3, i4, i5, i6, i7⟩, j1⟩ := twoKeys_stored o ho
  obtain ⟨c, hc, hl⟩ := Option.map_eq_some_iff.mp j1
  have hkey : o.IsKey := ⟨by rw [h2]; decide, .inr (.inr (.inr ⟨.inl h1, _, h3, by omega⟩))⟩
  exact ⟨hkey.form,
    ⟨i1, Nat.lt_of_le_of_lt i2 (by decide), by rw [h2]; decide, i3, i4, i5, by rw [i6]; decide, by rw [i7]; decide⟩,
    c, hc, by rw [hl]; decide⟩

set_option maxRecDepth 20000 in
/-- Making the two keys keeps the directory tidy (`c37_create_partial`, twice). -/
theorem twoKeys_tidy : TidyFiles (tokenObjs (run env fresh twoKeys)) (run env fresh twoKeys).disk := by
  have h1 : TidyFiles (tokenObjs (run env fresh withKey)) (run env fresh withKey).disk :=
    c37_create_partial store_laws (l := run env fresh setup) (h := 65538) (c := .create (some (openTmpl true 7)) true)
      (by simp [SessCall.creates]) (by intros; simp) (by unfold BoolToken; decide) (by decide)
      (by rw [show tokenObjs (run env fresh setup) = [] by decide]; intro p hp; cases hp)
      (fun p hp => (withKey_storable p hp).1) setup_tidy
  exact c37_create_partial store_laws (l := run env fresh withKey) (h := 65538) (c := .create (some (openTmpl true 9)) true)
      (by simp [SessCall.creates]) (by intros; simp) (by unfold BoolToken; decide) (by decide)
      (fun p hp => (withKey_storable p hp).1) twoKeys_storable h1

set_option maxRecDepth 20000 in
/-- The other hypotheses of `c37_partial` and, for the newer key, of `c37_newest_partial` are met. -/
example : BoolToken twoKeys ∧ handleOnToken tok1 = true ∧ handleOnToken (tok1 + 1) = true ∧
    (answer env (run env fresh twoKeys) (.sess 65538 (.destroy tok1))).rv = .ok ∧
    (answer env (run env fresh twoKeys) (.sess 65538 (.destroy (tok1 + 1)))).rv = .ok ∧
    (tokenObjs (run env fresh twoKeys)).head?.map (·.handle) = some (tok1 + 1) := by
  unfold BoolToken; decide

set_option maxRecDepth 20000 in
/-- The hypotheses of `c38_violated` are met. -/
example : let l := run env fresh setup
    let c := createCall 65538 (openTmpl true 7)
    let c' := createCall 65538 (openTmpl true 9)
    (answer env l c).rv = .ok ∧ (answer env (run env l [c]) c').rv = .ok ∧
    (tokenObjs (run env l [c])).length = (tokenObjs l).length + 1 ∧
    (tokenObjs (run env l [c, c'])).length = (tokenObjs l).length + 2 ∧
    (∀ p ∈ (tokenObjs (run env l [c, c'])).take 2, p.cls = CKO_SECRET_KEY ∧ p.typ = CKK_AES) ∧
    (∀ p ∈ (tokenObjs (run env l [c])).take 1, p.cls = CKO_SECRET_KEY ∧ p.typ = CKK_AES) := by decide

end Demo

end Verif
