import Verif.Spec.Crash
import Verif.Props.Reload

/-!
# C35, C69: a crash while the token is written
-/

namespace Verif

variable {e : Env} {x : StoreExt} {key : Bytes}

/-- An object whose files are complete or cut is loaded or refused; a cut one is refused. -/
theorem loadObj_cut (hx : StoreLaws x) {o : Obj} (h : o.Storable) {d : Disk} {i uid : Nat} {f : StoreType}
    {t kd : Bytes} (hf : keyFile o = some f) (ht : keyTail o = some t) (hkd : o.keyData = some kd) {m : Nat}
    (hcut : (d (.object, i) = some ((wrObject o).take m) ∧ m < (wrObject o).length) ∨
      (d (.object, i) = some (wrObject o) ∧ d (f, i) = some ((wrArray kd ++ t).take m) ∧ m < (wrArray kd ++ t).length)) :
    loadObj x d (newObj uid o.typ) i = none := by
  have hl : kd.length < 2 ^ 31 := by
    obtain ⟨d', h, hl⟩ := h.kept
    rw [hkd] at h; cases h; exact hl
  rcases hcut with ⟨h1, hm⟩ | ⟨h1, h2, hm⟩
  · have hrd := (c33_object o (newObj uid o.typ) h.fits).2 m hm
    unfold loadObj readFile
    rw [h1]
    simp only [Option.bind_some, hrd, Option.map_none, Option.bind_none]
  · have hrd := (c33_object o (newObj uid o.typ) h.fits).1 []
    rw [List.append_nil] at hrd
    unfold loadObj readFile
    rw [h1]
    simp only [Option.bind_some, hrd, Option.map_some]
    have hkf : ∀ p : Obj, p.cls = o.cls → p.typ = o.typ → keyFile p = some f := fun p a b => (keyFile_same a b).trans hf
    simp only [hkf { newObj uid o.typ with
      iv := o.iv, handle := o.handle, cls := o.cls, keyGenMech := o.keyGenMech, onToken := o.onToken,
      local' := o.local', flag := o.flag, opFlag := o.opFlag, startDate := o.startDate, endDate := o.endDate,
      keyId := o.keyId, label := o.label } rfl rfl]
    by_cases hdh : o.typ = CKK_DH
    · rw [if_pos ⟨h.form.1, hdh⟩, h2]
      obtain ⟨t', ht', hder⟩ := keyTail_isKey hx h.form
      rw [ht] at ht'
      cases ht'
      obtain ⟨der, rfl, hl2, hpg⟩ := hder hdh
      have hr : ReadsBack rdDhFile (wrArray kd ++ wrArray der) (kd, der) := by
        refine ReadsBack.bind (ReadsBack.allocArray hl) ?_
        exact ReadsBack.map (fun b => (kd, b)) (ReadsBack.allocArray hl2)
      simp only [Option.bind_some, hr.2 m hm, Option.map_none, Option.bind_none]
    · have ht0 : t = [] := by
        unfold keyTail at ht
        rw [if_neg hdh] at ht
        cases ht; rfl
      subst ht0
      rw [List.append_nil] at hm h2
      rw [if_neg (fun hx => hdh hx.2), h2]
      simp only [Option.bind_some, (ReadsBack.allocArray hl).2 m hm, Option.map_none]

/-- While the objects are written: if one of the files is cut, the objects do not load. -/
theorem loadObjs_cut (hx : StoreLaws x) {os : List Obj} (h : ∀ o ∈ os, o.Storable) (r uid : Nat) (d : Disk)
    {n m : Nat} {w : Write} (hw : (storeObjs x key r os).1[n]? = some w) (hm : m < w.2.length) :
    loadObjs x (insideFile d (storeObjs x key r os).1 n w m) uid (os.map (·.typ)) = none := by
  induction os generalizing d uid n with
  | nil => cases hw
  | cons o os ih =>
    have ho := h o List.mem_cons_self
    have hos := fun p hp => h p (List.mem_cons_of_mem _ hp)
    obtain ⟨f, t, kd, hf, hne, ht, hkd, hl, he⟩ := storeObj_storable (key := key) hx ho r os.length
    have hst : (storeObjs x key r (o :: os)).1 =
        [((.object, os.length), wrObject o), ((f, os.length), wrArray kd ++ t)] ++ (storeObjs x key r os).1 := by
      simp only [storeObjs, he, if_true]
    rw [hst] at hw ⊢
    simp only [List.map_cons, loadObjs, List.length_map]
    rcases n with _ | _ | n
    · -- inside the object file
      cases hw
      rw [loadObj_cut (i := os.length) (f := f) (t := t) (kd := kd) (m := m) hx ho hf ht hkd]
      · rfl
      · refine .inl ⟨?_, hm⟩
        exact if_pos rfl
    · -- inside the key file
      cases hw
      rw [loadObj_cut (i := os.length) (f := f) (t := t) (kd := kd) (m := m) hx ho hf ht hkd]
      · rfl
      · refine .inr ⟨?_, ?_, hm⟩
        · show (if ((StoreType.object, os.length) : FName) = (f, os.length) then _ else _) = _
          rw [if_neg (by intro hx; cases hx; exact hne rfl)]
          exact if_pos rfl
        · exact if_pos rfl
    · -- behind them
      have hw' : (storeObjs x key r os).1[n]? = some w := hw
      have hd : insideFile d ([((.object, os.length), wrObject o), ((f, os.length), wrArray kd ++ t)] ++
          (storeObjs x key r os).1) (n + 2) w m =
          insideFile (d.puts [((.object, os.length), wrObject o), ((f, os.length), wrArray kd ++ t)])
            (storeObjs x key r os).1 n w m := rfl
      rw [hd, ih hos (uid + 1) _ hw']
      simp

/-- C69, and what becomes of C35 inside a file. The token has keys only, all stored as they
are; the process ends while it stores the token, in the middle of any of the files.  The
next start finds no token at all: not the old one, not the new one, and no other. -/
theorem c69_cut_file (hx : StoreLaws e.store) {l : Lib} (hf : l.token.toRec.Fits) (ho : ∀ o ∈ tokenObjs l, o.Storable)
    {n m : Nat} {w : Write} (hw : (filesOf e l)[n]? = some w) (hm : m < w.2.length) :
    let d := insideFile l.disk (filesOf e l) n w m
    (run e (startOn l d) [.cInit]).token = { init := true } := by
  intro d
  have hload : loadToken e.store d l.uid = { init := true } := by
    have hwr : filesOf e l = ((.token, 0), wrToken l.token.toRec) :: (storeObjs e.store l.token.key l.rng l.token.objs).1 := rfl
    rcases n with _ | n
    · rw [hwr] at hw
      cases hw
      have hfile : d (.token, 0) = some ((wrToken l.token.toRec).take m) := by
        show (l.disk.put ((.token, 0), (wrToken l.token.toRec).take m)) (.token, 0) = _
        unfold Disk.put
        exact if_pos rfl
      unfold loadToken
      rw [hfile]
      dsimp only
      rw [(c33_token _ hf).2 m hm]
    · rw [hwr] at hw
      have hw' : (storeObjs e.store l.token.key l.rng l.token.objs).1[n]? = some w := hw
      have hd : d = insideFile (l.disk.put ((.token, 0), wrToken l.token.toRec))
          (storeObjs e.store l.token.key l.rng l.token.objs).1 n w m := rfl
      have hne : ∀ w ∈ (storeObjs e.store l.token.key l.rng l.token.objs).1, w.1 ≠ (.token, 0) := by
        intro w hw h
        have := (storeObjs_wr e.store l.token.key l.rng l.token.objs w hw).1
        rw [h] at this; exact this rfl
      have hfile : d (.token, 0) = some (wrToken l.token.toRec) := by
        rw [hd]
        show (if ((StoreType.token, 0) : FName) = w.1 then _ else _) = _
        rw [if_neg fun hx => hne w (List.mem_of_getElem? hw') hx.symm]
        show (l.disk.put ((.token, 0), wrToken l.token.toRec)).puts (List.take n _) (.token, 0) = _
        rw [puts_other fun w hw => hne w (List.mem_of_mem_take hw)]
        exact if_pos rfl
      have hrd := (c33_token _ hf).1 []
      rw [List.append_nil] at hrd
      unfold loadToken
      rw [hfile]
      dsimp only
      rw [hrd]
      dsimp only
      rw [show l.token.toRec.types = l.token.objs.map (·.typ) from rfl, hd,
        loadObjs_cut (os := l.token.objs) hx ho _ _ _ hw' hm]
  show (step e (startOn l d) .cInit).1.token = _
  have hb : callBody e (startOn l d) .cInit = _ := rfl
  rw [step_eq (c := .cInit) (show (startOn l d).bad = false from rfl) (by simp [callBody, cInitialize])]
  simp only [callBody, cInitialize, startOn, if_true]
  exact hload

/-- After such a crash nobody can log in and the token cannot be initialised again: the PINs
count as not set, and `C_InitToken` refuses every PIN. -/
theorem c35_violated_inside (hx : StoreLaws e.store) {l : Lib} (hf : l.token.toRec.Fits)
    (ho : ∀ o ∈ tokenObjs l, o.Storable)
    {n m : Nat} {w : Write} (hw : (filesOf e l)[n]? = some w) (hm : m < w.2.length) :
    let l' := run e (startOn l (insideFile l.disk (filesOf e l) n w m)) [.cInit]
    tokenObjs l' = [] ∧ ∀ pin label, (answer e l' (.slot 1 (.initToken pin label))).rv ≠ .ok := by
  intro l'
  have ht : l'.token = { init := true } := c69_cut_file hx hf ho hw hm
  refine ⟨by unfold tokenObjs; rw [ht], fun pin label => ?_⟩
  unfold answer
  cases hb : l'.bad with
  | true => rw [step_bad hb]; simp
  | false =>
    rw [step_resp hb]
    simp only [callBody]
    split
    · simp
    · simp only [ne_eq, not_true_eq_false, if_false, slotCall, initToken]
      split
      · rename_i p lab
        split
        · simp
        split
        · simp
        have hcp : checkPin e l'.token l'.token.so p ≠ .ok := by
          rcases checkPin_cases e l'.token l'.token.so p with ⟨h, _⟩ | ⟨h, _, _, _⟩ | ⟨_, h'⟩
          · rw [h]; decide
          · rw [h]; decide
          · exact absurd (by rw [ht]) h'.2.1
        rw [if_pos (by rw [bne_iff_ne.2 hcp, ht]; rfl)]
        simp
      · simp

/-! ## Between files -/

theorem put_same {d : Disk} {w : Write} (h : d w.1 = some w.2) : d.put w = d := by
  funext f
  unfold Disk.put
  split
  · rename_i hf; rw [hf, h]
  · rfl

theorem puts_same {d : Disk} {ws : List Write} (h : ∀ w ∈ ws, d w.1 = some w.2) : d.puts ws = d := by
  induction ws with
  | nil => rfl
  | cons w ws ih =>
    show (d.put w).puts ws = d
    rw [put_same (h w List.mem_cons_self)]
    exact ih fun v hv => h v (List.mem_cons_of_mem _ hv)

theorem filesOf_tail_ne {l : Lib} : ∀ w ∈ (filesOf e l).tail, w.1 ≠ (.token, 0) := by
  intro w hw h
  have := (storeObjs_wr e.store l.token.key l.rng l.token.objs w hw).1
  rw [h] at this; exact this rfl

/-- C35 as far as it holds: the objects' files in the directory are up to date, so the
update is of the PINs, the counters and the label only, and the process ends between two
files.  Then the directory is the old one or the new one.
Missing: an end inside a file (`c35_violated_inside`), an update of objects
(`Demo.c35_violated_between`). -/
theorem c35_partial {l : Lib} {d : Disk} (h : ObjectsOnDisk e l d) (n : Nat) :
    afterFiles d (filesOf e l) n = d ∨ afterFiles d (filesOf e l) n = d.puts (filesOf e l) := by
  rcases n with _ | n
  · exact .inl rfl
  · right
    have hwr : filesOf e l = ((.token, 0), wrToken l.token.toRec) :: (filesOf e l).tail := rfl
    have h' : ∀ w ∈ (filesOf e l).tail, (d.put ((.token, 0), wrToken l.token.toRec)) w.1 = some w.2 := by
      intro w hw
      show (if w.1 = (.token, 0) then _ else _) = _
      rw [if_neg (filesOf_tail_ne w hw)]
      exact h w hw
    unfold afterFiles
    rw [hwr]
    show (d.put _).puts ((filesOf e l).tail.take n) = (d.put _).puts (filesOf e l).tail
    rw [puts_same h', puts_same fun w hw => h' w (List.mem_of_mem_take hw)]

/-- The files of stored keys do not depend on the session's key or the random source. -/
theorem storeObjs_files (hx : StoreLaws x) {k k' : Bytes} {r r' : Nat} {os : List Obj} (h : ∀ o ∈ os, o.Storable) :
    (storeObjs x k r os).1 = (storeObjs x k' r' os).1 := by
  induction os with
  | nil => rfl
  | cons o os ih =>
    obtain ⟨f, t, d, hf, _, ht, hd, _, he⟩ := storeObj_storable (key := k) hx (h o List.mem_cons_self) r os.length
    obtain ⟨f', t', d', hf', _, ht', hd', _, he'⟩ := storeObj_storable (key := k') hx (h o List.mem_cons_self) r' os.length
    rw [hf] at hf'; cases hf'
    rw [ht] at ht'; cases ht'
    rw [hd] at hd'; cases hd'
    simp only [storeObjs, he, he', if_true]
    rw [ih fun p hp => h p (List.mem_cons_of_mem _ hp)]

theorem storeObjs_onDisk (hx : StoreLaws x) {d : Disk} {r : Nat} {os : List Obj} (h : ∀ o ∈ os, o.Storable) :
    ∀ w ∈ (storeObjs x key r os).1, d.puts (storeObjs x key r os).1 w.1 = some w.2 := by
  induction os generalizing d with
  | nil => intro w hw; cases hw
  | cons o os ih =>
    have hos := fun p hp => h p (List.mem_cons_of_mem _ hp)
    obtain ⟨f, t, kd, hf, hne, ht, hkd, hl, he⟩ := storeObj_storable (key := key) hx (h o List.mem_cons_self) r os.length
    have hlt := (storeObjs_storable (key := key) hx hos r).2
    have hother : ∀ f', ∀ w ∈ (storeObjs x key r os).1, w.1 ≠ (f', os.length) := by
      intro f' w hw hx
      have := hlt w hw
      rw [hx] at this
      exact absurd this (Nat.lt_irrefl _)
    simp only [storeObjs, he, if_true, puts_append]
    intro w hw
    simp only [List.cons_append, List.nil_append, List.mem_cons] at hw
    rcases hw with rfl | rfl | hw
    · rw [puts_other (hother _)]
      show (if ((StoreType.object, os.length) : FName) = (f, os.length) then _ else _) = _
      rw [if_neg (by intro hx; cases hx; exact hne rfl)]
      exact if_pos rfl
    · rw [puts_other (hother _)]
      exact if_pos rfl
    · exact ih hos w hw

/-- The hypothesis of `c35_partial` is met whenever the token was stored before and its objects
have not changed since, whatever happened to the PINs. -/
theorem c35_objects_on_disk (hx : StoreLaws e.store) {l l' : Lib} (ho : ∀ o ∈ tokenObjs l, o.Storable)
    (hs : tokenObjs l' = tokenObjs l) : ObjectsOnDisk e l' (l.disk.puts (filesOf e l)) := by
  have hwr : (filesOf e l').tail = (filesOf e l).tail := by
    show (storeObjs e.store l'.token.key l'.rng (tokenObjs l')).1 = (storeObjs e.store l.token.key l.rng (tokenObjs l)).1
    rw [hs]
    exact storeObjs_files hx ho
  intro w hw
  rw [hwr] at hw
  exact storeObjs_onDisk hx (d := l.disk.put ((.token, 0), wrToken l.token.toRec)) (key := l.token.key) (r := l.rng) ho w hw

namespace Demo

set_option maxRecDepth 20000 in
/-- The hypotheses of `c69_cut_file` and `c35_violated_inside` are met (with `withKey_fits`,
`withKey_storable`): three files are written, each of them with some bytes to lose. -/
example : (filesOf env (run env fresh withKey)).map (fun w => w.1) = [(.token, 0), (.object, 0), (.symmKey, 0)] ∧
    ∀ w ∈ filesOf env (run env fresh withKey), 31 < w.2.length := by decide

/-- The hypotheses of `c35_objects_on_disk` are met: after storing the token the user changes
the PIN. -/
example : (∀ o ∈ tokenObjs (run env fresh withKey), o.Storable) ∧
    tokenObjs (run env fresh (withKey ++ [.sess 65538 (.setPin (some userPin) (some newPin))])) =
      tokenObjs (run env fresh withKey) := by
  refine ⟨fun o ho => (withKey_storable o ho).1, ?_⟩
  set_option maxRecDepth 20000 in decide

set_option maxRecDepth 20000 in
/-- C35 is violated between two files: there is a key on the token, and the user makes
another one. The process ends when the first of the files of this update is written. In
the next process neither key is there, and the user's PIN counts as not set. -/
theorem c35_violated_between :
    let l := run env fresh withKey
    let l' := run env l [createCall 65538 (openTmpl true 8)]
    (tokenObjs l').length = 2 ∧ (∀ w ∈ filesOf env l', l'.disk w.1 = some w.2) ∧
    (run env (startOn l' l.disk) [.cInit]).token.objs.length = 1 ∧
    (run env (startOn l' l'.disk) [.cInit]).token.objs.length = 2 ∧
    let c := run env (startOn l' (afterFiles l.disk (filesOf env l') 1)) [.cInit, openCall true]
    tokenObjs c = [] ∧ (answer env c (loginCall 65538 .user userPin 0)).rv = .userPinNotInitialized := by decide

end Demo

end Verif
