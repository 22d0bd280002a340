import Verif.Proofs.Eff

/-!
# The populations of objects over all histories
-/

namespace Verif

variable {e : Env} {ok : Nat → Prop}

/-! ## Storing leaves the populations -/

theorem storeObj_key (x : StoreExt) (k : Bytes) (r : Nat) (o : Obj) (i : Nat) :
    (storeObj x k r o i).obj.key = o.key ∧
    ((∀ n, (x.rand n 12).length = 12) → o.iv.length = 12 → (storeObj x k r o i).obj.iv.length = 12) := by
  have h1 : ∀ p : Obj, (encodeKey x k p).2.key = p.key ∧ (encodeKey x k p).2.iv = p.iv := by
    intro p
    unfold encodeKey
    repeat' split
    all_goals exact ⟨rfl, rfl⟩
  have h2 : ∀ p : Obj, p.key = o.key → ((∀ n, (x.rand n 12).length = 12) → o.iv.length = 12 → p.iv.length = 12) →
      ((if p.keyData.isNone then encodeKey x k p else (true, p)).2.key = o.key ∧
       ((∀ n, (x.rand n 12).length = 12) → o.iv.length = 12 →
        (if p.keyData.isNone then encodeKey x k p else (true, p)).2.iv.length = 12)) := by
    intro p hk hi
    split
    · exact ⟨(h1 p).1.trans hk, by rw [(h1 p).2]; exact hi⟩
    · exact ⟨hk, hi⟩
  have h3 : (if needsIv o then { o with iv := x.rand r 12 } else o).key = o.key ∧
      ((∀ n, (x.rand n 12).length = 12) → o.iv.length = 12 →
        (if needsIv o then { o with iv := x.rand r 12 } else o).iv.length = 12) := by
    split
    · exact ⟨rfl, fun h _ => h r⟩
    · exact ⟨rfl, fun _ h => h⟩
  have h4 := h2 _ h3.1 h3.2
  unfold storeObj
  dsimp only
  split
  · exact h3
  · split <;> exact h3
  · split
    · split <;> exact h4
    · exact h4

theorem storeObjs_key (x : StoreExt) (k : Bytes) (r : Nat) (os : List Obj) :
    (storeObjs x k r os).2.1.map Obj.key = os.map Obj.key ∧
    ((∀ n, (x.rand n 12).length = 12) → Ivs os → Ivs (storeObjs x k r os).2.1) := by
  induction os generalizing r with
  | nil => exact ⟨rfl, fun _ => id⟩
  | cons o os ih =>
    have ho := storeObj_key x k r o os.length
    simp only [storeObjs]
    split
    · refine ⟨by simp [ho.1, (ih _).1], fun hx hi => ?_⟩
      intro p hp
      rcases List.mem_cons.mp hp with rfl | hp
      · exact ho.2 hx (hi _ List.mem_cons_self)
      · exact (ih _).2 hx (fun q hq => hi q (List.mem_cons_of_mem _ hq)) p hp
    · refine ⟨by simp [ho.1], fun hx hi => ?_⟩
      intro p hp
      rcases List.mem_cons.mp hp with rfl | hp
      · exact ho.2 hx (hi _ List.mem_cons_self)
      · exact hi p (List.mem_cons_of_mem _ hp)

theorem store_key (e : Env) (l : Lib) :
    (Lib.store e l).1.token.objs.map Obj.key = l.token.objs.map Obj.key := (storeObjs_key ..).1

theorem store_ivs (hr : RandLen e) {l : Lib} (h : Ivs l.token.objs) : Ivs (Lib.store e l).1.token.objs :=
  (storeObjs_key ..).2 (fun n => hr n 12) h

/-! ## The kinds of steps -/

/-- Sessions gone or emptied, the token's objects the same. -/
structure Shrink (l l' : Lib) : Prop where
  tok : l'.token.objs.map Obj.key = l.token.objs.map Obj.key
  ivs : Ivs l.token.objs → Ivs l'.token.objs
  sess : ∀ s' ∈ l'.sessions, s'.objs = [] ∨ ∃ s ∈ l.sessions, s.handle = s'.handle ∧ s'.objs = s.objs
  disk : l'.disk = l.disk
  count : l'.count = l.count
  uid : l'.uid = l.uid

/-- What a step can be. -/
inductive StepCase (e : Env) (ok : Nat → Prop) (l : Lib) : Lib → Prop
  | eff {l' : Lib} : Eff2 e ok 2 l l' → StepCase e ok l l'
  | shrink {l' : Lib} : Shrink l l' → StepCase e ok l l'
  | reset (t : Token) (r : Nat) : t.objs = [] →
      StepCase e ok l (Lib.store e { l with token := t, rng := r }).1
  | count (n : Int) : (0 < n ↔ 0 < l.count) → StepCase e ok l { l with count := n }
  | load : l.count = 0 → StepCase e ok l (cInitialize e l).1
  | final : l.count = 1 → StepCase e ok l (cFinalize e l).1

theorem mem_closeDown {n : Nat} {ss : List Session} {s : Session} (h : s ∈ closeDown n ss) : s ∈ ss := by
  induction n generalizing ss with
  | zero => exact h
  | succ n ih =>
    cases ss with
    | nil => exact h
    | cons t ts =>
      simp only [closeDown] at h
      split at h
      · exact List.mem_cons_of_mem _ (mem_dropUnused (ih h))
      · exact h

theorem sessFinal_objs {s : Session} (h : s.use = .no → s.objs = []) : (sessFinal s).objs = [] := by
  simp only [sessFinal]
  split
  · rename_i hu; exact h hu
  · rfl

theorem stepCase_callBody {l : Lib} (hi : SInv l) (hu : UidOk l) (c : Call) (hok : ∀ t ∈ c.creates, TokOk ok t) :
    StepCase e ok l (callBody e l c).1 := by
  have hid : ∀ s ∈ l.sessions, s.use = .no → s.objs = [] := fun s hs h => (hi.idle s hs h).1
  cases c with
  | cInit =>
    by_cases hc : l.count = 0
    · exact .load hc
    · simp only [callBody, cInitialize, if_neg hc]
      exact .count _ (by omega)
  | cFinal =>
    by_cases hc : l.count = 1
    · exact .final hc
    · have hc' : ¬ l.count - 1 = 0 := by omega
      simp only [callBody, cFinalize, if_neg hc']
      exact .count _ (by omega)
  | slot sid sc =>
    simp only [callBody]
    split
    · exact .eff (.refl _ _)
    split
    · exact .eff (.refl _ _)
    cases sc with
    | tokenInfo p now => simp only [slotCall]; split <;> exact .eff (.refl _ _)
    | initToken p lab =>
      simp only [slotCall, initToken]
      repeat' split
      all_goals first
        | exact .eff (.refl _ _)
        | exact .reset _ _ rfl
    | openSession rw serial ptr =>
      simp only [slotCall]
      split
      · exact .eff (.refl _ _)
      split
      · exact .eff (.refl _ _)
      unfold openSession
      dsimp only
      split
      · exact .eff (.refl _ _)
      split
      · rename_i s hs
        refine .shrink ⟨rfl, id, ?_, rfl, rfl, rfl⟩
        intro s' hs'
        obtain ⟨t, ht, rfl⟩ := List.mem_map.mp hs'
        refine .inr ⟨t, ht, ?_, ?_⟩ <;> dsimp only <;> split <;> rfl
      · split
        · exact .eff (.refl _ _)
        · split
          rotate_left; · exact .eff (.refl _ _)
          rename_i a as hadd
          refine .shrink ⟨rfl, id, ?_, rfl, rfl, rfl⟩
          intro s' hs'
          have ha : a.objs = [] ∧ as = l.sessions := by
            unfold addSession at hadd
            split at hadd
            · rename_i h
              obtain ⟨rfl, rfl⟩ := List.cons.inj hadd
              exact ⟨rfl, h.symm⟩
            · obtain ⟨rfl, rfl⟩ := List.cons.inj hadd
              exact ⟨rfl, rfl⟩
          rcases List.mem_cons.mp hs' with rfl | hs'
          · exact .inl ha.1
          · exact .inr ⟨s', ha.2 ▸ hs', rfl, rfl⟩
    | closeAll =>
      simp only [slotCall]
      refine .shrink ⟨rfl, id, ?_, rfl, rfl, rfl⟩
      intro s' hs'
      dsimp only [closeAll] at hs'
      split at hs'
      · cases hs'
      · rename_i a as heq
        have hm : ∀ t ∈ a :: as, t ∈ l.sessions := fun t ht => mem_closeDown (heq ▸ ht)
        rcases List.mem_cons.mp hs' with rfl | hs'
        · exact .inl (sessFinal_objs (hid a (hm a List.mem_cons_self)))
        · exact .inr ⟨s', hm s' (List.mem_cons_of_mem _ hs'), rfl, rfl⟩
  | sess h sc =>
    simp only [callBody]
    split
    · exact .eff (.refl _ _)
    split
    · exact .eff (.refl _ _)
    rename_i s hs
    have hm : s ∈ l.sessions := ((getSession_iff hi).mp hs).1
    by_cases hcl : sc = .close
    · subst hcl
      simp only [sessCall, closeSession]
      have hsub : ∀ s' ∈ closeOne l.sessions s.handle,
          s'.objs = [] ∨ ∃ t ∈ l.sessions, t.handle = s'.handle ∧ s'.objs = t.objs := by
        intro s' hs'
        unfold closeOne at hs'
        split at hs'
        · cases hs'
        · rename_i a as heq
          split at hs'
          · refine .inr ⟨s', ?_, rfl, rfl⟩
            rw [heq]
            exact List.mem_cons_of_mem _ (mem_dropUnused hs')
          · obtain ⟨t, ht, rfl⟩ := List.mem_map.mp hs'
            split
            · exact .inl (sessFinal_objs (hid t (heq ▸ ht)))
            · exact .inr ⟨t, heq ▸ ht, rfl, rfl⟩
      split
      · exact .shrink ⟨rfl, id, hsub, rfl, rfl, rfl⟩
      · unfold logout
        dsimp only
        refine .shrink ⟨?_, ?_, hsub, rfl, rfl, rfl⟩
        · split
          · exact (sameObjs_encodeAll ..).1
          · rfl
        · split
          · exact (sameObjs_encodeAll ..).2
          · exact id
    · exact .eff (eff_sessCall hm hi.nodup hu sc hcl hok)

/-! ## Identities and numbers of objects -/

abbrev OKey := Nat × Nat × Bool
abbrev SKey := Nat × Use × List OKey

/-- Caps and identities: `n` is the number of the next allocation. -/
structure PopA (n : Nat) (tok : List OKey) (ss : List SKey) : Prop where
  tokLen : tok.length ≤ 64
  sLen : ∀ s ∈ ss, s.2.2.length ≤ 8
  tokUid : ∀ k ∈ tok, k.2.1 < n
  sUid : ∀ s ∈ ss, ∀ k ∈ s.2.2, k.2.1 < n
  tokNd : (tok.map (·.2.1)).Nodup
  sNd : ∀ s ∈ ss, (s.2.2.map (·.2.1)).Nodup
  dTok : ∀ s ∈ ss, ∀ k ∈ s.2.2, ∀ q ∈ tok, k.2.1 ≠ q.2.1
  dSess : ∀ s ∈ ss, ∀ t ∈ ss, s.1 ≠ t.1 → ∀ k ∈ s.2.2, ∀ q ∈ t.2.2, k.2.1 ≠ q.2.1

theorem PopA.mono {n : Nat} {tok tok' : List OKey} {ss ss' : List SKey} (h : PopA n tok ss)
    (ht : tok'.Sublist tok)
    (hs : ∀ s' ∈ ss', s'.2.2 = [] ∨ ∃ s ∈ ss, s.1 = s'.1 ∧ s'.2.2.Sublist s.2.2) : PopA n tok' ss' := by
  have hs' : ∀ s' ∈ ss', ∀ k ∈ s'.2.2, ∃ s ∈ ss, s.1 = s'.1 ∧ k ∈ s.2.2 := by
    intro s' h1 k hk
    rcases hs s' h1 with h2 | ⟨s, h2, h3, h4⟩
    · rw [h2] at hk; cases hk
    · exact ⟨s, h2, h3, h4.subset hk⟩
  refine ⟨Nat.le_trans ht.length_le h.tokLen, ?_, fun k hk => h.tokUid k (ht.subset hk), ?_,
    (ht.map _).nodup h.tokNd, ?_, ?_, ?_⟩
  · intro s' h1
    rcases hs s' h1 with h2 | ⟨s, h2, _, h4⟩
    · rw [h2]; simp
    · exact Nat.le_trans h4.length_le (h.sLen s h2)
  · intro s' h1 k hk
    obtain ⟨s, h2, _, h4⟩ := hs' s' h1 k hk
    exact h.sUid s h2 k h4
  · intro s' h1
    rcases hs s' h1 with h2 | ⟨s, h2, _, h4⟩
    · rw [h2]; exact List.nodup_nil
    · exact (h4.map _).nodup (h.sNd s h2)
  · intro s' h1 k hk q hq
    obtain ⟨s, h2, _, h4⟩ := hs' s' h1 k hk
    exact h.dTok s h2 k h4 q (ht.subset hq)
  · intro s' h1 t' h1' hne k hk q hq
    obtain ⟨s, h2, h3, h4⟩ := hs' s' h1 k hk
    obtain ⟨t, h5, h6, h7⟩ := hs' t' h1' q hq
    exact h.dSess s h2 t h5 (by rw [h3, h6]; exact hne) k h4 q h7

theorem PopA.addTok {n : Nat} {tok : List OKey} {ss : List SKey} (h : PopA n tok ss) (k : OKey) (hk : k.2.1 = n)
    (hl : tok.length < 64) : PopA (n + 1) (k :: tok) ss := by
  refine ⟨hl, h.sLen, ?_, ?_, ?_, h.sNd, ?_, h.dSess⟩
  · intro q hq
    rcases List.mem_cons.mp hq with rfl | hq
    · omega
    · have := h.tokUid q hq; omega
  · intro s hs q hq
    have := h.sUid s hs q hq; omega
  · rw [List.map_cons, List.nodup_cons]
    refine ⟨fun hm => ?_, h.tokNd⟩
    obtain ⟨q, hq, he⟩ := List.mem_map.mp hm
    have := h.tokUid q hq; omega
  · intro s hs q hq p hp
    rcases List.mem_cons.mp hp with rfl | hp
    · have := h.sUid s hs q hq; omega
    · exact h.dTok s hs q hq p hp

/-- Add `k` to the objects of session `b`. -/
def addTo (b : Nat) (k : OKey) (s : SKey) : SKey := if s.1 = b then (s.1, s.2.1, k :: s.2.2) else s

theorem addTo_fst (b : Nat) (k : OKey) (s : SKey) : (addTo b k s).1 = s.1 := by
  unfold addTo; split <;> rfl

theorem mem_addTo {b : Nat} {k q : OKey} {s : SKey} (h : q ∈ (addTo b k s).2.2) : (q = k ∧ s.1 = b) ∨ q ∈ s.2.2 := by
  unfold addTo at h
  split at h
  · rcases List.mem_cons.mp h with rfl | h
    · exact .inl ⟨rfl, by assumption⟩
    · exact .inr h
  · exact .inr h

theorem PopA.addSess {n : Nat} {tok : List OKey} {ss : List SKey} (h : PopA n tok ss) (b : Nat) (k : OKey)
    (hk : k.2.1 = n) (hl : ∀ s ∈ ss, s.1 = b → s.2.2.length < 8) : PopA (n + 1) tok (ss.map (addTo b k)) := by
  refine ⟨h.tokLen, ?_, ?_, ?_, h.tokNd, ?_, ?_, ?_⟩
  · intro s' hs'
    obtain ⟨s, hs, rfl⟩ := List.mem_map.mp hs'
    unfold addTo
    split
    · have := hl s hs ‹_›
      show (k :: s.2.2).length ≤ 8
      simp only [List.length_cons]; omega
    · exact h.sLen s hs
  · intro q hq
    have := h.tokUid q hq; omega
  · intro s' hs' q hq
    obtain ⟨s, hs, rfl⟩ := List.mem_map.mp hs'
    rcases mem_addTo hq with ⟨rfl, _⟩ | hq
    · omega
    · have := h.sUid s hs q hq; omega
  · intro s' hs'
    obtain ⟨s, hs, rfl⟩ := List.mem_map.mp hs'
    unfold addTo
    split
    · show ((k :: s.2.2).map (·.2.1)).Nodup
      rw [List.map_cons, List.nodup_cons]
      refine ⟨fun hm => ?_, h.sNd s hs⟩
      obtain ⟨q, hq, he⟩ := List.mem_map.mp hm
      have := h.sUid s hs q hq; omega
    · exact h.sNd s hs
  · intro s' hs' q hq p hp
    obtain ⟨s, hs, rfl⟩ := List.mem_map.mp hs'
    rcases mem_addTo hq with ⟨rfl, _⟩ | hq
    · have := h.tokUid p hp; omega
    · exact h.dTok s hs q hq p hp
  · intro s' hs' t' ht' hne q hq p hp
    obtain ⟨s, hs, rfl⟩ := List.mem_map.mp hs'
    obtain ⟨t, ht, rfl⟩ := List.mem_map.mp ht'
    rw [addTo_fst, addTo_fst] at hne
    rcases mem_addTo hq with ⟨hqk, hb⟩ | hq' <;> rcases mem_addTo hp with ⟨hpk, hb'⟩ | hp'
    · exact absurd (hb.trans hb'.symm) hne
    · have := h.sUid t ht p hp'; rw [hqk]; omega
    · have := h.sUid s hs q hq'; rw [hpk]; omega
    · exact h.dSess s hs t ht hne q hq' p hp'

/-- The invariant of the library. -/
def Lib.PopA (l : Lib) : Prop := Verif.PopA l.uid (l.token.objs.map Obj.key) (l.sessions.map Session.key)

theorem Lib.PopA.uidOk {l : Lib} (h : l.PopA) : UidOk l := by
  refine ⟨?_, fun s hs => ?_⟩
  · have := h.tokNd
    rw [List.map_map] at this
    exact this
  · have := h.sNd _ (List.mem_map.mpr ⟨s, hs, rfl⟩)
    simp only [Session.key, List.map_map] at this
    exact this

theorem keys_upd_add (l : Lib) (b : Nat) (o : Obj) :
    (l.upd b fun t => { t with objs := o :: t.objs }).sessions.map Session.key =
      (l.sessions.map Session.key).map (addTo b o.key) := by
  simp only [Lib.upd, List.map_map]
  refine List.map_congr_left fun t _ => ?_
  simp only [Function.comp_apply, addTo, Session.key]
  by_cases hb : t.handle = b
  · simp only [if_pos hb, List.map_cons]
    exact (if_pos hb).symm
  · simp only [if_neg hb]
    exact (if_neg hb).symm

theorem handles_key (ss : List Session) : (ss.map Session.key).map (·.1) = handles ss := by
  simp only [handles, List.map_map]; rfl

theorem key_eq_of_handle {ss : List Session} (hn : (handles ss).Nodup) {s : Session} (hs : s ∈ ss) {k : SKey}
    (hk : k ∈ ss.map Session.key) (he : k.1 = s.handle) : k = s.key := by
  obtain ⟨t, ht, rfl⟩ := List.mem_map.mp hk
  have h1 : ss.find? (fun x => x.handle == s.handle) = some t := (find_iff hn).mpr ⟨ht, he⟩
  have h2 : ss.find? (fun x => x.handle == s.handle) = some s := (find_iff hn).mpr ⟨hs, rfl⟩
  rw [h1] at h2
  exact congrArg Session.key (Option.some.inj h2)

/-- A session list all of whose sessions stem from those of another. -/
theorem sub_keys {ss ss' : List Session}
    (h : ∀ s' ∈ ss', s'.objs = [] ∨ ∃ s ∈ ss, s.handle = s'.handle ∧ s'.objs.Sublist s.objs) :
    ∀ s' ∈ ss'.map Session.key, s'.2.2 = [] ∨ ∃ s ∈ ss.map Session.key, s.1 = s'.1 ∧ s'.2.2.Sublist s.2.2 := by
  intro s' hs'
  obtain ⟨t, ht, rfl⟩ := List.mem_map.mp hs'
  rcases h t ht with h1 | ⟨s, h1, h2, h3⟩
  · exact .inl (by simp [Session.key, h1])
  · exact .inr ⟨s.key, List.mem_map.mpr ⟨s, h1, rfl⟩, h2, h3.map _⟩

theorem upd_filter_sub (l : Lib) (b u : Nat) :
    ∀ s' ∈ (l.upd b fun t => { t with objs := t.objs.filter fun p => p.uid != u }).sessions,
      s'.objs = [] ∨ ∃ s ∈ l.sessions, s.handle = s'.handle ∧ s'.objs.Sublist s.objs := by
  intro s' hs'
  obtain ⟨t, ht, rfl⟩ := List.mem_map.mp hs'
  split
  · exact .inr ⟨t, ht, rfl, List.filter_sublist⟩
  · exact .inr ⟨t, ht, rfl, List.Sublist.refl _⟩

theorem self_sub (ss : List SKey) :
    ∀ s' ∈ ss, s'.2.2 = [] ∨ ∃ s ∈ ss, s.1 = s'.1 ∧ s'.2.2.Sublist s.2.2 :=
  fun s' h => .inr ⟨s', h, rfl, List.Sublist.refl _⟩

theorem Eff.popA {n : Nat} {l l' : Lib} (h : Eff e ok n l l') (hn : (handles l.sessions).Nodup) (hp : l.PopA) :
    l'.PopA ∧ handles l'.sessions = handles l.sessions := by
  induction h with
  | quiet hq =>
    refine ⟨?_, by rw [← handles_key, ← handles_key, hq.sess]⟩
    unfold Lib.PopA
    rw [hq.tok, hq.sess, hq.uid]; exact hp
  | store l =>
    refine ⟨?_, rfl⟩
    unfold Lib.PopA
    rw [store_key]; exact hp
  | addTok on _ _ hl _ hu _ _ =>
    refine ⟨?_, rfl⟩
    unfold Lib.PopA
    rw [store_key]
    exact PopA.addTok hp _ hu (by simpa using hl)
  | addSess hs hl _ hu _ =>
    rename_i l s o
    constructor
    · unfold Lib.PopA
      rw [keys_upd_add]
      refine PopA.addSess hp _ _ hu ?_
      intro k hk he
      have := key_eq_of_handle hn hs hk he
      subst this
      simpa [Session.key] using hl
    · rw [← handles_key, keys_upd_add, ← handles_key, List.map_map]
      refine List.map_congr_left fun t _ => ?_
      exact addTo_fst ..
  | delTok ho _ =>
    refine ⟨?_, rfl⟩
    unfold Lib.PopA removeToken
    rw [store_key]
    exact PopA.mono hp (List.filter_sublist.map _) (self_sub _)
  | delSess u hs =>
    constructor
    · exact PopA.mono hp (List.Sublist.refl _) (sub_keys (upd_filter_sub _ _ _))
    · simp only [handles, Lib.upd, List.map_map]
      refine List.map_congr_left fun t _ => ?_
      simp only [Function.comp_apply]
      split <;> rfl
  | trans _ _ ih1 ih2 =>
    obtain ⟨h1, h2⟩ := ih1 hn hp
    obtain ⟨h3, h4⟩ := ih2 (h2 ▸ hn) h1
    exact ⟨h3, h4.trans h2⟩

end Verif
