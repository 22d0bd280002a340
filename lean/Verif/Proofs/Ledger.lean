import Verif.Spec.Ledger
import Verif.Props.Stale

/-!
# The books are kept (C127)
-/

namespace Verif

variable {e : Env}

/-- A session's handle and those of its objects. -/
def Session.book (s : Session) : Nat × List Nat := (s.handle, s.objs.map (·.handle))

/-- The handles are the same. -/
structure BookSame (l l' : Lib) : Prop where
  tok : l'.token.objs.map (·.handle) = l.token.objs.map (·.handle)
  sess : l'.sessions.map Session.book = l.sessions.map Session.book

/-- The ledger agrees with the library. -/
structure Books (l : Lib) (g : Ledger) : Prop where
  tok : l.token.objs.map (·.handle) = g.tok
  sess : ∀ x ∈ l.sessions.map Session.book, x.2 = g.loc x.1
  rest : ∀ h, h ∉ handles l.sessions → g.loc h = []

theorem BookSame.refl (l : Lib) : BookSame l l := ⟨rfl, rfl⟩

theorem BookSame.trans {a b c : Lib} (h1 : BookSame a b) (h2 : BookSame b c) : BookSame a c :=
  ⟨h2.tok.trans h1.tok, h2.sess.trans h1.sess⟩

theorem BookSame.same {l l' : Lib} (h1 : l'.token.objs.map Obj.hm = l.token.objs.map Obj.hm)
    (h2 : l'.sessions = l.sessions) : BookSame l l' := by
  refine ⟨?_, by rw [h2]⟩
  have := congrArg (List.map (·.1)) h1
  simp only [List.map_map] at this
  exact this

theorem BookSame.kept {l l' : Lib} (h : Kept l l') : BookSame l l' := by
  refine ⟨by rw [h.tok], ?_⟩
  have := congrArg (List.map fun x : Nat × Use × List Obj => (x.1, x.2.2.map (·.handle))) h.sess
  simp only [List.map_map] at this
  exact this

theorem BookSame.upd {l : Lib} {h : Nat} {f : Session → Session} (hf : ∀ t, (f t).mine = t.mine) :
    BookSame l (l.upd h f) := .kept (.upd l h f hf)

theorem book_handles (ss : List Session) : (ss.map Session.book).map (·.1) = handles ss := by
  rw [List.map_map]; rfl

theorem Books.same {l l' : Lib} {g : Ledger} (h : Books l g) (hs : BookSame l l') : Books l' g := by
  refine ⟨hs.tok.trans h.tok, by rw [hs.sess]; exact h.sess, fun k hk => h.rest k ?_⟩
  rw [← book_handles, ← hs.sess, book_handles]; exact hk

/-! ## Calls that make and end nothing -/

theorem book_logout (l : Lib) : BookSame l (logout e l) := by
  unfold logout
  refine .same ?_ rfl
  dsimp only
  split
  · exact encodeAll_hm ..
  · rfl

theorem book_setSoPin (l : Lib) (p : Bytes) : BookSame l (setSoPin e l p).1 := by
  unfold setSoPin
  exact .same (store_hm ..) rfl

theorem book_setUserPin (l : Lib) (p : Bytes) : BookSame l (setUserPin e l p).1 := by
  unfold setUserPin
  exact .same (store_hm ..) rfl

theorem book_login (l : Lib) (u : UserType) (pin : Option Bytes) (now : Int) : BookSame l (login e l u pin now).1 := by
  unfold login
  split; · exact .refl l
  split; · exact .refl l
  split
  · unfold soLogin
    dsimp only
    repeat' split
    all_goals exact .same rfl rfl
  · unfold userLogin
    dsimp only
    split; · exact .refl l
    split; · exact .refl l
    split
    · exact .same rfl rfl
    · exact .same rfl rfl
    · split <;> exact .same (decodeAll_hm ..) rfl
  · exact .refl l
  · exact .refl l

theorem book_initPin (l : Lib) (s : Session) (p : Option Bytes) : BookSame l (initPin e l s p).1 := by
  unfold initPin
  repeat' split
  all_goals first | exact .refl l | exact book_setUserPin l _

theorem book_setPin (l : Lib) (s : Session) (o n : Option Bytes) : BookSame l (setPin e l s o n).1 := by
  unfold setPin
  repeat' split
  all_goals first | exact .refl l | exact book_setSoPin l _ | exact book_setUserPin l _

theorem book_cSetAttr {l : Lib} (hn : (handles l.sessions).Nodup) (hu : UidOk l) {s : Session} (hs : s ∈ l.sessions)
    (k : Nat) (t : Option (List Entry)) : BookSame l (cSetAttr e l s k t).1 := by
  unfold cSetAttr
  split; · exact .refl l
  split; · exact .refl l
  split; · exact .refl l
  rename_i o ho
  dsimp only
  have hkey := (setAttributeValue_key e.key true o ‹List Entry›).1
  generalize (setAttributeValue e.key true o _).2 = o' at *
  have hhd : o'.handle = o.handle := congrArg (·.1) hkey
  have huid : o'.uid = o.uid := congrArg (·.2.1) hkey
  have hm := findObj_mem ho
  have repl : ∀ os : List Obj, (os.map (·.uid)).Nodup → o ∈ os → (replObj o' os).map (·.handle) = os.map (·.handle) := by
    intro os hnd ho
    unfold replObj
    rw [List.map_map]
    refine List.map_congr_left fun p hp => ?_
    simp only [Function.comp_apply]
    split
    · rename_i hpu
      rw [uid_inj hnd hp ho (hpu.trans huid)]
      exact hhd
    · rfl
  unfold putObj
  split
  · rename_i hh
    exact ⟨repl _ hu.1 (hm.2.1 hh), rfl⟩
  · rename_i hh
    have hh : handleOnToken k = false := by simpa using hh
    refine ⟨rfl, ?_⟩
    simp only [Lib.upd, List.map_map]
    refine List.map_congr_left fun u hum => ?_
    simp only [Function.comp_apply]
    split
    · rename_i hus
      have hut : u = s := by
        have hf1 : l.sessions.find? (fun t => t.handle == s.handle) = some u := (find_iff hn).mpr ⟨hum, hus⟩
        have hf2 : l.sessions.find? (fun t => t.handle == s.handle) = some s := (find_iff hn).mpr ⟨hs, rfl⟩
        rw [hf1] at hf2
        exact Option.some.inj hf2
      subst hut
      simp only [Session.book, repl _ (hu.2 u hum) (hm.2.2 hh)]
    · rfl

/-- The session calls that neither make nor end objects. -/
theorem book_plain {l : Lib} (hn : (handles l.sessions).Nodup) (hu : UidOk l) {s : Session} (hs : s ∈ l.sessions)
    (c : SessCall) (hc : c.creates = []) (h1 : c ≠ .close) (h2 : ∀ k, c ≠ .destroy k) : BookSame l (sessCall e l s c).1 := by
  cases c with
  | close => exact absurd rfl h1
  | info p => simp only [sessCall]; split <;> exact .refl l
  | login u p n => exact book_login l u p n
  | logout => exact book_logout l
  | initPin p => exact book_initPin l s p
  | setPin o n => exact book_setPin l s o n
  | create t p =>
    cases t with
    | none => simp only [sessCall, cCreate]; exact .refl l
    | some t => cases hc
  | copy o t p =>
    cases t with
    | none => simp only [sessCall, cCopy]; exact .refl l
    | some t => cases hc
  | destroy o => exact absurd rfl (h2 o)
  | size o p => simp only [sessCall]; repeat' split
                all_goals exact .refl l
  | getAttr o t => simp only [sessCall, cGetAttr]; repeat' split
                   all_goals exact .refl l
  | setAttr o t => exact book_cSetAttr hn hu hs o t
  | findInit t =>
    simp only [sessCall, cFindInit]
    repeat' split
    all_goals first | exact .refl l | exact .upd (by intro _; rfl)
  | findNext p n =>
    simp only [sessCall, cFindNext]
    repeat' split
    all_goals first | exact .refl l | exact .upd (by intro _; rfl)
  | findFinal => exact .upd (by intro _; rfl)
  | cryptInit k m key =>
    simp only [sessCall, cCryptInit]
    repeat' split
    all_goals first | exact .refl l | exact .upd (by intro _; rfl)
  | crypt c =>
    simp only [sessCall, cCrypt]
    repeat' split
    all_goals first | exact .refl l | exact .upd (by intro _; rfl)
  | genKey m t p =>
    cases t with
    | none => simp only [sessCall, cGenKey]; repeat' split
              all_goals first | exact .refl l | exact .same rfl rfl
    | some t => cases hc
  | genPair m a b p =>
    cases a with
    | none => simp only [sessCall, cGenPair]; repeat' split
              all_goals first | exact .refl l | exact .same rfl rfl
    | some a => cases hc
  | wrap m a b o =>
    simp only [sessCall, cWrap]
    repeat' split
    all_goals first | exact .refl l | exact .upd (by intro _; rfl)
  | unwrap m w d t p =>
    cases t with
    | none => simp only [sessCall, cUnwrap]; repeat' split
              all_goals first | exact .refl l | exact .same rfl rfl
    | some t => cases hc
  | derive m b t p =>
    cases t with
    | none => simp only [sessCall, cDerive]; repeat' split
              all_goals first | exact .refl l | exact .same rfl rfl
    | some t => cases hc
  | random p n => simp only [sessCall, cRandom]; repeat' split
                  all_goals exact .same rfl rfl

/-! ## Making an object -/

theorem enter_tok (g : Ledger) (h : Nat) {k : Nat} (hk : handleOnToken k = true) :
    g.enter h (some k) = { g with tok := k :: g.tok } := if_pos hk

theorem enter_loc (g : Ledger) (h : Nat) {k : Nat} (hk : handleOnToken k = false) :
    g.enter h (some k) = { g with loc := fun j => if j = h then k :: g.loc j else g.loc j } :=
  if_neg (by rw [hk]; simp)

theorem Books.add {n : Nat} {l l' : Lib} {g : Ledger} {s s₀ : Session} {on k : Nat} {o : Obj}
    (hg : Books l g) (ha : sessAddObject e l s on o = (l', some k)) (hi : HInv n l) (hn : n + 1 < 2 ^ 28) (hon : on ≤ 1)
    (hm : s₀ ∈ l.sessions) (hh : s₀.handle = s.handle) (ho : s₀.objs = s.objs) : Books l' (g.enter s.handle (some k)) := by
  obtain ⟨-, ⟨h0, _, hk, hv, hs⟩ | ⟨h0, _, hk, rfl⟩⟩ := sessAdd_some ha
  · have h1 : on = 1 := by omega
    subst h1
    rw [nextHandle_tok] at hk
    obtain ⟨_, f2, f3⟩ := nextOf_fresh hi.tok
    rw [← hk] at f2 f3
    rw [enter_tok _ _ (tok_handle f2 (by omega))]
    refine ⟨?_, by rw [hs]; exact hg.sess, by rw [hs]; exact hg.rest⟩
    have := congrArg (List.map fun o : Obj => o.handle) hv
    simp only [List.map_map, List.map_cons] at this
    refine Eq.trans (Eq.trans ?_ this) ?_
    · rfl
    · show k :: _ = k :: _
      congr 1
      exact Eq.trans rfl hg.tok
  · subst h0
    rw [nextHandle_sess] at hk
    have hso := hi.sess s₀ hm
    rw [ho] at hso
    obtain ⟨_, f2, f3⟩ := nextOf_fresh hso
    rw [← hk] at f2 f3
    have hk' : handleOnToken k = false := by
      unfold handleOnToken
      have : k / 2 ^ 28 = 0 := Nat.div_eq_of_lt (by omega)
      simp [this]
    rw [enter_loc _ _ hk']
    refine ⟨hg.tok, ?_, ?_⟩
    · intro x hx
      obtain ⟨t', ht', rfl⟩ := List.mem_map.mp hx
      obtain ⟨t, ht, rfl⟩ := List.mem_map.mp ht'
      have h1 := hg.sess t.book (List.mem_map_of_mem ht)
      dsimp only [Session.book] at h1 ⊢
      by_cases he : t.handle = s.handle
      · simp only [if_pos he, List.map_cons, h1]; rfl
      · simp only [if_neg he]; exact h1
    · intro h hh'
      have hx : handles ({ l with uid := l.uid + 1 }.upd s.handle fun t => { t with objs := o.added l.uid 0 k :: t.objs }).sessions =
          handles l.sessions := by
        simp only [handles, Lib.upd, List.map_map]
        refine List.map_congr_left fun t _ => ?_
        simp only [Function.comp_apply]
        split <;> rfl
      rw [hx] at hh'
      dsimp only
      have : h ≠ s.handle := by
        rintro rfl
        exact hh' (List.mem_map.mpr ⟨s₀, hm, hh⟩)
      rw [if_neg this]
      exact hg.rest h hh'

theorem Kept.handles_eq {l l' : Lib} (h : Kept l l') : handles l'.sessions = handles l.sessions := by
  have := congrArg (List.map (·.1)) h.sess
  simp only [List.map_map] at this
  exact this

/-- A creating call. -/
theorem Books.create (hr : RandLen e) {n : Nat} {l : Lib} {g : Ledger} (hg : Books l g) {h : Nat} {s : Session}
    (hs : getSession l h = some s) {c : SessCall} (hc : c.creates ≠ []) (ht : ∀ t ∈ c.creates, TokOk (· ≤ 1) t) (hi : HInv n l)
    (hsi : SInv l) (hp : l.PopA) (hn : n + 2 < 2 ^ 28)
    (hb : (sessCall e l s c).1.bad = false) (hu : (sessCall e l s c).2.rv ≠ .ub) :
    Books (sessCall e l s c).1 (if (sessCall e l s c).2.rv ≠ .ok then g
      else (g.enter h (sessCall e l s c).2.handle).enter h (sessCall e l s c).2.priv) := by
  obtain ⟨hh, _, hmem⟩ := getSession_handle hs
  rcases creates_made (e := e) l s c hc ht with hm | ⟨hm, _⟩
  · generalize sessCall e l s c = r at *
    obtain ⟨l', r⟩ := r
    cases hm with
    | kept h1 h2 h3 =>
      have := hg.same (.kept h1)
      split
      · exact this
      · rename_i hok
        rw [h2 (by simpa using hok), h3]
        exact this
    | one h1 h2 h3 h4 h5 h6 =>
      rename_i l₀ _ _ _
      obtain ⟨s', g1, g2⟩ := h1.getSession hs
      obtain ⟨hh', _, hm'⟩ := getSession_handle g1
      dsimp only
      rw [if_neg (by rw [h4]; simp), h5, h6, ← hh]
      exact (hg.same (.kept h1)).add h2 (h1.hinv hi) (by omega) h3 hm' (hh'.trans hh.symm) g2
  · generalize sessCall e l s c = r at *
    obtain ⟨l', r⟩ := r
    cases hm with
    | kept h1 h2 => dsimp only; rw [if_pos h2]; exact hg.same (.kept h1)
    | broken h _ => rw [h] at hb; cases hb
    | ub h => exact absurd h hu
    | two h1 h2 h3 i1 h4 h5 h6 i2 h7 h8 h9 =>
      rename_i l₀ l₁ s₁ _ _ _ _ _ _
      obtain ⟨s', g1, g2⟩ := h1.getSession hs
      obtain ⟨hh', _, hm'⟩ := getSession_handle g1
      have hnd : (handles l₀.sessions).Nodup := by rw [h1.handles_eq]; exact hsi.nodup
      obtain ⟨m, hm1, heff⟩ := eff_add_eq (e := e) (ok := (· ≤ 1)) (s := s) ⟨s', hm', hh'.trans hh.symm, g2⟩ h3 i1 h2
      have hi1 := (heff.hinv hr hnd (h1.popA hp) (h1.hinv hi) (by omega)).mono (m := n + 1) (by omega)
      have hnd1 : (handles l₁.sessions).Nodup := by rw [(frame_add_eq h2).handles]; exact hnd
      obtain ⟨q1, q2⟩ := (find_iff hnd1).mp h4
      have b1 := (hg.same (.kept h1)).add h2 (h1.hinv hi) (by omega) h3 hm' (hh'.trans hh.symm) g2
      have b2 := b1.add h5 hi1 (by omega) h6 q1 rfl rfl
      dsimp only
      rw [if_neg (by rw [h7]; simp), h8, h9, ← hh]
      rw [q2] at b2
      exact b2

/-! ## Ending objects -/

theorem hok_inj {b n : Nat} {v : Bool} {os : List Obj} {p q : Obj} (hok : HOk b n v (os.map Obj.hb)) (hp : p ∈ os)
    (hq : q ∈ os) (he : p.handle = q.handle) : p = q := by
  have hnd := hok.nodup
  rw [List.map_map] at hnd
  clear hok
  induction os with
  | nil => cases hp
  | cons a os ih =>
    obtain ⟨n1, n2⟩ := List.nodup_cons.mp hnd
    have hno : ∀ x ∈ os, x.handle ≠ a.handle := fun x hx hxa => n1 (List.mem_map.mpr ⟨x, hx, hxa⟩)
    rcases List.mem_cons.mp hp with hpa | hp <;> rcases List.mem_cons.mp hq with hqa | hq
    · rw [hpa, hqa]
    · exact absurd (by rw [← he, hpa]) (hno q hq)
    · exact absurd (by rw [he, hqa]) (hno p hp)
    · exact ih hp hq n2

/-- Taking out the object by its identity is taking out its handle. -/
theorem filter_uid {b n : Nat} {v : Bool} {os : List Obj} {q : Obj} (hok : HOk b n v (os.map Obj.hb))
    (hu : (os.map (·.uid)).Nodup) (hq : q ∈ os) :
    (os.filter fun p => p.uid != q.uid).map (·.handle) = (os.map (·.handle)).filter (· != q.handle) := by
  rw [List.filter_map]
  congr 1
  refine List.filter_congr fun p hp => ?_
  simp only [Function.comp_apply]
  by_cases h : p.uid = q.uid
  · rw [uid_inj hu hp hq h]; simp
  · have : p.handle ≠ q.handle := fun he => h (by rw [hok_inj hok hp hq he])
    have h1 : (p.uid != q.uid) = true := by simpa using h
    have h2 : (p.handle != q.handle) = true := by simpa using this
    rw [h1, h2]

theorem Books.destroy {n : Nat} {l : Lib} {g : Ledger} (hg : Books l g) {h k : Nat} {s : Session} (hs : getSession l h = some s)
    (hi : HInv n l) (hsi : SInv l) (hu : UidOk l)
    (hb : (sessCall e l s (.destroy k)).1.bad = false) :
    Books (sessCall e l s (.destroy k)).1 (if (sessCall e l s (.destroy k)).2.rv ≠ .ok then g else g.strike h k) := by
  obtain ⟨hh, _, hmem⟩ := getSession_handle hs
  generalize hr : sessCall e l s (.destroy k) = r at *
  simp only [sessCall, cDestroy] at hr
  by_cases hrw : s.use ≠ .rw
  · rw [if_pos hrw] at hr; subst hr; simpa using hg
  rw [if_neg hrw] at hr
  cases hf : findObj l s k with
  | none => rw [hf] at hr; subst hr; simpa using hg
  | some q =>
    rw [hf] at hr
    obtain ⟨f1, f2, f3⟩ := findObj_parts hf
    dsimp only at hr
    cases ht : handleOnToken k with
    | true =>
      rw [if_pos ht] at hr
      by_cases hot : q.onToken = true
      · rw [if_pos hot] at hr
        subst hr
        simp only [ne_eq, not_true_eq_false, if_false]
        unfold Ledger.strike
        rw [if_pos ht]
        refine ⟨?_, hg.sess, hg.rest⟩
        unfold removeToken
        have : (Lib.store e { l with token := { l.token with objs := l.token.objs.filter fun p => p.uid != q.uid } }).1.token.objs.map
            (·.handle) = (l.token.objs.filter fun p => p.uid != q.uid).map (·.handle) := by
          have := congrArg (List.map (·.1)) (store_hm e { l with token := { l.token with objs := l.token.objs.filter fun p => p.uid != q.uid } })
          simp only [List.map_map] at this
          exact this
        refine Eq.trans ?_ ((filter_uid hi.tok hu.1 (f2 ht)).trans (by rw [hg.tok, f1]))
        exact this
      · rw [if_neg hot] at hr
        subst hr
        cases hb
    | false =>
      rw [if_neg (by rw [ht]; simp)] at hr
      subst hr
      simp only [if_false, ne_eq, not_true_eq_false]
      unfold Ledger.strike
      rw [if_neg (by rw [ht]; simp)]
      refine ⟨hg.tok, ?_, ?_⟩
      · intro x hx
        obtain ⟨t', ht', rfl⟩ := List.mem_map.mp hx
        obtain ⟨t, htm, rfl⟩ := List.mem_map.mp ht'
        have h1 := hg.sess t.book (List.mem_map_of_mem htm)
        dsimp only [Session.book] at h1 ⊢
        by_cases he : t.handle = s.handle
        · have hts : t = s := by
            have hf1 : l.sessions.find? (fun t => t.handle == s.handle) = some t := (find_iff hsi.nodup).mpr ⟨htm, he⟩
            have hf2 : l.sessions.find? (fun t => t.handle == s.handle) = some s := (find_iff hsi.nodup).mpr ⟨hmem, rfl⟩
            rw [hf1] at hf2
            exact Option.some.inj hf2
          subst hts
          simp only [if_true, hh, if_pos rfl]
          rw [filter_uid (hi.sess t hmem) (hu.2 t hmem) (f3 ht), h1, hh, f1]
        · simp only [if_neg he]
          rw [if_neg (by rw [← hh]; exact he)]
          exact h1
      · intro j hj
        have hx : handles (l.upd s.handle fun t => { t with objs := t.objs.filter fun p => p.uid != q.uid }).sessions =
            handles l.sessions := by
          simp only [handles, Lib.upd, List.map_map]
          refine List.map_congr_left fun t _ => ?_
          simp only [Function.comp_apply]
          split <;> rfl
        rw [hx] at hj
        dsimp only
        rw [hg.rest j hj]
        split <;> rfl

theorem Books.close {l : Lib} {g : Ledger} (hg : Books l g) (hsi : SInv l) (h : Nat) :
    Books (closeSession e l h).1 { g with loc := fun j => if j = h then [] else g.loc j } := by
  have hid : ∀ s ∈ l.sessions, s.use = .no → s.objs = [] := fun s hs h => (hsi.idle s hs h).1
  have h1 : Books { l with sessions := closeOne l.sessions h } { g with loc := fun j => if j = h then [] else g.loc j } := by
    have hloc : ∀ t ∈ l.sessions, t.objs.map (·.handle) = g.loc t.handle := fun t ht => hg.sess t.book (List.mem_map_of_mem ht)
    refine ⟨hg.tok, ?_, ?_⟩
    · intro x hx
      obtain ⟨t', ht', rfl⟩ := List.mem_map.mp hx
      dsimp only [Session.book]
      unfold closeOne at ht'
      split at ht'
      · cases ht'
      · rename_i a as heq
        split at ht'
        · rename_i hc
          have hm := mem_dropUnused ht'
          have hne : t'.handle ≠ h := by
            intro hx
            have hnd := hsi.nodup
            rw [heq] at hnd
            obtain ⟨n1, _⟩ := List.nodup_cons.mp (show (a.handle :: handles as).Nodup from hnd)
            exact n1 (List.mem_map.mpr ⟨t', hm, hx.trans hc.1.symm⟩)
          rw [if_neg hne]
          exact hloc t' (heq ▸ List.mem_cons_of_mem _ hm)
        · obtain ⟨t, ht, rfl⟩ := List.mem_map.mp ht'
          split
          · rename_i hth
            rw [sessFinal_objs (hid t (heq ▸ ht))]
            rw [if_pos (show (sessFinal t).handle = h from hth)]
            rfl
          · exact hloc t (heq ▸ ht)
    · intro j hj
      dsimp only
      split
      · rfl
      rename_i hjh
      by_cases hm : j ∈ handles l.sessions
      · obtain ⟨t, ht, rfl⟩ := List.mem_map.mp hm
        rw [← hloc t ht]
        unfold closeOne at hj
        split at hj
        · rename_i h0; rw [h0] at ht; cases ht
        · rename_i a as heq
          rw [heq] at ht
          split at hj
          · rename_i hc
            rcases List.mem_cons.mp ht with rfl | ht
            · exact absurd hc.1 hjh
            · have : t.use = .no := by
                by_cases hno : t.use = .no
                · exact hno
                · exact absurd (List.mem_map.mpr ⟨t, dropUnused_mem ht hno, rfl⟩) hj
              rw [hid t (heq ▸ List.mem_cons_of_mem _ ht) this]
              rfl
          · refine absurd ?_ hj
            refine List.mem_map.mpr ⟨t, ?_, rfl⟩
            exact List.mem_map.mpr ⟨t, by rw [heq]; exact ht, by rw [if_neg hjh]⟩
      · exact hg.rest j hm
  unfold closeSession
  dsimp only
  split
  · exact h1
  · exact h1.same (book_logout _)

end Verif
