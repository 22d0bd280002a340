import Verif.Proofs.Reload
import Verif.Props.Restart

/-!
# C34: tokens survive a restart
-/

namespace Verif

variable {e : Env}

/-- The directory after `C_Finalize`. -/
theorem restart_eq {l : Lib} (hb : l.bad = false) (hc : l.count = 1) :
    let d := l.disk.puts (storeToken e.store l.rng l.token).wr
    let t := loadToken e.store d l.uid
    run e l [.cFinal, .cInit] =
      { count := 1, sessions := addSession (addSession []), token := t, disk := d, uid := l.uid + t.objs.length,
        rng := (storeToken e.store l.rng l.token).rng, bad := false } ∧
    replies e l [.cFinal, .cInit] = [{ rv := .ok }, { rv := .ok }] := by
  intro d t
  have hf : callBody e l .cFinal =
      ({ count := 0, sessions := [], token := {}, disk := d, uid := l.uid,
         rng := (storeToken e.store l.rng l.token).rng, bad := false }, { rv := .ok }) := by
    simp only [callBody, cFinalize, hc]
    rw [if_pos (by decide)]
    unfold Lib.store
    simp only [hb]
    rfl
  have h1 : step e l .cFinal = _ := (step_eq hb (by rw [hf]; simp)).trans hf
  have h2 : ∀ l' : Lib, l'.bad = false → step e l' .cInit = callBody e l' .cInit := fun l' hb' =>
    step_eq hb' (by simp [callBody, cInitialize])
  refine ⟨?_, ?_⟩
  · show (step e (step e l .cFinal).1 .cInit).1 = _
    rw [h1, h2 _ rfl]
    simp only [callBody, cInitialize]
    rfl
  · simp only [replies, answer, h1, h2]
    rfl

/-- C34: what is stored and loaded. After any history that leaves the library initialised
once and the token with keys only, all of them stored as they are, finalising and
initialising it gives the same label, PINs, seeds and counters, the same objects in the
same order with the same attributes and the same encoded keys, and `C_GetTokenInfo`
answers as before.
Missing: certificates (`Demo.c34_violated_certificate`), tokens never initialised
(`Demo.c74_violated`). -/
theorem c34_stored_partial (hx : StoreLaws e.store) {l₀ : Lib} (h₀ : Start l₀) (cs : List Call) :
    let l := run e l₀ cs
    let l' := run e l [.cFinal, .cInit]
    l.bad = false → inits cs = finals cs + 1 → l.token.init = true → l.token.toRec.Fits →
    (∀ o ∈ tokenObjs l, o.Storable) →
    replies e l [.cFinal, .cInit] = [{ rv := .ok }, { rv := .ok }] ∧
    l'.token.toRec = l.token.toRec ∧
    (tokenObjs l').map Obj.record = (tokenObjs l).map Obj.record ∧
    (tokenObjs l').map (·.keyData) = (tokenObjs l).map (·.keyData) ∧
    ∀ now, answer e l' (.slot 1 (.tokenInfo true now)) = answer e l (.slot 1 (.tokenInfo true now)) := by
  intro l l' hb hn hinit hf ho
  have hc : l.count = 1 := by
    have : l.count = _ := run_count hb
    rw [this, h₀.count]; omega
  obtain ⟨h1, h2⟩ := restart_eq (e := e) hb hc
  have hl : l' = _ := h1
  rw [loadToken_stored hx hf ho] at hl
  have hmap : ∀ {α : Type} (g : Obj → α), (∀ u o, g (o.reloaded u) = g o) → l'.token.objs.map g = l.token.objs.map g := by
    intro α g hg
    rw [hl]
    exact reloadAll_map g hg _ _
  have hty := hmap (·.typ) (fun _ _ => rfl)
  refine ⟨h2, ?_, hmap _ (fun _ _ => rfl), hmap _ (fun _ _ => rfl), ?_⟩
  · unfold Token.toRec
    rw [hty, hl]
  · intro now
    unfold answer
    have hb' : l'.bad = false := by rw [hl]
    have hc' : ¬ l'.count ≤ 0 := by rw [hl]; simp
    rw [step_resp hb, step_resp hb']
    simp only [callBody, if_neg hc', hc, slotCall]
    have : tokenInfo l' now = tokenInfo l now := by
      rw [hl]
      unfold tokenInfo
      simp only [hinit]
    simp [this]

/-! ## Keys usable after the restart -/

theorem isKey_cleared {o : Obj} (h : o.IsKey) : (cleared o).IsKey := by
  obtain ⟨h1, h2⟩ := h
  unfold cleared
  rcases h2 with ⟨ht, ha, k, hd, hp⟩ | ⟨ht, ha, k, hd, hp⟩ | ⟨ht, ha, k, hd, g1, g2, g3, g4⟩ | ⟨ht, k, hd, hl⟩
  · rw [if_pos ht]
    split
    · rename_i hc
      exact ⟨h1, .inl ⟨ht, ha, _, rfl, fun _ => rfl⟩⟩
    · exact ⟨h1, .inl ⟨ht, ha, k, hd, hp⟩⟩
  · rw [if_neg (by rw [ht]; decide), if_pos ht]
    split
    · rename_i hc
      exact ⟨h1, .inr (.inl ⟨ht, ha, _, rfl, fun h => by rw [hc] at h; cases h⟩)⟩
    · exact ⟨h1, .inr (.inl ⟨ht, ha, k, hd, hp⟩)⟩
  · have hr : o.dh = k := by simp [Obj.dh, hd]
    rw [if_neg (by rw [ht]; decide), if_neg (by rw [ht]; decide), if_pos ht]
    split
    · exact ⟨h1, .inr (.inr (.inl ⟨ht, ha, _, rfl, by rw [hr]; exact g1, by rw [hr]; exact g2, by rw [hr]; exact g3,
        by rw [hr, List.length_replicate]; exact g4⟩))⟩
    · exact ⟨h1, .inr (.inr (.inl ⟨ht, ha, k, hd, g1, g2, g3, g4⟩))⟩
  · have hr : o.symm = k := by simp [Obj.symm, hd]
    have hn : ∀ c, c = CKK_RSA ∨ c = CKK_EC ∨ c = CKK_DH → o.typ ≠ c := by
      intro c hc h
      rw [h] at ht
      rcases hc with rfl | rfl | rfl <;> rcases ht with ht | ht <;> cases ht
    rw [if_neg (hn _ (.inl rfl)), if_neg (hn _ (.inr (.inl rfl))), if_neg (hn _ (.inr (.inr rfl)))]
    exact ⟨h1, .inr (.inr (.inr ⟨ht, _, rfl, by rw [hr, List.length_replicate]; exact hl⟩))⟩

/-- `q` is how the object `o` lies in the store: the same but perhaps for the key in clear. -/
structure LiesAs (x : StoreExt) (key : Bytes) (o q : Obj) : Prop where
  isKey : o.IsKey
  kept : o.KeptUnder x key
  same : ∃ d b, q = { o with data := d, encoded := b }
  dh : o.typ = CKK_DH → q.dh.p = o.dh.p ∧ q.dh.g = o.dh.g
  storable : q.Storable

/-- Decoding what was loaded. -/
theorem decode_reloaded {x : StoreExt} (hx : StoreLaws x) {key : Bytes} {os : List Obj} {f : Obj → Obj}
    (h : ∀ o ∈ os, LiesAs x key o (f o)) (u : Nat) :
    ∃ os', decodeAll x key (reloadAll u (os.map f)) = (.ok, os') ∧ os'.map Obj.shown = os.map Obj.shown ∧
      ∀ o ∈ os', o.encoded = false := by
  induction os generalizing u with
  | nil => exact ⟨[], rfl, rfl, fun o ho => by cases ho⟩
  | cons o os ih =>
    obtain ⟨os', i1, i2, i3⟩ := ih (fun p hp => h p (List.mem_cons_of_mem _ hp)) (u + 1)
    obtain ⟨hk, hkept, ⟨d, b, hq⟩, hdh, hst⟩ := h o List.mem_cons_self
    have hdec : decodeObj x key ((f o).reloaded u) = (.ok, { (f o).reloaded u with data := o.data, encoded := false }) := by
      refine decodeObj_kept hx hk hkept (by rw [hq]; rfl) (by rw [hq]; rfl) (by rw [hq]; rfl) (by rw [hq]; rfl) ?_
      intro ht
      have : (f o).typ = CKK_DH := by rw [hq]; exact ht
      unfold Obj.reloaded
      rw [if_pos this]
      exact hdh ht
    simp only [List.map_cons, reloadAll, decodeAll, hdec, if_true, i1]
    refine ⟨_, rfl, ?_, ?_⟩
    · rw [List.map_cons, i2]
      congr 1
      rw [hq]
      rfl
    · intro p hp
      rcases List.mem_cons.mp hp with rfl | hp
      · rfl
      · exact i3 p hp

/-- Reading a token object from any session of two libraries with the same objects. -/
theorem read_token_shown {l l' : Lib} (hb : l.bad = false) (hb' : l'.bad = false) (hc : 0 < l.count) (hc' : 0 < l'.count)
    {h h' : Nat} {s s' : Session} (hs : getSession l h = some s) (hs' : getSession l' h' = some s')
    (ht : l'.token.objs.map Obj.shown = l.token.objs.map Obj.shown) {k : Nat} (hk : handleOnToken k = true)
    (t : List Entry) : answer e l' (readCall h' k t) = answer e l (readCall h k t) := by
  have hfind : ∀ os : List Obj, (os.find? fun o => o.handle == k).map Obj.shown =
      (os.map Obj.shown).find? fun o => o.handle == k := by
    intro os
    induction os with
    | nil => rfl
    | cons o os ih =>
      simp only [List.find?_cons, List.map_cons]
      have : o.shown.handle = o.handle := rfl
      rw [this]
      cases o.handle == k with
      | true => rfl
      | false => exact ih
  have hobj : (findObj l' s' k).map Obj.shown = (findObj l s k).map Obj.shown := by
    unfold findObj
    rw [if_pos hk, if_pos hk, hfind, hfind, ht]
  unfold readCall answer
  rw [step_resp hb, step_resp hb']
  simp only [callBody, hs, hs', if_neg (show ¬ l.count ≤ 0 by omega), if_neg (show ¬ l'.count ≤ 0 by omega), sessCall, cGetAttr]
  cases h1 : findObj l' s' k with
  | none =>
    cases h2 : findObj l s k with
    | none => rfl
    | some o => rw [h1, h2] at hobj; cases hobj
  | some o' =>
    cases h2 : findObj l s k with
    | none => rw [h1, h2] at hobj; cases hobj
    | some o =>
      rw [h1, h2] at hobj
      have ho : o'.shown = o.shown := Option.some.inj hobj
      simp only
      rw [← shown_getAttributeValue e.key o', ho, shown_getAttributeValue]

/-- Finalise, initialise, open a session and log in. -/
def comeBack (pin : Bytes) (now : Int) : List Call :=
  [.cFinal, .cInit, openCall true, loginCall 65538 .user pin now]

theorem comeBack_spec (hx : StoreLaws e.store) {l : Lib} (hb : l.bad = false) (hc : l.count = 1)
    (hf : l.token.toRec.Fits) {pin : Bytes} {now : Int} (hp : pinLenOk pin = true) (hm : Matches e l.token.user pin)
    (hlock : ¬ Locked l.token.user now) {os : List Obj} {f : Obj → Obj} (hos : l.token.objs = os.map f)
    (hk : ∀ o ∈ os, LiesAs e.store (e.store.hash pin l.token.seed) o (f o)) :
    replies e l (comeBack pin now) =
      [{ rv := .ok }, { rv := .ok }, { rv := .ok, handle := some 65538 }, { rv := .ok }] ∧
    (run e l (comeBack pin now)).bad = false ∧ (run e l (comeBack pin now)).count = 1 ∧
    (∃ s, getSession (run e l (comeBack pin now)) 65538 = some s) ∧
    (tokenObjs (run e l (comeBack pin now))).map Obj.shown = os.map Obj.shown ∧
    ∀ o ∈ tokenObjs (run e l (comeBack pin now)), o.encoded = false := by
  have hst : ∀ o ∈ l.token.objs, o.Storable := by
    intro o ho
    rw [hos] at ho
    obtain ⟨p, hp, rfl⟩ := List.mem_map.mp ho
    exact (hk p hp).storable
  obtain ⟨h1, h2⟩ := restart_eq (e := e) hb hc
  rw [loadToken_stored hx hf hst] at h1
  obtain ⟨os', d1, d2, d3⟩ := decode_reloaded hx hk l.uid
  rw [← hos] at d1
  -- the state after the restart and with the session open
  let l1 : Lib := run e l [.cFinal, .cInit]
  have hl1 : l1 = _ := h1
  have hb1 : l1.bad = false := by rw [hl1]
  have hc1 : l1.count = 1 := by rw [hl1]
  have ht1 : l1.token =
      { label := l.token.label, init := true, so := l.token.so, user := l.token.user, seed := l.token.seed,
        objs := reloadAll l.uid l.token.objs } := by rw [hl1]
  have hopen : step e l1 (openCall true) =
      (l1.upd 65538 fun t => { t with use := .rw }, { rv := .ok, handle := some 65538 }) := by
    have hbody : callBody e l1 (openCall true) = openSession l1 true := by
      simp [callBody, openCall, hc1, slotCall]
    have hos : openSession l1 true = (l1.upd 65538 fun t => { t with use := .rw }, { rv := .ok, handle := some 65538 }) := by
      rw [hl1]; rfl
    rw [step_eq hb1 (by rw [hbody, hos]; simp), hbody, hos]
  let l2 : Lib := l1.upd 65538 fun t => { t with use := .rw }
  have hs2 : (getSession l2 65538).isSome = true := by
    show (getSession (l1.upd 65538 fun t => { t with use := .rw }) 65538).isSome = true
    rw [hl1]; rfl
  obtain ⟨s, hs2⟩ := Option.isSome_iff_exists.mp hs2
  have hb2 : l2.bad = false := hb1
  have hc2 : l2.count = 1 := hc1
  have hu : userLogin e l2 pin now = _ :=
    userLogin_ok (l := l2) (pin := pin) (now := now) (os := os') (by show l1.token.login = _; rw [ht1])
      (by show l1.token.init = _; rw [ht1]) (by show Matches e l1.token.user pin; rw [ht1]; exact hm)
      (by show ¬ Locked l1.token.user now; rw [ht1]; exact hlock)
      (by show decodeAll e.store (e.store.hash pin l1.token.seed) l1.token.objs = _; rw [ht1]; exact d1)
  have hlog : step e l2 (loginCall 65538 .user pin now) = ((userLogin e l2 pin now).1, { rv := .ok }) := by
    have hsc : sessCall e l2 s (.login .user (some pin) now) = ((userLogin e l2 pin now).1, { rv := .ok }) := by
      simp only [sessCall, login, hp, Bool.not_true, Bool.false_eq_true, if_false]
      rw [hu]
    have := step_sess (e := e) (l := l2) (h := 65538) (s := s) (c := .login .user (some pin) now) hb2
      (by rw [hc2]; decide) hs2 (by rw [hsc]; simp)
    rw [hsc] at this
    exact this
  have hrun : run e l (comeBack pin now) = (userLogin e l2 pin now).1 := by
    show (step e (step e l1 (openCall true)).1 _).1 = _
    rw [hopen, hlog]
  refine ⟨?_, ?_, ?_, ⟨s, ?_⟩, ?_, ?_⟩
  · have : ∀ (a b : Call) (r : List Call), replies e l (a :: b :: r) = replies e l [a, b] ++ replies e (run e l [a, b]) r := by
      intro a b r; rfl
    unfold comeBack
    rw [this, h2]
    show [_, _] ++ replies e l1 _ = _
    simp only [replies, answer, hopen]
    rw [show (l1.upd 65538 fun t => { t with use := .rw }) = l2 from rfl, hlog]
    rfl
  · rw [hrun, hu]; exact hb2
  · rw [hrun, hu]; exact hc2
  · rw [hrun, hu]; exact hs2
  · unfold tokenObjs
    rw [hrun, hu]; exact d2
  · unfold tokenObjs
    rw [hrun, hu]; exact d3

/-- C34: keys stored as they are can be used after a restart. After any history that leaves
the library initialised once, with only keys on the token, each kept in the form that
encodes its present value under the key derived from the user's PIN: after finalising,
initialising, opening a session and logging in with the PIN, all attributes of all
objects read as before. -/
theorem c34_usable_partial (hx : StoreLaws e.store) {l₀ : Lib} (h₀ : Start l₀) (cs : List Call) (pin : Bytes) (now : Int) :
    let l := run e l₀ cs
    l.bad = false → inits cs = finals cs + 1 → l.token.toRec.Fits →
    (∀ o ∈ tokenObjs l, o.Storable ∧ o.IsKey ∧ o.KeptUnder e.store (e.store.hash pin l.token.seed)) →
    4 ≤ pin.length → pin.length ≤ 32 → Matches e l.token.user pin → ¬ Locked l.token.user now →
    replies e l (comeBack pin now) =
      [{ rv := .ok }, { rv := .ok }, { rv := .ok, handle := some 65538 }, { rv := .ok }] ∧
    ∀ h k t, IsOpen e l h → 2 ^ 28 ≤ k → k < 2 ^ 60 →
      answer e (run e l (comeBack pin now)) (readCall 65538 k t) = answer e l (readCall h k t) := by
  intro l hb hn hf ho hp1 hp2 hm hlock
  have hc : l.count = 1 := by
    have : l.count = _ := run_count hb
    rw [this, h₀.count]; omega
  obtain ⟨r1, r2, r3, ⟨s', r4⟩, r5, _⟩ := comeBack_spec hx hb hc hf (pinLenOk_iff.mpr ⟨hp1, hp2⟩) hm hlock (os := l.token.objs)
    (f := fun o => o) (by simp) fun o hmem =>
      ⟨(ho o hmem).2.1, (ho o hmem).2.2, ⟨o.data, o.encoded, rfl⟩, fun _ => ⟨rfl, rfl⟩, (ho o hmem).1⟩
  refine ⟨r1, fun h k t hop hk1 hk2 => ?_⟩
  obtain ⟨_, s, hs⟩ := (isOpen_iff (h₀.sinv.run e cs)).mp hop
  refine read_token_shown hb r2 (by rw [hc]; decide) (by rw [r3]; decide) hs r4 r5 ?_ t
  unfold handleOnToken
  simp only [decide_eq_true_eq, ne_eq]
  omega

/-- C34 for a user who logs out first. After any history that leaves the library initialised
once and the user logged in, with only keys on the token that can be encoded: after
logging out, finalising, initialising, opening a session and logging in with the PIN,
all attributes of all token objects read as before the logout. -/
theorem c34_logout_partial (hx : StoreLaws e.store) (hh : HashLen e) {l₀ : Lib} (h₀ : Start l₀) (cs : List Call)
    (h : Nat) (pin : Bytes) (now : Int) :
    let l := run e l₀ cs
    let again := .sess h .logout :: comeBack pin now
    (stateOf e l h = some .rwUser ∨ stateOf e l h = some .roUser) → inits cs = finals cs + 1 →
    l.token.toRec.Fits →
    (∀ o ∈ tokenObjs l, o.IsKey ∧ o.Fits ∧ ∃ c, o.sealedKey e.store l.token.key = some c ∧ c.length < 2 ^ 31) →
    OnlyPin e l pin → ¬ Locked l.token.user now →
    replies e l again =
      [{ rv := .ok }, { rv := .ok }, { rv := .ok }, { rv := .ok, handle := some 65538 }, { rv := .ok }] ∧
    ∀ h' k t, IsOpen e l h' → 2 ^ 28 ≤ k → k < 2 ^ 60 →
      answer e (run e l again) (readCall 65538 k t) = answer e l (readCall h' k t) := by
  intro l again hst hn hf ho ⟨hl1, hl2, hm, hone⟩ hlock
  have hi : SInv l := h₀.sinv.run e cs
  obtain ⟨s, hs, hb, hc0, hlog⟩ := user_of_state hi hst
  have hc : l.count = 1 := by
    have : l.count = _ := run_count hb
    rw [this, h₀.count]; omega
  have hkey : l.token.key = e.store.hash pin l.token.seed := by
    obtain ⟨q, hq1, hq2, hq3⟩ := h₀.kinv.run hh cs hlog
    have := pinLenOk_iff.mp hq1
    rw [hone q this.1 this.2 hq2] at hq3
    exact hq3
  have hkeep : ∀ o ∈ l.token.objs, o.Keepable e.store := by
    intro o hmem
    obtain ⟨h1, _, c, h2, _⟩ := ho o hmem
    refine .inr ⟨h1, ?_⟩
    unfold Obj.sealedKey at h2
    obtain ⟨b, hb, _⟩ := Option.map_eq_some_iff.mp h2
    rw [hb]; rfl
  have hstep1 : step e l (.sess h .logout) = (logout e l, { rv := .ok }) := step_sess hb hc0 hs (by simp [sessCall])
  have hobjs : (logout e l).token.objs =
      (l.token.objs.map fun o => o.sealUnder e.store l.token.key).map cleared := by
    have : (logout e l).token.objs = encodeAll e.store l.token.key l.token.objs := if_pos hlog
    rw [this, encodeAll_keepable hkeep, List.map_map]
    exact List.map_congr_left fun o hmem => if_neg (ho o hmem).1.1
  have hf' : (logout e l).token.toRec.Fits := by
    have : (logout e l).token.toRec = l.token.toRec := by
      unfold Token.toRec
      rw [hobjs, List.map_map, List.map_map]
      have : l.token.objs.map (((fun o => o.typ) ∘ cleared) ∘ fun o => o.sealUnder e.store l.token.key) =
          l.token.objs.map (·.typ) := by
        refine List.map_congr_left fun o hmem => ?_
        obtain ⟨d, b, hcl, _⟩ := cleared_eq (o.sealUnder e.store l.token.key)
        show (cleared (o.sealUnder e.store l.token.key)).typ = o.typ
        rw [hcl]
        unfold Obj.sealUnder
        split <;> rfl
      rw [this]; rfl
    rw [this]; exact hf
  obtain ⟨r1, r2, r3, ⟨s', r4⟩, r5, _⟩ := comeBack_spec hx (l := logout e l) hb hc hf' (pinLenOk_iff.mpr ⟨hl1, hl2⟩) hm hlock
    (f := cleared) hobjs (by
      intro p hp
      obtain ⟨o, hmem, rfl⟩ := List.mem_map.mp hp
      obtain ⟨h1, h2, c, h3, h4⟩ := ho o hmem
      have he : o.sealUnder e.store l.token.key = { o with keyData := o.sealedKey e.store l.token.key } := if_neg h1.1
      obtain ⟨d, b, g1, g2⟩ := cleared_eq (o.sealUnder e.store l.token.key)
      rw [he] at g1 g2 ⊢
      have hik : ({ o with keyData := o.sealedKey e.store l.token.key } : Obj).IsKey := h1
      refine ⟨hik, ⟨c, ?_, h3⟩, ⟨d, b, g1⟩, g2, (isKey_cleared hik).form, ?_, ?_⟩
      · show o.sealedKey e.store (e.store.hash pin l.token.seed) = _
        rw [← hkey]; exact h3
      · rw [g1]; exact ⟨h2.iv, h2.handle, h2.cls, h2.mech, h2.start, h2.fin, h2.keyId, h2.label⟩
      · rw [g1]; exact ⟨c, h3, h4⟩)
  have hrun : ∀ c, run e l (.sess h .logout :: c) = run e (logout e l) c := by
    intro c; show run e (step e l _).1 c = _; rw [hstep1]
  refine ⟨?_, fun h' k t hop hk1 hk2 => ?_⟩
  · show answer e l _ :: replies e (step e l _).1 _ = _
    unfold answer
    rw [hstep1, r1]
  · obtain ⟨_, s1, hs1⟩ := (isOpen_iff hi).mp hop
    rw [hrun]
    refine read_token_shown hb r2 hc0 (by rw [r3]; decide) hs1 r4 ?_ ?_ t
    · have : (tokenObjs (run e (logout e l) (comeBack pin now))).map Obj.shown =
          (l.token.objs.map fun o => o.sealUnder e.store l.token.key).map Obj.shown := r5
      refine this.trans ?_
      rw [List.map_map]
      exact List.map_congr_left fun o _ => shown_sealUnder o _
    · unfold handleOnToken
      simp only [decide_eq_true_eq, ne_eq]
      omega

/-! ## Concrete cases -/

namespace Demo

set_option maxRecDepth 20000 in
theorem withKey_stored : ∀ o ∈ tokenObjs (run env fresh withKey),
    (o.iv.length = 12 ∧ o.handle = tok1 ∧ o.keyGenMech < 2 ^ 64 ∧ o.startDate.length = 8 ∧ o.endDate.length = 8 ∧
      o.keyId.length = 0 ∧ o.label.length = 0) ∧
    (o.keyData.map (·.length)) = some 32 ∧
    o.keyData = o.sealedKey env.store (env.store.hash userPin (run env fresh withKey).token.seed) ∧
    (run env fresh withKey).token.key = env.store.hash userPin (run env fresh withKey).token.seed := by decide

theorem withKey_storable : ∀ o ∈ tokenObjs (run env fresh withKey), o.Storable ∧ o.IsKey ∧
    o.KeptUnder env.store (env.store.hash userPin (run env fresh withKey).token.seed) := by
  intro o ho
  obtain ⟨h1, h2, h3⟩ := withKey_objs o ho
  obtain ⟨⟨i1, i2, i3, i4, i5, i6, i7⟩, j1, j2, _⟩ := withKey_stored o ho
  obtain ⟨c, hc, hl⟩ := Option.map_eq_some_iff.mp j1
  have hkey : o.IsKey := ⟨by rw [h2]; decide, .inr (.inr (.inr ⟨.inl h1, _, h3, by decide⟩))⟩
  refine ⟨⟨hkey.form, ⟨i1, by rw [i2]; decide, by rw [h2]; decide, i3, i4, i5, by rw [i6]; decide, by rw [i7]; decide⟩,
    c, hc, by rw [hl]; decide⟩, hkey, c, by rw [← j2]; exact hc, hc⟩

set_option maxRecDepth 20000 in
theorem withKey_fits : (run env fresh withKey).token.toRec.Fits := by
  have h : (run env fresh withKey).token.toRec.types = [CKK_AES] := by decide
  refine ⟨by decide, ⟨by decide, by decide, ?_, ?_, ?_⟩, ⟨by decide, by decide, ?_, ?_, ?_⟩, by decide, ?_, ?_⟩
  · unfold IsInt; decide
  · unfold IsTime; decide
  · unfold IsTime; decide
  · unfold IsInt; decide
  · unfold IsTime; decide
  · unfold IsTime; decide
  · rw [h]; decide
  · rw [h]; decide

set_option maxRecDepth 20000 in
/-- The hypotheses of `c34_stored_partial`, `c34_usable_partial` and `c34_logout_partial` are met
by a token with a key (with `withKey_fits` and `withKey_storable`). -/
example : (run env fresh withKey).bad = false ∧ inits withKey = finals withKey + 1 ∧
    (run env fresh withKey).token.init = true ∧ Matches env (run env fresh withKey).token.user userPin ∧
    ¬ Locked (run env fresh withKey).token.user 0 ∧ stateOf env (run env fresh withKey) 65538 = some .rwUser := by decide

/-- A template for a certificate on the token. -/
def certTmpl (v : Bytes) : List Entry :=
  [.of .cls (ulong CKO_CERTIFICATE), .of .certificateType (ulong 0), .of .token [1], .of .value v]

set_option maxRecDepth 20000 in
/-- C34 is violated by certificates: after a restart the certificate is there and empty. -/
theorem c34_violated_certificate :
    let cs := setup ++ [createCall 65538 (certTmpl [1, 2, 3])]
    rvs env fresh (cs ++ restart userPin) = List.replicate 12 .ok ∧
    shownValue env (run env fresh cs) tok1 = some [(3, some ([1, 2, 3] ++ List.replicate 13 0))] ∧
    shownValue env (run env fresh (cs ++ restart userPin)) tok1 = some [(0, some (List.replicate 16 0))] := by decide

set_option maxRecDepth 20000 in
/-- C34 is violated by `C_SetAttributeValue` on a token key: without a logout before
`C_Finalize` the change of the value is lost at a restart, although all calls succeed. -/
theorem c34_violated_setAttr :
    let cs := withKey ++ [.sess 65538 (.setAttr tok1 (some [.of .value (List.replicate 16 9)]))]
    rvs env fresh (cs ++ restart userPin) = List.replicate 13 .ok ∧
    shownValue env (run env fresh cs) tok1 = some [(16, some (List.replicate 16 9))] ∧
    shownValue env (run env fresh (cs ++ restart userPin)) tok1 = some [(16, some (List.replicate 16 7))] := by decide

set_option maxRecDepth 20000 in
/-- C75 is violated: an empty certificate is accepted as a token object, and after a restart
the whole token is gone: the user's PIN is not set, no object is found, and
`C_InitToken` refuses the security officer's PIN. -/
theorem c75_violated :
    let cs := withKey ++ [createCall 65538 (certTmpl [])]
    rvs env fresh (cs ++ [.cFinal, .cInit, openCall true]) = List.replicate 12 .ok ∧
    let l := run env fresh (cs ++ [.cFinal, .cInit, openCall true])
    (answer env l (loginCall 65538 .user userPin 0)).rv = .userPinNotInitialized ∧
    (answer env l (readValue tok1)).rv = .objectHandleInvalid ∧
    (answer env (run env l [closeCall 65538]) (.slot 1 (.initToken (some soPin) (some label)))).rv = .pinIncorrect := by
  decide

/-- Three wrong PINs and the right one. -/
def guesses : List Call :=
  setup ++ [.sess 65538 .logout, loginCall 65538 .user [0, 0, 0, 0] 0, loginCall 65538 .user [0, 0, 0, 0] 0,
    loginCall 65538 .user [0, 0, 0, 0] 0, loginCall 65538 .user userPin 0]

set_option maxRecDepth 20000 in
/-- C76 is violated: the account is locked, the process ends without `C_Finalize`, and the
next process accepts the PIN at the same time: the counter was never written. -/
theorem c76_violated :
    (rvs env fresh guesses).drop 8 = List.replicate 4 .pinIncorrect ∧
    Locked (run env fresh guesses).token.user 0 ∧
    rvs env (afterDeath (run env fresh guesses)) [.cInit, openCall true, loginCall 65538 .user userPin 0] =
      [.ok, .ok, .ok] := by decide

end Demo

/-! ## C74: a token that was never initialised -/

/-- C74 as far as it holds: while `C_GetTokenInfo` reports that the token is not initialised,
`C_InitToken` with a PIN of allowed length works. -/
theorem c74_partial {l : Lib} {now : Int} {ti : TokInfo}
    (hinfo : answer e l (.slot 1 (.tokenInfo true now)) = { rv := .ok, info := some ti }) (hti : ti.tokenInit = false)
    (pin label : Bytes) (h1 : 4 ≤ pin.length) (h2 : pin.length ≤ 32) :
    ∃ rv, (rv = .ok ∨ rv = .functionFailed) ∧
      answer e l (.slot 1 (.initToken (some pin) (some label))) = { rv } ∧
      (step e l (.slot 1 (.initToken (some pin) (some label)))).1.token.init = true := by
  cases hb : l.bad with
  | true => unfold answer at hinfo; rw [step_bad hb] at hinfo; cases hinfo
  | false =>
    unfold answer at hinfo ⊢
    rw [step_resp hb] at hinfo
    simp only [callBody] at hinfo
    split at hinfo
    · cases hinfo
    · rename_i hc
      simp only [ne_eq, not_true_eq_false, if_false, slotCall, if_true] at hinfo
      have hinit : l.token.init = false := by
        simp only [Bool.not_true, Bool.false_eq_true, if_false, Resp.mk.injEq, Option.some.injEq] at hinfo
        have := hinfo.2.2.2.2.2.2.2
        rw [← this] at hti
        exact hti
      have hbody : callBody e l (.slot 1 (.initToken (some pin) (some label))) =
          pinSet (setSoPin e { l with token := { label := labelOf label, init := true } } pin) := by
        simp only [callBody, if_neg hc, ne_eq, not_true_eq_false, if_false, slotCall, initToken,
          pinLenOk_iff.mpr ⟨h1, h2⟩, hinit, Bool.not_true, Bool.false_and, Bool.false_eq_true]
      have hrv : (pinSet (setSoPin e { l with token := { label := labelOf label, init := true } } pin)).2.rv = .ok ∨
          (pinSet (setSoPin e { l with token := { label := labelOf label, init := true } } pin)).2.rv = .functionFailed := by
        unfold pinSet; dsimp only; split
        · exact .inl rfl
        · exact .inr rfl
      have hs : step e l (.slot 1 (.initToken (some pin) (some label))) = _ :=
        (step_eq hb (by rw [hbody]; rcases hrv with h | h <;> rw [h] <;> simp)).trans hbody
      rw [hs]
      exact ⟨_, hrv, rfl, rfl⟩

/-- C74 is violated: initialising and finalising the library once, on an empty directory,
stores a token that nobody initialised. From then on `C_GetTokenInfo` reports it as
initialised, and `C_InitToken` refuses every PIN. -/
theorem c74_violated (hx : StoreLaws e.store) {l : Lib} (h : Start l) (hd : NoToken l) :
    let l' := run e l [.cInit, .cFinal, .cInit]
    (∀ now, ∃ ti, answer e l' (.slot 1 (.tokenInfo true now)) = { rv := .ok, info := some ti } ∧ ti.tokenInit = true) ∧
    ∀ pin label, (answer e l' (.slot 1 (.initToken pin label))).rv ≠ .ok := by
  intro l'
  have h1 : step e l .cInit = ({ l with count := 1, sessions := addSession (addSession []) }, { rv := .ok }) := by
    have hl : loadToken e.store l.disk l.uid = {} := by unfold loadToken; rw [hd]
    have hb : callBody e l .cInit = ({ l with count := 1, sessions := addSession (addSession []) }, { rv := .ok }) := by
      simp only [callBody, cInitialize, h.count, hl, if_true]
      rw [← h.token]
      rfl
    rw [step_eq h.bad (by rw [hb]; simp), hb]
  have h2 := (restart_eq (e := e) (l := { l with count := 1, sessions := addSession (addSession []) }) h.bad rfl).1
  have hl' : l' = run e (step e l .cInit).1 [.cFinal, .cInit] := rfl
  rw [h1, h2] at hl'
  have hfit : ({ l with count := 1, sessions := addSession (addSession []) } : Lib).token.toRec.Fits := by
    show l.token.toRec.Fits
    rw [h.token]
    refine ⟨by decide, ⟨by decide, by decide, ?_, ?_, ?_⟩, ⟨by decide, by decide, ?_, ?_, ?_⟩, by decide, by decide,
      fun k hk => by cases hk⟩ <;> first | (unfold IsInt; decide) | (unfold IsTime; decide)
  rw [loadToken_stored hx hfit (by
    intro o ho
    have ho : o ∈ l.token.objs := ho
    rw [h.token] at ho; cases ho)] at hl'
  have hb : l'.bad = false := by rw [hl']
  have hc : ¬ l'.count ≤ 0 := by rw [hl']; simp
  have hin : l'.token.init = true := by rw [hl']
  have hso : l'.token.so.pin = [] := by
    rw [hl']; show l.token.so.pin = []; rw [h.token]
  refine ⟨fun now => ⟨tokenInfo l' now, ?_, hin⟩, fun pin label => ?_⟩
  · unfold answer
    rw [step_resp hb]
    simp only [callBody, if_neg hc, slotCall]
    rfl
  · unfold answer
    rw [step_resp hb]
    simp only [callBody, if_neg hc, ne_eq, not_true_eq_false, if_false, slotCall, initToken]
    split
    · rename_i p lab
      split
      · simp
      split
      · simp
      have hcp : checkPin e l'.token l'.token.so p ≠ .ok := by
        rcases checkPin_cases e l'.token l'.token.so p with ⟨h, _⟩ | ⟨h, _, _, _⟩ | ⟨_, h'⟩
        · rw [h]; decide
        · rw [h]; decide
        · exact absurd hso h'.2.1
      rw [if_pos (by simp [hin, hcp])]
      simp
    · simp

end Verif
