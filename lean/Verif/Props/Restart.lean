import Verif.Proofs.Restart
import Verif.Proofs.KeyInv
import Verif.Props.Pin
import Verif.Props.Objs
import Verif.Proofs.DemoLaws

/-!
# C39, C40: keys through logout and login
-/

namespace Verif

variable {e : Env}

theorem userLogin_ok {l : Lib} {pin : Bytes} {now : Int} {os : List Obj} (h1 : l.token.login = .pub)
    (h2 : l.token.init = true) (h3 : Matches e l.token.user pin) (h4 : ¬ Locked l.token.user now)
    (h5 : decodeAll e.store (e.store.hash pin l.token.seed) l.token.objs = (.ok, os)) :
    userLogin e l pin now =
      ({ l with token := { l.token with user := succeeded (unlocked l.token.user),
                                        key := e.store.hash pin l.token.seed, objs := os, login := .user } }, .ok) := by
  unfold userLogin
  rw [if_neg (by simpa using h1), lockCheck_some h4]
  dsimp only
  have hsp := samePin_unlocked l.token.user
  rcases checkPin_cases e l.token (unlocked l.token.user) pin with ⟨h, h'⟩ | ⟨h, _, _, h'⟩ | ⟨h, _⟩
  · rcases h' with h' | h'
    · rw [h2] at h'; cases h'
    · rw [hsp.1] at h'; exact absurd h' h3.1
  · exact absurd ((matches_same hsp pin).mpr h3) h'
  · rw [h, h5]

/-- A call on an open session that does not run into undefined behaviour. -/
theorem step_sess {l : Lib} (hb : l.bad = false) (hc : 0 < l.count) {h : Nat} {s : Session}
    (hs : getSession l h = some s) {c : SessCall} (hu : (sessCall e l s c).2.rv ≠ .ub) :
    step e l (.sess h c) = sessCall e l s c := by
  have hc' : ¬ l.count ≤ 0 := by omega
  have : callBody e l (.sess h c) = sessCall e l s c := by simp only [callBody, if_neg hc', hs]
  rw [step_eq hb (by rw [this]; exact hu), this]

/-- Reading attributes depends on what is shown of the objects. -/
theorem read_shown {l l' : Lib} (hb : l'.bad = l.bad) (hc : l'.count = l.count)
    (hs : l'.sessions = l.sessions)
    (ht : l'.token.objs.map Obj.shown = l.token.objs.map Obj.shown) (h k : Nat) (t : List Entry) :
    answer e l' (readCall h k t) = answer e l (readCall h k t) := by
  have hfind : ∀ os : List Obj, (os.find? fun o => o.handle == k).map Obj.shown =
      (os.map Obj.shown).find? fun o => o.handle == k := by
    intro os
    induction os with
    | nil => rfl
    | cons o os ih =>
      simp only [List.find?_cons, List.map_cons]
      have : o.shown.handle = o.handle := rfl
      rw [this]
      cases o.handle == k with
      | true => rfl
      | false => exact ih
  have hobj : ∀ s, (findObj l' s k).map Obj.shown = (findObj l s k).map Obj.shown := by
    intro s
    unfold findObj
    split
    · rw [hfind, hfind, ht]
    · rfl
  unfold readCall answer
  cases hb1 : l.bad with
  | true =>
    rw [step_bad hb1, step_bad (hb.trans hb1)]
  | false =>
    rw [step_resp hb1, step_resp (hb.trans hb1)]
    simp only [callBody, hc]
    split
    · rfl
    have hg : getSession l' h = getSession l h := by unfold getSession; rw [hs]
    rw [hg]
    cases getSession l h with
    | none => rfl
    | some s =>
      simp only [sessCall, cGetAttr]
      have := hobj s
      cases h1 : findObj l' s k with
      | none =>
        cases h2 : findObj l s k with
        | none => rfl
        | some o => rw [h1, h2] at this; cases this
      | some o' =>
        cases h2 : findObj l s k with
        | none => rw [h1, h2] at this; cases this
        | some o =>
          rw [h1, h2] at this
          have ho : o'.shown = o.shown := Option.some.inj this
          simp only
          rw [← shown_getAttributeValue e.key o', ho, shown_getAttributeValue]

theorem user_of_state {l : Lib} (hi : SInv l) {h : Nat}
    (hst : stateOf e l h = some .rwUser ∨ stateOf e l h = some .roUser) :
    ∃ s, getSession l h = some s ∧ l.bad = false ∧ 0 < l.count ∧ l.token.login = .user := by
  have ho : IsOpen e l h := by
    have hsome : ∃ st, stateOf e l h = some st := by
      rcases hst with hst | hst
      · exact ⟨_, hst⟩
      · exact ⟨_, hst⟩
    obtain ⟨st, hst⟩ := hsome
    refine (isOpen_iff hi).mpr ?_
    cases hb : l.bad with
    | true =>
      unfold stateOf sessionInfo answer at hst
      rw [step_bad hb] at hst; cases hst
    | false =>
      refine ⟨rfl, ?_⟩
      rcases hi.shape with ⟨h1, h2⟩ | ⟨h1, _⟩
      · unfold stateOf sessionInfo answer at hst
        rw [step_resp hb] at hst
        have hg : getSession l h = none := by unfold getSession; simp [h2]
        simp [callBody, h1, hg] at hst
      · unfold stateOf at hst
        rw [sessionInfo_eq hb h1] at hst
        cases hg : getSession l h with
        | none => rw [hg] at hst; cases hst
        | some s => exact ⟨s, rfl⟩
  obtain ⟨hb, s, hs⟩ := (isOpen_iff hi).mp ho
  refine ⟨s, hs, hb, count_pos_of_open hi hs, ?_⟩
  rw [stateOf_eq hi hb hs] at hst
  unfold sessState at hst
  cases hl : l.token.login with
  | user => rfl
  | so => rw [hl] at hst; simp at hst
  | pub =>
    rw [hl] at hst
    dsimp only at hst
    split at hst <;> simp at hst

/-- The token's objects are keys that can be encoded, or certificates. -/
def AllKeepable (e : Env) (l : Lib) : Prop := ∀ o ∈ tokenObjs l, o.Keepable e.store

/-- `pin` is the only PIN the user's account accepts. -/
def OnlyPin (e : Env) (l : Lib) (pin : Bytes) : Prop :=
  4 ≤ pin.length ∧ pin.length ≤ 32 ∧ Matches e l.token.user pin ∧
  ∀ q, 4 ≤ q.length → q.length ≤ 32 → Matches e l.token.user q → q = pin

/-- The answers to logging out and in with the PIN the storage key comes from. -/
theorem relogin (hx : StoreLaws e.store) {l : Lib} {h : Nat} {s : Session} {pin : Bytes} {now : Int}
    (hs : getSession l h = some s) (hb : l.bad = false) (hc : 0 < l.count) (hlog : l.token.login = .user)
    (hinit : l.token.init = true) (hp : pinLenOk pin = true) (hm : Matches e l.token.user pin)
    (hkey : l.token.key = e.store.hash pin l.token.seed) (hlock : ¬ Locked l.token.user now)
    (hk : AllKeepable e l) :
    let again := [.sess h .logout, loginCall h .user pin now]
    replies e l again = [{ rv := .ok }, { rv := .ok }] ∧
    (∀ o ∈ tokenObjs (run e l again), o.encoded = false) ∧
    ∀ h' k t, answer e (run e l again) (readCall h' k t) = answer e l (readCall h' k t) := by
  intro again
  have hstep1 : step e l (.sess h .logout) = (logout e l, { rv := .ok }) := step_sess hb hc hs (by simp [sessCall])
  have hobjs : (logout e l).token.objs = encodeAll e.store l.token.key l.token.objs := if_pos hlog
  have hlogin : userLogin e (logout e l) pin now = _ :=
    userLogin_ok (l := logout e l) (os := l.token.objs.map fun o => { o.sealUnder e.store l.token.key with encoded := false })
      rfl hinit hm hlock (by
        show decodeAll e.store (e.store.hash pin l.token.seed) _ = _
        rw [hobjs, ← hkey]; exact decodeAll_keepable hx hk _)
  have hstep2 : step e (logout e l) (loginCall h .user pin now) =
      ((userLogin e (logout e l) pin now).1, { rv := .ok }) := by
    have hsc : sessCall e (logout e l) s (.login .user (some pin) now) =
        ((userLogin e (logout e l) pin now).1, { rv := .ok }) := by
      simp only [sessCall, login, hp, Bool.not_true, Bool.false_eq_true, if_false]
      rw [hlogin]
    have := step_sess (e := e) (l := logout e l) (h := h) (s := s) (c := .login .user (some pin) now) hb hc hs
      (by rw [hsc]; simp)
    rw [hsc] at this
    exact this
  have hrun : run e l again = (userLogin e (logout e l) pin now).1 := by
    show (step e (step e l _).1 _).1 = _
    rw [hstep1, hstep2]
  have hto : (run e l again).token.objs = l.token.objs.map fun o => { o.sealUnder e.store l.token.key with encoded := false } := by
    rw [hrun, hlogin]
  refine ⟨?_, ?_, ?_⟩
  · simp only [again, replies, answer, hstep1, hstep2]
  · intro o ho
    have ho : o ∈ (run e l again).token.objs := ho
    rw [hto] at ho
    obtain ⟨p, _, rfl⟩ := List.mem_map.mp ho
    rfl
  · intro h' k t
    refine read_shown ?_ ?_ ?_ ?_ h' k t
    · rw [hrun, hlogin]; rfl
    · rw [hrun, hlogin]; rfl
    · rw [hrun, hlogin]; rfl
    · rw [hto, List.map_map]
      exact List.map_congr_left fun o _ => shown_sealUnder o _

/-- C40, first half. The user is logged in after any history, and the keys of the token
can be encoded.  Logging out and in again with the user's PIN succeeds, no object stays
encrypted, and every attribute of every object reads as before the logout.
Missing: that a login with which a stored key cannot be decrypted is refused
(`Demo.c40_violated_wrong_key`). -/
theorem c40_partial (hx : StoreLaws e.store) (hh : HashLen e) {l₀ : Lib} (h₀ : Start l₀) (cs : List Call)
    (h : Nat) (pin : Bytes) (now : Int) :
    let l := run e l₀ cs
    let again := [.sess h .logout, loginCall h .user pin now]
    (stateOf e l h = some .rwUser ∨ stateOf e l h = some .roUser) →
    AllKeepable e l → OnlyPin e l pin → ¬ Locked l.token.user now →
    replies e l again = [{ rv := .ok }, { rv := .ok }] ∧
    (∀ o ∈ tokenObjs (run e l again), o.encoded = false) ∧
    ∀ h' k t, answer e (run e l again) (readCall h' k t) = answer e l (readCall h' k t) := by
  intro l again hst hk ⟨hl1, hl2, hm, hone⟩ hlock
  have hi : SInv l := h₀.sinv.run e cs
  obtain ⟨s, hs, hb, hc, hlog⟩ := user_of_state hi hst
  have hkey : l.token.key = e.store.hash pin l.token.seed := by
    obtain ⟨q, hq1, hq2, hq3⟩ := h₀.kinv.run hh cs hlog
    have := pinLenOk_iff.mp hq1
    rw [hone q this.1 this.2 hq2] at hq3
    exact hq3
  have hinit : l.token.init = true := (h₀.linv.run e cs) (by rw [hlog]; decide)
  exact relogin hx hs hb hc hlog hinit (pinLenOk_iff.mpr ⟨hl1, hl2⟩) hm hkey hlock hk

/-! ## The wrong key -/

theorem decodeObj_refused {o : Obj} {key d : Bytes} (hsec : o.isSecret = true) (hcls : o.cls ≠ CKO_CERTIFICATE)
    (ht : keyTypeOk o.typ = true) (hd : o.keyData = some d) (hl : 16 ≤ d.length)
    (hr : e.store.aeadDec key o.iv d = none) : decodeObj e.store key o = (.ok, { o with encoded := true }) := by
  have hu : unsealData e.store key o = (.auth, []) := by
    unfold unsealData
    rw [hd]
    dsimp only
    rw [if_neg (by unfold tagSz; omega), hr]
  have hk : decodeKey e.store key o = (.auth, { o with encoded := true }) := by
    unfold decodeKey
    rw [if_neg hcls]
    by_cases h1 : o.typ = CKK_RSA
    · rw [if_pos h1, decodeRsa]
      have : o.cls = CKO_PRIVATE_KEY := by
        simpa [Obj.isSecret, h1, CKK_RSA, CKK_AES, CKK_GENERIC_SECRET] using hsec
      rw [if_pos this, hu]; rfl
    rw [if_neg h1]
    by_cases h2 : o.typ = CKK_EC
    · rw [if_pos h2, decodeEcc]
      have : o.cls = CKO_PRIVATE_KEY := by
        simpa [Obj.isSecret, h2, CKK_EC, CKK_AES, CKK_GENERIC_SECRET] using hsec
      rw [if_pos this, hu]; rfl
    rw [if_neg h2]
    by_cases h3 : o.typ = CKK_DH
    · rw [if_pos h3, decodeDh]
      have : o.cls = CKO_PRIVATE_KEY := by
        simpa [Obj.isSecret, h3, CKK_DH, CKK_AES, CKK_GENERIC_SECRET] using hsec
      rw [if_pos this, hu]; rfl
    rw [if_neg h3]
    have h4 : o.typ = CKK_AES ∨ o.typ = CKK_GENERIC_SECRET := by
      unfold keyTypeOk at ht
      simp only [Bool.or_eq_true, beq_iff_eq] at ht
      rcases ht with ht | ht <;> simp_all
    rw [if_pos h4, decodeSymm, hu]; rfl
  unfold decodeObj
  rw [hk]; rfl

theorem decodeAll_get {key : Bytes} {os os' : List Obj} (h : decodeAll e.store key os = (.ok, os')) {i : Nat} {o : Obj}
    (ho : os[i]? = some o) : os'[i]? = some (decodeObj e.store key o).2 := by
  induction os generalizing os' i with
  | nil => cases ho
  | cons p os ih =>
    simp only [decodeAll] at h
    split at h
    · have h2 := (Prod.mk.inj h).2
      have h1 := (Prod.mk.inj h).1
      subst h2
      cases i with
      | zero => simp only [List.getElem?_cons_zero, Option.some.injEq] at ho ⊢; rw [ho]
      | succ i => exact ih (Prod.ext h1 rfl) ho
    · rename_i hne
      exact absurd (Prod.mk.inj h).1 hne

/-- C40, second half, as far as it holds. A login with which a private or secret key of the
token cannot be decrypted does not yield other key material: the object keeps what it
has, and is marked as still encrypted. -/
theorem c40_wrong_key {l : Lib} {h : Nat} {pin : Bytes} {now : Int}
    (hok : (answer e l (loginCall h .user pin now)).rv = .ok) {i : Nat} {o : Obj}
    (ho : (tokenObjs l)[i]? = some o) (hsec : o.isSecret = true) (hcls : o.cls ≠ CKO_CERTIFICATE)
    (ht : keyTypeOk o.typ = true) {d : Bytes} (hd : o.keyData = some d) (hl : 16 ≤ d.length)
    (hr : e.store.aeadDec (e.store.hash pin l.token.seed) o.iv d = none) :
    (tokenObjs (step e l (loginCall h .user pin now)).1)[i]? = some { o with encoded := true } := by
  cases hb : l.bad with
  | true => unfold answer at hok; rw [step_bad hb] at hok; cases hok
  | false =>
    have hok' : (callBody e l (loginCall h .user pin now)).2.rv = .ok := by
      unfold answer at hok; rw [step_resp hb] at hok; exact hok
    rw [step_eq hb (by rw [hok']; decide)]
    revert hok'
    unfold loginCall
    simp only [callBody]
    split
    · intro hx; cases hx
    cases hg : getSession l h with
    | none => intro hx; cases hx
    | some s =>
      simp only [sessCall, login, Who.type]
      split
      · intro hx; cases hx
      · unfold userLogin tokenObjs
        intro hx
        split at hx
        · cases hx
        · rename_i h1
          split at hx
          · cases hx
          · rename_i a ha
            split at hx
            · cases hx
            · cases hx
            · rename_i hcp
              rw [if_neg h1]
              simp only [ha, hcp]
              dsimp only at hx
              split at hx
              · rename_i hdec
                simp only [hdec]
                have := decodeAll_get (os' := (decodeAll e.store (e.store.hash pin l.token.seed) l.token.objs).2)
                  (Prod.ext hdec rfl) ho
                rw [this, decodeObj_refused hsec hcls ht hd hl hr]
              · cases hx
              · cases hx

/-! ## Changing the PIN -/

theorem keepable_view {x : StoreExt} {o p : Obj} (h : o.view = p.view) (hp : p.Keepable x) : o.Keepable x := by
  have h1 : o.cls = p.cls := by have := congrArg (fun q : Obj => q.cls) h; exact this
  have h2 : o.typ = p.typ := by have := congrArg (fun q : Obj => q.typ) h; exact this
  have h3 : o.data = p.data := by have := congrArg (fun q : Obj => q.data) h; exact this
  unfold Obj.Keepable Obj.IsKey Obj.keyBytes Obj.Asym at *
  rw [h1, h2, h3]
  exact hp

theorem map_view_keepable {x : StoreExt} {os ps : List Obj} (h : os.map Obj.view = ps.map Obj.view)
    (hp : ∀ p ∈ ps, p.Keepable x) : ∀ o ∈ os, o.Keepable x := by
  intro o ho
  have : o.view ∈ ps.map Obj.view := by rw [← h]; exact List.mem_map_of_mem ho
  obtain ⟨p, hp1, hp2⟩ := List.mem_map.mp this
  exact keepable_view hp2.symm (hp p hp1)

theorem map_view_shown {os ps : List Obj} (h : os.map Obj.view = ps.map Obj.view) :
    os.map Obj.shown = ps.map Obj.shown := by
  have : ∀ os : List Obj, os.map Obj.shown = (os.map Obj.view).map Obj.shown := by
    intro os; rw [List.map_map]; rfl
  rw [this os, this ps, h]

/-- C39 for a user who is logged in. After any history the user changes the PIN in a
read/write session, giving the old one, logs out and logs in with the new one.  All
three calls succeed (the first may report that the token could not be written), no object
stays encrypted, and every attribute of every object reads as before.
Missing: a change of the PIN by the security officer or before the login, and a process
that ends before the logout (`Demo.c39_violated_so`, `Demo.c39_violated_public`,
`Demo.c39_violated_finalize`). -/
theorem c39_partial (hx : StoreLaws e.store) (hh : HashLen e) {l₀ : Lib} (h₀ : Start l₀) (cs : List Call)
    (h : Nat) (old new : Bytes) (now : Int) :
    let l := run e l₀ cs
    let change := [.sess h (.setPin (some old) (some new)), .sess h .logout, loginCall h .user new now]
    stateOf e l h = some .rwUser → AllKeepable e l → Matches e l.token.user old →
    4 ≤ old.length → old.length ≤ 32 → 4 ≤ new.length → new.length ≤ 32 → ¬ Locked l.token.user now →
    (∃ rv, (rv = .ok ∨ rv = .functionFailed) ∧ replies e l change = [{ rv := rv }, { rv := .ok }, { rv := .ok }]) ∧
    (∀ o ∈ tokenObjs (run e l change), o.encoded = false) ∧
    ∀ h' k t, answer e (run e l change) (readCall h' k t) = answer e l (readCall h' k t) := by
  intro l change hst hk hm ho1 ho2 hn1 hn2 hlock
  have hi : SInv l := h₀.sinv.run e cs
  obtain ⟨s, hs, hb, hc, hlog⟩ := user_of_state hi (.inl hst)
  have hinit : l.token.init = true := (h₀.linv.run e cs) (by rw [hlog]; decide)
  have hss : sessState l s = .rwUser := by rw [stateOf_eq hi hb hs] at hst; exact Option.some.inj hst
  have hcp : checkPin e l.token l.token.user old = .ok := by
    rcases checkPin_cases e l.token l.token.user old with ⟨h, h'⟩ | ⟨h, _, _, h'⟩ | ⟨h, _⟩
    · rcases h' with h' | h'
      · rw [hinit] at h'; cases h'
      · exact absurd h' hm.1
    · exact absurd hm h'
    · exact h
  have hsc : sessCall e l s (.setPin (some old) (some new)) = pinSet (setUserPin e l new) := by
    simp only [sessCall, setPin, pinLenOk_iff.mpr ⟨ho1, ho2⟩, pinLenOk_iff.mpr ⟨hn1, hn2⟩, hss, hcp, Bool.not_true,
      Bool.false_eq_true, if_false]
  have hrv : (pinSet (setUserPin e l new)).2.rv = .ok ∨ (pinSet (setUserPin e l new)).2.rv = .functionFailed := by
    unfold pinSet; dsimp only; split
    · exact .inl rfl
    · exact .inr rfl
  have hstep : step e l (.sess h (.setPin (some old) (some new))) = pinSet (setUserPin e l new) := by
    rw [← hsc]
    refine step_sess hb hc hs ?_
    rw [hsc]
    rcases hrv with h | h <;> rw [h] <;> decide
  have hv : (setUserPin e l new).1.token.objs.map Obj.view = l.token.objs.map Obj.view := store_view e _
  have hk1 : AllKeepable e (setUserPin e l new).1 := map_view_keepable hv hk
  have hlen := hh new (e.store.rand l.rng 16)
  have hm1 : Matches e (setUserPin e l new).1.token.user new := by
    refine ⟨?_, ?_⟩
    · show e.store.hash new (e.store.rand l.rng 16) ≠ []
      intro h0; rw [h0] at hlen; cases hlen
    · exact List.take_length
  obtain ⟨r1, r2, r3⟩ := relogin hx (l := (setUserPin e l new).1) (h := h) (s := s) (pin := new) (now := now)
    hs hb hc hlog hinit (pinLenOk_iff.mpr ⟨hn1, hn2⟩) hm1 rfl hlock hk1
  have hrun : ∀ c, run e l (.sess h (.setPin (some old) (some new)) :: c) = run e (setUserPin e l new).1 c := by
    intro c; show run e (step e l _).1 c = _; rw [hstep]; rfl
  refine ⟨⟨(pinSet (setUserPin e l new)).2.rv, hrv, ?_⟩, ?_, ?_⟩
  · show answer e l _ :: replies e (step e l _).1 _ = _
    unfold answer
    rw [hstep]
    exact congrArg (List.cons _) r1
  · rw [hrun]; exact r2
  · intro h' k t
    rw [hrun, r3]
    exact read_shown (l := l) (l' := (setUserPin e l new).1) rfl rfl rfl (map_view_shown hv) h' k t

/-! ## Concrete cases -/

namespace Demo

/-- A template for an AES key whose value may be read. -/
def openTmpl (tok : Bool) (v : UInt8) : List Entry := aesTmpl tok v ++ [.of .extractable [1]]

/-- Read the value of a 16-byte key. -/
def readValue (k : Nat) : Call := readCall 65538 k [.of .value (List.replicate 16 0)]

/-- What `readValue` shows: the length and the bytes. -/
def shownValue (e : Env) (l : Lib) (k : Nat) : Option (List (Nat × Option Bytes)) :=
  (answer e l (readValue k)).tmpl.map fun t => t.map fun en => (en.len, en.mem)

/-- The user has made a token key. -/
def withKey : List Call := setup ++ [createCall 65538 (openTmpl true 7)]

/-- Handle of the first token object. -/
def tok1 : Nat := 2 ^ 28 + 1

set_option maxRecDepth 20000 in
theorem withKey_objs : ∀ o ∈ tokenObjs (run env fresh withKey), o.typ = CKK_AES ∧ o.cls = CKO_SECRET_KEY ∧
    o.data = .symm (List.replicate 16 7) := by decide

theorem withKey_keepable : AllKeepable env (run env fresh withKey) := by
  intro o ho
  obtain ⟨h1, h2, h3⟩ := withKey_objs o ho
  refine .inr ⟨⟨by rw [h2]; decide, .inr (.inr (.inr ⟨.inl h1, _, h3, by decide⟩))⟩, ?_⟩
  simp [Obj.keyBytes, h3]

theorem hash_inj {p q s : Bytes} (hp : p.length ≤ 30) (hq : q.length ≤ 32)
    (h : env.store.hash q s = env.store.hash p s) : q = p := by
  have h : (UInt8.ofNat q.length :: s.headD 0 :: (q ++ List.replicate 32 0)).take 32 =
      (UInt8.ofNat p.length :: s.headD 0 :: (p ++ List.replicate 32 0)).take 32 := h
  simp only [List.take_succ_cons, List.cons.injEq, true_and] at h
  obtain ⟨h1, h2⟩ := h
  have hl : q.length = p.length := by
    have := congrArg UInt8.toNat h1
    simp only [UInt8.toNat_ofNat'] at this
    omega
  have := congrArg (List.take p.length) h2
  rw [List.take_take, List.take_take, Nat.min_eq_left hp, List.take_left' rfl, ← hl, List.take_left' rfl] at this
  exact this

set_option maxRecDepth 20000 in
theorem withKey_onlyPin : OnlyPin env (run env fresh withKey) userPin := by
  refine ⟨by decide, by decide, by decide, fun q h1 h2 h3 => ?_⟩
  have hpin : (run env fresh withKey).token.user.pin =
      env.store.hash userPin (run env fresh withKey).token.user.seed := by decide
  obtain ⟨_, h3⟩ := h3
  rw [hpin, hashLen, List.take_of_length_le (by rw [hashLen]; decide)] at h3
  exact hash_inj (by decide) h2 h3

set_option maxRecDepth 20000 in
/-- The hypotheses of `c40_partial` and `c39_partial` are met by a token with a key. -/
example : stateOf env (run env fresh withKey) 65538 = some .rwUser ∧ (tokenObjs (run env fresh withKey)).length = 1 ∧
    Matches env (run env fresh withKey).token.user userPin ∧ ¬ Locked (run env fresh withKey).token.user 0 ∧
    shownValue env (run env fresh withKey) tok1 = some [(16, some (List.replicate 16 7))] := by decide

/-- A token key made by the security officer before the user has a PIN. -/
def early : List Call :=
  [.cInit, .slot 1 (.initToken (some soPin) (some label)), openCall true,
   .sess 65538 (.login .so (some soPin) 0), createCall 65538 (openTmpl true 7), .sess 65538 (.initPin (some userPin)),
   .sess 65538 .logout]

/-- Finalise and initialise the library and log in. -/
def restart (pin : Bytes) : List Call := [.cFinal, .cInit, openCall true, loginCall 65538 .user pin 0]

set_option maxRecDepth 20000 in
/-- The hypotheses of `c40_wrong_key` are met: the key was made before the user had a PIN, so
it is encrypted under the initial storage key. -/
example :
    let l := run env fresh early
    (answer env l (loginCall 65538 .user userPin 0)).rv = .ok ∧
    ∃ o ∈ tokenObjs l, (tokenObjs l)[0]? = some o ∧ o.isSecret = true ∧ o.cls ≠ CKO_CERTIFICATE ∧
      keyTypeOk o.typ = true ∧ o.keyData.any (fun d => 16 ≤ d.length ∧
        env.store.aeadDec (env.store.hash userPin l.token.seed) o.iv d = none) = true := by decide

set_option maxRecDepth 20000 in
/-- C40 is violated: a login with which a stored key cannot be decrypted succeeds. The
security officer makes a token key and sets the user's PIN; after a restart the user
logs in with it, the answer is `CKR_OK`, and the key reads as empty; before it read as
16 bytes. -/
theorem c40_violated_wrong_key :
    shownValue env (run env fresh early) tok1 = some [(16, some (List.replicate 16 7))] ∧
    rvs env fresh (early ++ restart userPin) = List.replicate 11 .ok ∧
    shownValue env (run env fresh (early ++ restart userPin)) tok1 = some [(0, some (List.replicate 16 0))] := by
  decide

set_option maxRecDepth 20000 in
/-- The key of `c40_violated_wrong_key` is not only unreadable: the next logout encrypts the
empty key over it, and after that no storage key gives it back. -/
theorem c40_violated_overwritten :
    let l := run env fresh (early ++ restart userPin ++ [.sess 65538 .logout])
    (tokenObjs l).map (fun o => o.keyData.bind (env.store.aeadDec l.token.key o.iv)) = [some []] := by
  decide

/-- The user changes the PIN. -/
def newPin : Bytes := [9, 9, 9, 9]

set_option maxRecDepth 20000 in
/-- C39 is violated by `C_InitPIN`: the user's key is gone after the security officer sets a
new PIN, although every call succeeds. -/
theorem c39_violated_so :
    shownValue env (run env fresh withKey) tok1 = some [(16, some (List.replicate 16 7))] ∧
    let cs := withKey ++ [.sess 65538 .logout, loginCall 65538 .so soPin 0, .sess 65538 (.initPin (some newPin)),
      .sess 65538 .logout, loginCall 65538 .user newPin 0]
    rvs env fresh cs = List.replicate 13 .ok ∧
    shownValue env (run env fresh cs) tok1 = some [(16, some (List.replicate 16 0))] := by decide

set_option maxRecDepth 20000 in
/-- C39 is violated by `C_SetPIN` in a session in which nobody is logged in. -/
theorem c39_violated_public :
    let cs := withKey ++ [.sess 65538 .logout, .sess 65538 (.setPin (some userPin) (some newPin)),
      loginCall 65538 .user newPin 0]
    rvs env fresh cs = List.replicate 11 .ok ∧
    shownValue env (run env fresh cs) tok1 = some [(16, some (List.replicate 16 0))] := by decide

set_option maxRecDepth 20000 in
/-- C39 is violated if the library is finalised before the user logs out: the new PIN is
stored, the keys are still encrypted under the old one. -/
theorem c39_violated_finalize :
    let cs := withKey ++ [.sess 65538 (.setPin (some userPin) (some newPin))] ++ restart newPin
    rvs env fresh cs = List.replicate 13 .ok ∧
    shownValue env (run env fresh cs) tok1 = some [(0, some (List.replicate 16 0))] := by decide

end Demo

end Verif
