import Verif.Props.SessClose
import Verif.Proofs.PinStep
import Verif.Spec.Access

/-!
# One call of the library is one step of the small machine
-/

namespace Verif

variable {e : Env} {l l' : Lib}

theorem checkPin_ok_iff {a : Account} {t : Token} {pin : Bytes} :
    checkPin e t a pin = .ok ↔ t.init = true ∧ Matches e a pin := by
  unfold checkPin Matches
  split
  · rename_i h
    constructor
    · intro x; cases x
    · rintro ⟨h1, h2, _⟩
      rcases h with h | h
      · rw [h1] at h; cases h
      · exact absurd h h2
  · rename_i h
    have h1 : t.init = true := by
      cases hi : t.init with
      | true => rfl
      | false => exact absurd (.inl hi) h
    have h2 : a.pin ≠ [] := fun h' => h (.inr h')
    split
    · rename_i h3; simp [h1, h2, h3]
    · rename_i h3; simp [h3]

theorem checkPin_notSet {a : Account} {t : Token} {pin : Bytes} :
    checkPin e t a pin = .notSet ↔ t.init = false ∨ a.pin = [] := by
  unfold checkPin
  split
  · rename_i h; simp [h]
  · rename_i h
    simp only [h, iff_false]
    split <;> simp

theorem ref_set {a : Account} : (a.ref e).set = false ↔ a.pin = [] := by
  simp [Account.ref]

theorem ref_samePin {a b : Account} (h : SamePin a b) : (b.ref e).set = (a.ref e).set ∧ (b.ref e).accepts = (a.ref e).accepts := by
  obtain ⟨h1, h2⟩ := h
  refine ⟨by simp only [Account.ref, h1], ?_⟩
  funext p
  show Matches e b p = Matches e a p
  unfold Matches
  rw [h1, h2]

theorem ref_unlocked (a : Account) : (unlocked a).ref e = Ref.unlocked (a.ref e) := by
  unfold unlocked Ref.unlocked
  show _ = if a.fails = 3 then _ else _
  split <;> rfl

theorem ref_failed (a : Account) (now add : Int) : (failed a now add).ref e = Ref.wrong (a.ref e) now add := by
  unfold failed Ref.wrong
  show _ = if a.fails + 1 = 3 then _ else _
  show (if a.fails + 1 = 3 then _ else _ : Account).ref e = _
  split
  · rename_i h
    simp only [Account.ref, h]
    rfl
  · rfl

theorem ref_succeeded (a : Account) : (succeeded a).ref e = Ref.right (a.ref e) := rfl

theorem ref_right_unlocked (a : Account) : (succeeded (unlocked a)).ref e = Ref.right (a.ref e) := by
  unfold unlocked
  split <;> rfl

theorem ref_withPin (hh : HashLen e) (a : Account) (pin seed : Bytes) :
    Ref.NewPin (SameHash e) pin (a.ref e) ((a.withPin e pin seed).ref e) := by
  have hl := hh pin seed
  have hne : e.store.hash pin seed ≠ [] := by intro h; rw [h] at hl; cases hl
  refine ⟨?_, ⟨hne, ?_⟩, ?_, rfl, rfl, rfl⟩
  · show (!(e.store.hash pin seed).isEmpty) = true
    cases hp : e.store.hash pin seed with
    | nil => exact absurd hp hne
    | cons _ _ => rfl
  · show (e.store.hash pin seed).take (e.store.hash pin seed).length = _
    exact List.take_length
  · rintro p ⟨_, h2⟩
    refine ⟨seed, ?_⟩
    have h2 : (e.store.hash p seed).take (e.store.hash pin seed).length = e.store.hash pin seed := h2
    rw [hl, ← hh p seed, List.take_length] at h2
    exact h2

theorem ref_modes_some {h : Nat} {s : Session} (hs : getSession l h = some s) :
    (l.ref e).modes h = some (s.use == .rw) := by
  simp only [Lib.ref, hs, Option.map_some]

theorem ref_modes_none {h : Nat} : (l.ref e).modes h = none ↔ getSession l h = none := by
  simp [Lib.ref]

theorem ref_modes_ro {h : Nat} (hi : SInv l) : (l.ref e).modes h = some false ↔ ∃ s ∈ l.sessions, s.handle = h ∧ s.use = .ro := by
  simp only [Lib.ref, Option.map_eq_some_iff]
  constructor
  · rintro ⟨s, hs, hu⟩
    obtain ⟨h1, h2, h3⟩ := (getSession_iff hi).mp hs
    refine ⟨s, h1, h2, ?_⟩
    cases hv : s.use <;> simp_all
  · rintro ⟨s, h1, h2, h3⟩
    exact ⟨s, (getSession_iff hi).mpr ⟨h1, h2, by rw [h3]; simp⟩, by rw [h3]; rfl⟩

theorem ref_open (hi : SInv l) (hb : l.bad = false) {h : Nat} : (l.ref e).modes h ≠ none ↔ IsOpen e l h := by
  rw [isOpen_iff hi, ne_eq, ref_modes_none]
  cases hg : getSession l h <;> simp [hb]

theorem ref_any (hi : SInv l) : (∃ h, (l.ref e).modes h ≠ none) ↔ anyInUse l.sessions = true := by
  rw [anyInUse_iff]
  constructor
  · rintro ⟨h, hm⟩
    cases hg : getSession l h with
    | none => exact absurd (ref_modes_none.mpr hg) hm
    | some s =>
      obtain ⟨h1, _, h3⟩ := (getSession_iff hi).mp hg
      exact ⟨s, h1, h3⟩
  · rintro ⟨s, h1, h3⟩
    refine ⟨s.handle, fun hm => ?_⟩
    rw [ref_modes_none, (getSession_iff hi).mpr ⟨h1, rfl, h3⟩] at hm
    cases hm

theorem Frame.modes {h : Nat} (hf : Frame h l l') {s : Session} (hs : getSession l h = some s) :
    (l'.ref e).modes = (l.ref e).modes := by
  funext k
  by_cases hk : k = h
  · subst hk
    obtain ⟨s', h1, h2⟩ := hf.getSession_eq hs
    rw [ref_modes_some h1, ref_modes_some hs, h2]
  · simp only [Lib.ref, hf.getSession_ne hk]

theorem ref_eq (h1 : l'.count = l.count) (h2 : (l'.ref e).modes = (l.ref e).modes) (h3 : l'.token.login = l.token.login)
    (h4 : l'.token.init = l.token.init) (h5 : l'.token.so = l.token.so) (h6 : l'.token.user = l.token.user) :
    l'.ref e = l.ref e := by
  unfold Lib.ref at *
  rw [h1, h3, h4, h5, h6]
  exact congrArg (fun m => (Ref.mk l.count m l.token.login l.token.init (l.token.so.ref e) (l.token.user.ref e))) h2

/-- The calls without effect on sessions, logins and PINs. -/
theorem ref_sessCall {h : Nat} {s : Session} (hs : getSession l h = some s) {c : SessCall} (hc : c.isAccount = false) :
    (sessCall e l s c).1.ref e = l.ref e := by
  have hcl : c ≠ .close := by rintro rfl; cases hc
  obtain ⟨hh, _, _⟩ := getSession_handle hs
  have hf := frame_sessCall e l s c hcl
  rw [hh] at hf
  have ht := tframe_sessCall e l s c hc
  exact ref_eq hf.count (hf.modes hs) ht.login ht.init ht.so ht.user

theorem ref_acct (w : Who) : (l.ref e).acct w = (w.acct l.token).ref e := by cases w <;> rfl

theorem length_iff {pin : Bytes} : pinLenOk pin = true ↔ Ref.Length pin := pinLenOk_iff

/-- `C_Login` for the security officer. -/
theorem ref_soLogin (hi : SInv l) (pin : Bytes) (now : Int) :
    Ref.Login (l.ref e) .so pin now (soLogin e l pin now).2 ((soLogin e l pin now).1.ref e) := by
  unfold Ref.Login soLogin
  by_cases h1 : l.token.login ≠ .pub
  · rw [if_pos h1, if_pos (show (l.ref e).who ≠ .pub from h1)]
    exact ⟨rfl, rfl⟩
  rw [if_neg h1, if_neg (show ¬ (l.ref e).who ≠ .pub from h1)]
  by_cases h2 : Locked l.token.so now
  · rw [lockCheck_none.mpr h2, if_pos (show Ref.Locked ((l.ref e).acct .so) now from h2)]
    exact ⟨rfl, rfl⟩
  rw [lockCheck_some h2, if_neg (show ¬ Ref.Locked ((l.ref e).acct .so) now from h2)]
  dsimp only
  have hro : (∃ h, (l.ref e).modes h = some false) ↔ (l.sessions.any fun s => s.use == .ro) = true := by
    simp only [ref_modes_ro hi, List.any_eq_true, beq_iff_eq]
    constructor
    · rintro ⟨_, s, h1, _, h3⟩; exact ⟨s, h1, h3⟩
    · rintro ⟨s, h1, h3⟩; exact ⟨_, s, h1, rfl, h3⟩
  have hput : ({ l with token := { l.token with so := unlocked l.token.so } } : Lib).ref e =
      (l.ref e).put .so (Ref.unlocked ((l.ref e).acct .so)) := by
    show _ = { l.ref e with so := Ref.unlocked (l.token.so.ref e) }
    rw [← ref_unlocked]; rfl
  by_cases h3 : (l.sessions.any fun s => s.use == .ro) = true
  · rw [if_pos h3, if_pos ⟨rfl, hro.mpr h3⟩]
    exact ⟨rfl, hput⟩
  rw [if_neg h3, if_neg (fun h => h3 (hro.mp h.2))]
  have hup : (unlocked l.token.so).pin = l.token.so.pin := (samePin_unlocked _).1
  generalize h4 : checkPin e _ (unlocked l.token.so) pin = k
  replace h4 : checkPin e l.token (unlocked l.token.so) pin = k := h4
  cases k with
  | notSet =>
    have h5 := checkPin_notSet.mp h4
    rw [hup] at h5
    rw [if_pos]
    · exact ⟨rfl, hput⟩
    · exact h5.imp_right ref_set.mpr
  | invalid =>
    have h5 : ¬ (l.token.init = false ∨ l.token.so.pin = []) := by
      intro h; rw [← hup] at h
      rw [checkPin_notSet.mpr h] at h4; cases h4
    have h6 : ¬ ((l.ref e).acct .so).accepts pin := by
      intro h
      have h7 : Matches e (unlocked l.token.so) pin := by
        have := (ref_samePin (e := e) (samePin_unlocked l.token.so)).2
        exact (congrFun this pin).mpr h
      have : l.token.init = true := by
        cases hx : l.token.init with
        | true => rfl
        | false => exact absurd (.inl hx) h5
      rw [checkPin_ok_iff.mpr ⟨this, h7⟩] at h4
      cases h4
    rw [if_neg (fun h => h5 (h.imp_right ref_set.mp)), if_pos h6]
    refine ⟨rfl, ?_⟩
    show _ = { l.ref e with so := Ref.wrong (Ref.unlocked (l.token.so.ref e)) now 600 }
    rw [← ref_unlocked, ← ref_failed]; rfl
  | ok =>
    obtain ⟨h5, h6⟩ := checkPin_ok_iff.mp h4
    have h7 : ((l.ref e).acct .so).accepts pin := by
      have := (ref_samePin (e := e) (samePin_unlocked l.token.so)).2
      exact (congrFun this pin).mp h6
    have h8 : ¬ ((l.ref e).ready = false ∨ ((l.ref e).acct .so).set = false) := by
      rintro (h | h)
      · have h : l.token.init = false := h
        rw [show l.token.init = true from h5] at h; cases h
      · exact h7.1 (ref_set.mp h)
    rw [if_neg h8, if_neg (fun h => h h7)]
    refine .inl ⟨rfl, ?_⟩
    show _ = { l.ref e with so := Ref.right (l.token.so.ref e), who := .so }
    rw [← ref_right_unlocked]; rfl

/-- `C_Login` for the user. -/
theorem ref_userLogin (pin : Bytes) (now : Int) (hu : (userLogin e l pin now).2 ≠ .ub) :
    Ref.Login (l.ref e) .user pin now (userLogin e l pin now).2 ((userLogin e l pin now).1.ref e) := by
  unfold userLogin at hu
  unfold Ref.Login userLogin
  by_cases h1 : l.token.login ≠ .pub
  · rw [if_pos h1, if_pos (show (l.ref e).who ≠ .pub from h1)]
    exact ⟨rfl, rfl⟩
  rw [if_neg h1] at hu
  rw [if_neg h1, if_neg (show ¬ (l.ref e).who ≠ .pub from h1)]
  by_cases h2 : Locked l.token.user now
  · rw [lockCheck_none.mpr h2, if_pos (show Ref.Locked ((l.ref e).acct .user) now from h2)]
    exact ⟨rfl, rfl⟩
  rw [lockCheck_some h2] at hu
  rw [lockCheck_some h2, if_neg (show ¬ Ref.Locked ((l.ref e).acct .user) now from h2),
    if_neg (fun h => Who.noConfusion h.1)]
  dsimp only at hu ⊢
  have hput : ({ l with token := { l.token with user := unlocked l.token.user } } : Lib).ref e =
      (l.ref e).put .user (Ref.unlocked ((l.ref e).acct .user)) := by
    show _ = { l.ref e with user := Ref.unlocked (l.token.user.ref e) }
    rw [← ref_unlocked]; rfl
  have hup : (unlocked l.token.user).pin = l.token.user.pin := (samePin_unlocked _).1
  cases h4 : checkPin e l.token (unlocked l.token.user) pin with
  | notSet =>
    have h5 := checkPin_notSet.mp h4
    rw [hup] at h5
    rw [if_pos]
    · exact ⟨rfl, hput⟩
    · exact h5.imp_right ref_set.mpr
  | invalid =>
    have h5 : ¬ (l.token.init = false ∨ l.token.user.pin = []) := by
      intro h; rw [← hup] at h
      rw [checkPin_notSet.mpr h] at h4; cases h4
    have h6 : ¬ ((l.ref e).acct .user).accepts pin := by
      intro h
      have h7 : Matches e (unlocked l.token.user) pin := by
        have := (ref_samePin (e := e) (samePin_unlocked l.token.user)).2
        exact (congrFun this pin).mpr h
      have : l.token.init = true := by
        cases hx : l.token.init with
        | true => rfl
        | false => exact absurd (.inl hx) h5
      rw [checkPin_ok_iff.mpr ⟨this, h7⟩] at h4
      cases h4
    rw [if_neg (fun h => h5 (h.imp_right ref_set.mp)), if_pos h6]
    refine ⟨rfl, ?_⟩
    show _ = { l.ref e with user := Ref.wrong (Ref.unlocked (l.token.user.ref e)) now 60 }
    rw [← ref_unlocked, ← ref_failed]; rfl
  | ok =>
    obtain ⟨h5, h6⟩ := checkPin_ok_iff.mp h4
    have h7 : ((l.ref e).acct .user).accepts pin := by
      have := (ref_samePin (e := e) (samePin_unlocked l.token.user)).2
      exact (congrFun this pin).mp h6
    have h8 : ¬ ((l.ref e).ready = false ∨ ((l.ref e).acct .user).set = false) := by
      rintro (h | h)
      · have h : l.token.init = false := h
        rw [h5] at h; cases h
      · exact h7.1 (ref_set.mp h)
    rw [h4] at hu
    rw [if_neg h8, if_neg (fun h => h h7)]
    dsimp only at hu ⊢
    cases h9 : (decodeAll e.store (e.store.hash pin l.token.seed) l.token.objs).1 with
    | ok =>
      refine .inl ⟨rfl, ?_⟩
      show _ = { l.ref e with user := Ref.right (l.token.user.ref e), who := .user }
      rw [← ref_right_unlocked]; rfl
    | ub => rw [h9] at hu; exact absurd rfl hu
    | _ =>
      refine .inr ⟨rfl, rfl, ?_⟩
      show _ = { l.ref e with user := Ref.right (l.token.user.ref e) }
      rw [← ref_right_unlocked]; rfl

theorem ref_setSoPin (hh : HashLen e) (pin : Bytes) :
    ∃ a, Ref.NewPin (SameHash e) pin (l.token.so.ref e) a ∧ (pinSet (setSoPin e l pin)).1.ref e = { l.ref e with so := a } :=
  ⟨_, ref_withPin hh l.token.so pin (e.store.rand l.rng 16), rfl⟩

theorem ref_setUserPin (hh : HashLen e) (pin : Bytes) :
    ∃ a, Ref.NewPin (SameHash e) pin (l.token.user.ref e) a ∧
      (pinSet (setUserPin e l pin)).1.ref e = { l.ref e with user := a } :=
  ⟨_, ref_withPin hh l.token.user pin (e.store.rand l.rng 16), rfl⟩

/-- `C_SetPIN` for one account. -/
theorem ref_change (w : Who) (old new : Bytes) (r : Lib × Resp)
    (hr : checkPin e l.token (w.acct l.token) old = .notSet → r = (l, { rv := .userPinNotInitialized }))
    (hr' : checkPin e l.token (w.acct l.token) old = .invalid → r = (l, { rv := .pinIncorrect }))
    (hok : checkPin e l.token (w.acct l.token) old = .ok → (r.2.rv = .ok ∨ r.2.rv = .functionFailed) ∧
      ∃ a, Ref.NewPin (SameHash e) new ((w.acct l.token).ref e) a ∧ r.1.ref e = (l.ref e).put w a) :
    Ref.Change (SameHash e) (l.ref e) w old new r.2.rv (r.1.ref e) := by
  unfold Ref.Change
  cases h4 : checkPin e l.token (w.acct l.token) old with
  | notSet =>
    have h5 := checkPin_notSet.mp h4
    rw [hr h4, if_pos]
    · exact ⟨rfl, rfl⟩
    · rw [ref_acct]; exact h5.imp_right ref_set.mpr
  | invalid =>
    have h5 : ¬ (l.token.init = false ∨ (w.acct l.token).pin = []) := by
      intro h; rw [checkPin_notSet.mpr h] at h4; cases h4
    rw [hr' h4, ref_acct, if_neg (fun h => h5 (h.imp_right ref_set.mp)), if_pos]
    · exact ⟨rfl, rfl⟩
    · intro h
      have : l.token.init = true := by
        cases hx : l.token.init with
        | true => rfl
        | false => exact absurd (.inl hx) h5
      rw [checkPin_ok_iff.mpr ⟨this, h⟩] at h4
      cases h4
  | ok =>
    obtain ⟨h5, h6⟩ := checkPin_ok_iff.mp h4
    rw [ref_acct, if_neg, if_neg (fun h => h h6)]
    · exact hok h4
    · rintro (h | h)
      · have h : l.token.init = false := h
        rw [h5] at h; cases h
      · exact h6.1 (ref_set.mp h)

theorem ref_setPin (hh : HashLen e) {s : Session} (h : Nat) (old new : Option Bytes) :
    Ref.SessStep (SameHash e) (l.ref e) h (s.use == .rw) (.setPin old new) (setPin e l s old new).2
      ((setPin e l s old new).1.ref e) := by
  dsimp only [Ref.SessStep]
  cases old with
  | none => exact ⟨rfl, rfl⟩
  | some old =>
  cases new with
  | none => exact ⟨rfl, rfl⟩
  | some new =>
  dsimp only [setPin]
  by_cases h1 : pinLenOk old = true
  · by_cases h2 : pinLenOk new = true
    · rw [if_neg (show ¬ (!pinLenOk old) = true by simp [h1]), if_neg (show ¬ (!pinLenOk new) = true by simp [h2]),
        if_neg (show ¬ (¬ Ref.Length old ∨ ¬ Ref.Length new) by
          rintro (h | h)
          · exact h (length_iff.mp h1)
          · exact h (length_iff.mp h2))]
      cases hw : l.token.login with
      | so =>
        have hst : sessState l s = .rwSo := by unfold sessState; rw [hw]
        rw [hst, if_pos (show (l.ref e).who = .so from hw)]
        dsimp only
        refine ref_change .so old new _ ?_ ?_ ?_
        · intro h; rw [show checkPin e l.token l.token.so old = .notSet from h]
        · intro h; rw [show checkPin e l.token l.token.so old = .invalid from h]
        · intro hok
          rw [show checkPin e l.token l.token.so old = .ok from hok]
          exact ⟨pinSet_rv _, ref_setSoPin hh new⟩
      | user =>
        rw [if_neg (show ¬ (l.ref e).who = .so by rw [show (l.ref e).who = .user from hw]; exact Login.noConfusion)]
        by_cases hu : s.use = .rw
        · have hst : sessState l s = .rwUser := by unfold sessState; rw [hw]; exact if_pos hu
          rw [hst, if_pos (show (s.use == .rw) = true by simp [hu])]
          dsimp only
          refine ref_change .user old new _ ?_ ?_ ?_
          · intro h; rw [show checkPin e l.token l.token.user old = .notSet from h]
          · intro h; rw [show checkPin e l.token l.token.user old = .invalid from h]
          · intro hok
            rw [show checkPin e l.token l.token.user old = .ok from hok]
            exact ⟨pinSet_rv _, ref_setUserPin hh new⟩
        · have hst : sessState l s = .roUser := by unfold sessState; rw [hw]; exact if_neg hu
          rw [hst, if_neg (show ¬ (s.use == .rw) = true by simp [hu])]
          exact ⟨rfl, rfl⟩
      | pub =>
        rw [if_neg (show ¬ (l.ref e).who = .so by rw [show (l.ref e).who = .pub from hw]; exact Login.noConfusion)]
        by_cases hu : s.use = .rw
        · have hst : sessState l s = .rwPublic := by unfold sessState; rw [hw]; exact if_pos hu
          rw [hst, if_pos (show (s.use == .rw) = true by simp [hu])]
          dsimp only
          refine ref_change .user old new _ ?_ ?_ ?_
          · intro h; rw [show checkPin e l.token l.token.user old = .notSet from h]
          · intro h; rw [show checkPin e l.token l.token.user old = .invalid from h]
          · intro hok
            rw [show checkPin e l.token l.token.user old = .ok from hok]
            exact ⟨pinSet_rv _, ref_setUserPin hh new⟩
        · have hst : sessState l s = .roPublic := by unfold sessState; rw [hw]; exact if_neg hu
          rw [hst, if_neg (show ¬ (s.use == .rw) = true by simp [hu])]
          exact ⟨rfl, rfl⟩
    · rw [if_neg (show ¬ (!pinLenOk old) = true by simp [h1]), if_pos (show (!pinLenOk new) = true by simp [h2]),
        if_pos (show ¬ Ref.Length old ∨ ¬ Ref.Length new from .inr fun h => h2 (length_iff.mpr h))]
      exact ⟨rfl, rfl⟩
  · rw [if_pos (show (!pinLenOk old) = true by simp [h1]),
      if_pos (show ¬ Ref.Length old ∨ ¬ Ref.Length new from .inl fun h => h1 (length_iff.mpr h))]
    exact ⟨rfl, rfl⟩

theorem ref_initPin (hh : HashLen e) {s : Session} (h : Nat) (pin : Option Bytes) :
    Ref.SessStep (SameHash e) (l.ref e) h (s.use == .rw) (.initPin pin) (initPin e l s pin).2
      ((initPin e l s pin).1.ref e) := by
  dsimp only [Ref.SessStep]
  cases pin with
  | none => exact ⟨rfl, rfl⟩
  | some pin =>
  dsimp only [initPin]
  have hst : sessState l s = .rwSo ↔ (l.ref e).who = .so := by
    show _ ↔ l.token.login = .so
    unfold sessState
    cases l.token.login
    · dsimp only; split <;> simp
    · dsimp only; split <;> simp
    · simp
  by_cases h1 : sessState l s = .rwSo
  · rw [if_neg (show ¬ sessState l s ≠ .rwSo from fun h => h h1),
      if_neg (show ¬ (l.ref e).who ≠ .so from fun h => h (hst.mp h1))]
    by_cases h2 : pinLenOk pin = true
    · rw [if_neg (show ¬ (!pinLenOk pin) = true by simp [h2]), if_neg (show ¬ ¬ Ref.Length pin from fun h => h (length_iff.mp h2))]
      exact ⟨pinSet_rv _, ref_setUserPin hh pin⟩
    · rw [if_pos (show (!pinLenOk pin) = true by simp [h2]), if_pos (show ¬ Ref.Length pin from fun h => h2 (length_iff.mpr h))]
      exact ⟨rfl, rfl⟩
  · rw [if_pos (show sessState l s ≠ .rwSo from h1), if_pos (show (l.ref e).who ≠ .so from fun h => h1 (hst.mpr h))]
    exact ⟨rfl, rfl⟩

theorem ref_initToken (hh : HashLen e) (hi : SInv l) (pin label : Option Bytes) :
    Ref.SlotStep (SameHash e) (l.ref e) (.initToken pin label) (initToken e l pin label).2
      ((initToken e l pin label).1.ref e) := by
  have hs := initToken_spec e l pin label
  dsimp only [Ref.SlotStep]
  cases pin with
  | none => exact ⟨rfl, rfl⟩
  | some pin =>
  cases label with
  | none => exact ⟨rfl, rfl⟩
  | some label =>
  dsimp only [initToken] at hs ⊢
  by_cases h1 : pinLenOk pin = true
  · rw [if_neg (show ¬ (!pinLenOk pin) = true by simp [h1])] at hs ⊢
    rw [if_neg (show ¬ ¬ Ref.Length pin from fun h => h (length_iff.mp h1))]
    by_cases h2 : l.token.init = true ∧ anyInUse l.sessions = true
    · rw [if_pos (show (l.token.init && anyInUse l.sessions) = true by simp [h2.1, h2.2]),
        if_pos (show (l.ref e).ready = true ∧ ∃ h, (l.ref e).modes h ≠ none from ⟨h2.1, (ref_any hi).mpr h2.2⟩)]
      exact ⟨rfl, rfl⟩
    · have h2' : ¬ (l.token.init && anyInUse l.sessions) = true := by simpa using h2
      rw [if_neg h2'] at hs ⊢
      rw [if_neg (show ¬ ((l.ref e).ready = true ∧ ∃ h, (l.ref e).modes h ≠ none) from
        fun h => h2 ⟨h.1, (ref_any hi).mp h.2⟩)]
      by_cases h3 : l.token.init = true ∧ ¬ checkPin e l.token l.token.so pin = .ok
      · rw [if_pos (show (l.token.init && checkPin e l.token l.token.so pin != .ok) = true by simp [h3.1, h3.2]),
          if_pos (show (l.ref e).ready = true ∧ ¬ (l.ref e).so.accepts pin from
            ⟨h3.1, fun h => h3.2 (checkPin_ok_iff.mpr ⟨h3.1, h⟩)⟩)]
        exact ⟨rfl, rfl⟩
      · have h3' : ¬ (l.token.init && checkPin e l.token l.token.so pin != .ok) = true := by simpa using h3
        rw [if_neg h3'] at hs ⊢
        rw [if_neg (show ¬ ((l.ref e).ready = true ∧ ¬ (l.ref e).so.accepts pin) from
          fun h => h3 ⟨h.1, fun h' => h.2 (checkPin_ok_iff.mp h').2⟩)]
        · refine ⟨?_, _, ref_withPin hh ({} : Account) pin (e.store.rand l.rng 16), ?_⟩
          · rcases hs with ⟨_, h4, h5⟩ | ⟨_, _, _, _, _, _, h4, _⟩
            · rcases pinSet_rv (setSoPin e { l with token := { label := labelOf label, init := true } } pin) with h | h
              · exact absurd h h4
              · exact absurd h h5
            · rw [h4]
          · show (Ref.mk _ _ _ _ _ _) = Ref.mk _ _ _ _ _ _
            congr 1
            show ({} : Account).ref e = RefAcct.unset
            unfold Account.ref RefAcct.unset
            congr 1
            funext p
            exact propext ⟨fun h => h.1 rfl, False.elim⟩
  · rw [if_pos (show (!pinLenOk pin) = true by simp [h1]), if_pos (show ¬ Ref.Length pin from fun h => h1 (length_iff.mpr h))]
    exact ⟨rfl, rfl⟩

end Verif
