import Verif.Proofs.Run

/-!
# What the calls do to the accounts of the token
-/

namespace Verif

/-- Everything of the token but the objects and the storage key. -/
structure SameAcct (t t' : Token) : Prop where
  so : t'.so = t.so
  user : t'.user = t.user
  init : t'.init = t.init
  seed : t'.seed = t.seed
  label : t'.label = t.label

theorem SameAcct.refl (t : Token) : SameAcct t t := ⟨rfl, rfl, rfl, rfl, rfl⟩

/-- An account after setting a PIN. -/
def Account.withPin (e : Env) (a : Account) (pin seed : Bytes) : Account :=
  { a with pin := e.store.hash pin seed, seed }

theorem setSoPin_eq (e : Env) (l : Lib) (pin : Bytes) :
    (setSoPin e l pin).1.token.so = l.token.so.withPin e pin (e.store.rand l.rng 16) ∧
    (setSoPin e l pin).1.token.user = l.token.user ∧
    (setSoPin e l pin).1.token.init = l.token.init ∧
    (setSoPin e l pin).1.token.login = l.token.login ∧
    (setSoPin e l pin).1.token.seed = l.token.seed ∧
    (setSoPin e l pin).1.token.label = l.token.label := ⟨rfl, rfl, rfl, rfl, rfl, rfl⟩

theorem setUserPin_eq (e : Env) (l : Lib) (pin : Bytes) :
    (setUserPin e l pin).1.token.user = l.token.user.withPin e pin (e.store.rand l.rng 16) ∧
    (setUserPin e l pin).1.token.so = l.token.so ∧
    (setUserPin e l pin).1.token.init = l.token.init ∧
    (setUserPin e l pin).1.token.login = l.token.login ∧
    (setUserPin e l pin).1.token.seed = e.store.rand (l.rng + 1) 16 ∧
    (setUserPin e l pin).1.token.label = l.token.label := ⟨rfl, rfl, rfl, rfl, rfl, rfl⟩

theorem pinSet_rv (r : Lib × Bool) :
    (pinSet r).2.rv = .ok ∨ (pinSet r).2.rv = .functionFailed := by
  unfold pinSet
  cases r.2 <;> simp

/-- `C_InitToken`: refused and nothing changed, or the token is new. -/
theorem initToken_spec (e : Env) (l : Lib) (pin label : Option Bytes) :
    let r := initToken e l pin label
    (r.1 = l ∧ r.2.rv ≠ .ok ∧ r.2.rv ≠ .functionFailed) ∨
    (∃ p lab, pin = some p ∧ label = some lab ∧ pinLenOk p = true ∧
      (l.token.init = true → anyInUse l.sessions = false ∧ checkPin e l.token l.token.so p = .ok) ∧
      r.2 = { rv := .ok } ∧
      r.1.token = { label := labelOf lab, init := true,
                    so := ({} : Account).withPin e p (e.store.rand l.rng 16) }) := by
  simp only [initToken]
  split
  · rename_i p lab
    split
    · exact .inl ⟨rfl, by simp, by simp⟩
    rename_i h1
    split
    · exact .inl ⟨rfl, by simp, by simp⟩
    rename_i h2
    split
    · exact .inl ⟨rfl, by simp, by simp⟩
    rename_i h3
    refine .inr ⟨p, lab, rfl, rfl, by simpa using h1, ?_, rfl, rfl⟩
    intro hi
    simp only [hi, Bool.true_and, Bool.not_eq_true] at h2 h3
    exact ⟨h2, by simpa using h3⟩
  · exact .inl ⟨rfl, by simp, by simp⟩

/-- `C_InitPIN`. -/
theorem initPin_spec (e : Env) (l : Lib) (s : Session) (pin : Option Bytes) :
    let r := initPin e l s pin
    (r.1 = l ∧ r.2.rv ≠ .ok ∧ r.2.rv ≠ .functionFailed) ∨
    (∃ p, pin = some p ∧ pinLenOk p = true ∧ sessState l s = .rwSo ∧
      r = pinSet (setUserPin e l p)) := by
  simp only [initPin]
  split
  · exact .inl ⟨rfl, by simp, by simp⟩
  · rename_i p
    split
    · exact .inl ⟨rfl, by simp, by simp⟩
    rename_i h1
    split
    · exact .inl ⟨rfl, by simp, by simp⟩
    rename_i h2
    exact .inr ⟨p, rfl, by simpa using h2, by simpa using h1, rfl⟩

/-- `C_SetPIN`. -/
theorem setPin_spec (e : Env) (l : Lib) (s : Session) (old new : Option Bytes) :
    let r := setPin e l s old new
    (r.1 = l ∧ r.2.rv ≠ .ok ∧ r.2.rv ≠ .functionFailed) ∨
    (∃ o n, old = some o ∧ new = some n ∧ pinLenOk o = true ∧ pinLenOk n = true ∧
      ((sessState l s = .rwSo ∧ checkPin e l.token l.token.so o = .ok ∧ r = pinSet (setSoPin e l n)) ∨
       ((sessState l s = .rwUser ∨ sessState l s = .rwPublic) ∧
         checkPin e l.token l.token.user o = .ok ∧ r = pinSet (setUserPin e l n)))) := by
  simp only [setPin]
  split
  · rename_i o n
    split
    · exact .inl ⟨rfl, by simp, by simp⟩
    rename_i h1
    split
    · exact .inl ⟨rfl, by simp, by simp⟩
    rename_i h2
    split
    · rename_i hst
      split
      · exact .inl ⟨rfl, by simp, by simp⟩
      · exact .inl ⟨rfl, by simp, by simp⟩
      · rename_i hc
        exact .inr ⟨o, n, rfl, rfl, by simpa using h1, by simpa using h2, .inl ⟨hst, hc, rfl⟩⟩
    · rename_i hst
      split
      · exact .inl ⟨rfl, by simp, by simp⟩
      · exact .inl ⟨rfl, by simp, by simp⟩
      · rename_i hc
        exact .inr ⟨o, n, rfl, rfl, by simpa using h1, by simpa using h2, .inr ⟨.inl hst, hc, rfl⟩⟩
    · rename_i hst
      split
      · exact .inl ⟨rfl, by simp, by simp⟩
      · exact .inl ⟨rfl, by simp, by simp⟩
      · rename_i hc
        exact .inr ⟨o, n, rfl, rfl, by simpa using h1, by simpa using h2, .inr ⟨.inr hst, hc, rfl⟩⟩
    · exact .inl ⟨rfl, by simp, by simp⟩
  · exact .inl ⟨rfl, by simp, by simp⟩

/-- An account after a login attempt: the PIN is the same. -/
def SamePin (a a' : Account) : Prop := a'.pin = a.pin ∧ a'.seed = a.seed

theorem samePin_lockCheck {a b : Account} {now : Int} (h : lockCheck a now = some b) : SamePin a b := by
  unfold lockCheck at h
  split at h
  · split at h
    · cases h; exact ⟨rfl, rfl⟩
    · cases h
  · cases h; exact ⟨rfl, rfl⟩

theorem samePin_failed (a : Account) (now add : Int) : SamePin a (failed a now add) := by
  unfold failed; split <;> exact ⟨rfl, rfl⟩

theorem SamePin.trans {a b c : Account} (h1 : SamePin a b) (h2 : SamePin b c) : SamePin a c :=
  ⟨h2.1.trans h1.1, h2.2.trans h1.2⟩

/-- Login as security officer: the account's PIN and the user's account are the same. -/
theorem soLogin_acct (e : Env) (l : Lib) (pin : Bytes) (now : Int) :
    let t := (soLogin e l pin now).1.token
    SamePin l.token.so t.so ∧ t.user = l.token.user ∧ t.init = l.token.init ∧ t.seed = l.token.seed ∧
    t.label = l.token.label ∧ t.objs = l.token.objs ∧ t.key = l.token.key := by
  simp only [soLogin]
  split
  · exact ⟨⟨rfl, rfl⟩, rfl, rfl, rfl, rfl, rfl, rfl⟩
  split
  · exact ⟨⟨rfl, rfl⟩, rfl, rfl, rfl, rfl, rfl, rfl⟩
  rename_i a ha
  have h1 := samePin_lockCheck ha
  split
  · exact ⟨h1, rfl, rfl, rfl, rfl, rfl, rfl⟩
  split
  · exact ⟨h1, rfl, rfl, rfl, rfl, rfl, rfl⟩
  · exact ⟨h1.trans (samePin_failed ..), rfl, rfl, rfl, rfl, rfl, rfl⟩
  · exact ⟨h1.trans ⟨rfl, rfl⟩, rfl, rfl, rfl, rfl, rfl, rfl⟩

/-- Login as user: the account's PIN and the security officer's account are the same. -/
theorem userLogin_acct (e : Env) (l : Lib) (pin : Bytes) (now : Int) :
    let t := (userLogin e l pin now).1.token
    SamePin l.token.user t.user ∧ t.so = l.token.so ∧ t.init = l.token.init ∧ t.seed = l.token.seed ∧
    t.label = l.token.label := by
  simp only [userLogin]
  split
  · exact ⟨⟨rfl, rfl⟩, rfl, rfl, rfl, rfl⟩
  split
  · exact ⟨⟨rfl, rfl⟩, rfl, rfl, rfl, rfl⟩
  rename_i a ha
  have h1 := samePin_lockCheck ha
  split
  · exact ⟨h1, rfl, rfl, rfl, rfl⟩
  · exact ⟨h1.trans (samePin_failed ..), rfl, rfl, rfl, rfl⟩
  split
  all_goals exact ⟨h1.trans ⟨rfl, rfl⟩, rfl, rfl, rfl, rfl⟩

theorem sameAcct_closeSession (e : Env) (l : Lib) (h : Nat) :
    SameAcct l.token (closeSession e l h).1.token := by
  unfold closeSession; dsimp only
  split <;> exact ⟨rfl, rfl, rfl, rfl, rfl⟩

theorem TFrame.sameAcct {l l' : Lib} (h : TFrame l l') : SameAcct l.token l'.token :=
  ⟨h.so, h.user, h.init, h.seed, h.label⟩

/-- The calls that work on accounts: login, `C_InitPIN`, `C_SetPIN`, `C_InitToken`,
`C_Initialize`, `C_Finalize`. -/
def Call.onAccounts : Call → Bool
  | .cInit | .cFinal | .slot _ (.initToken ..) => true
  | .sess _ (.login ..) | .sess _ (.initPin ..) | .sess _ (.setPin ..) => true
  | _ => false

/-- No other call changes an account. -/
theorem sameAcct_callBody (e : Env) (l : Lib) (c : Call) (hc : c.onAccounts = false) :
    SameAcct l.token (callBody e l c).1.token := by
  cases c with
  | cInit => cases hc
  | cFinal => cases hc
  | slot id sc =>
    simp only [callBody]
    split; · exact .refl _
    split; · exact .refl _
    cases sc with
    | initToken => cases hc
    | tokenInfo => simp only [slotCall]; split <;> exact .refl _
    | closeAll => exact .refl _
    | openSession =>
      simp only [slotCall, openSession]
      repeat' split
      all_goals exact .refl _
  | sess k sc =>
    simp only [callBody]
    split; · exact .refl _
    split; · exact .refl _
    rename_i t _
    cases sc
    case close => exact sameAcct_closeSession ..
    case login => cases hc
    case logout => exact ⟨rfl, rfl, rfl, rfl, rfl⟩
    case initPin p => cases hc
    case setPin o n => cases hc
    all_goals exact (tframe_sessCall e l t _ rfl).sameAcct

theorem checkPin_ok {e : Env} {t : Token} {a : Account} {p : Bytes} (h : checkPin e t a p = .ok) :
    t.init = true ∧ a.pin ≠ [] := by
  unfold checkPin at h
  split at h
  · cases h
  · rename_i hn
    constructor
    · cases hi : t.init with
      | true => rfl
      | false => exact absurd (.inl hi) hn
    · exact fun hp => hn (.inr hp)

/-- Somebody is logged in only on an initialised token. -/
def LInv (l : Lib) : Prop := l.token.login ≠ .pub → l.token.init = true

theorem soLogin_linv {e : Env} {l : Lib} (h : LInv l) (pin : Bytes) (now : Int) :
    LInv (soLogin e l pin now).1 := by
  unfold soLogin
  split
  · exact h
  rename_i hl
  have hl : l.token.login = .pub := by simpa using hl
  split
  · exact h
  dsimp only
  split
  · exact h
  split
  · exact h
  · exact h
  · rename_i hc; exact fun _ => (checkPin_ok hc).1

theorem userLogin_linv {e : Env} {l : Lib} (h : LInv l) (pin : Bytes) (now : Int) :
    LInv (userLogin e l pin now).1 := by
  unfold userLogin
  split
  · exact h
  split
  · exact h
  split
  · exact h
  · exact h
  · rename_i hc
    have := (checkPin_ok hc).1
    dsimp only
    split <;> exact fun _ => this

theorem LInv.tframe {l l' : Lib} (h : LInv l) (hf : TFrame l l') : LInv l' := by
  intro hx
  rw [hf.init]
  rw [hf.login] at hx
  exact h hx

theorem LInv.callBody {l : Lib} (h : LInv l) (e : Env) (c : Call) : LInv (callBody e l c).1 := by
  cases c with
  | cInit =>
    simp only [Verif.callBody, cInitialize]
    split
    · intro hx; exact absurd (loadToken_login _ _ _) hx
    · exact h
  | cFinal =>
    simp only [Verif.callBody, cFinalize]
    split
    · intro hx; exact absurd rfl hx
    · exact h
  | slot id sc =>
    simp only [Verif.callBody]
    split; · exact h
    split; · exact h
    cases sc with
    | initToken p lab =>
      simp only [slotCall]
      rcases initToken_spec e l p lab with h' | ⟨_, _, _, _, _, _, _, h'⟩
      · rw [h'.1]; exact h
      · intro _; rw [h']
    | tokenInfo => simp only [slotCall]; split <;> exact h
    | closeAll => exact h
    | openSession =>
      simp only [slotCall, openSession]
      repeat' split
      all_goals exact h
  | sess k sc =>
    simp only [Verif.callBody]
    split; · exact h
    split; · exact h
    rename_i t _
    cases sc
    case close =>
      intro hx
      show (closeSession e l t.handle).1.token.init = true
      rw [(sameAcct_closeSession ..).init]
      refine h fun hp => hx ?_
      rcases closeSession_login e l t.handle with h' | h'
      · exact h'.trans hp
      · exact h'
    case login u pin now =>
      simp only [sessCall, login]
      repeat' split
      · exact h
      · exact h
      · exact soLogin_linv h _ _
      · exact userLogin_linv h _ _
      · exact h
      · exact h
    case logout => intro hx; exact absurd rfl hx
    case initPin p =>
      simp only [sessCall]
      rcases initPin_spec e l t p with h' | ⟨_, _, _, _, h'⟩
      · rw [h'.1]; exact h
      · rw [h']; exact h
    case setPin o n =>
      simp only [sessCall]
      rcases setPin_spec e l t o n with h' | ⟨_, _, _, _, _, _, ⟨_, _, h'⟩ | ⟨_, _, h'⟩⟩
      · rw [h'.1]; exact h
      · rw [h']; exact h
      · rw [h']; exact h
    all_goals
      refine LInv.tframe h (tframe_sessCall e l t _ ?_)
      rfl

theorem LInv.step {l : Lib} (h : LInv l) (e : Env) (c : Call) : LInv (step e l c).1 := by
  cases hb : l.bad with
  | true => rw [step_bad hb]; exact h
  | false =>
    unfold LInv
    rw [(step_sessions (e := e) hb c).2.2.1]
    exact h.callBody e c

theorem LInv.run {l : Lib} (h : LInv l) (e : Env) (cs : List Call) : LInv (run e l cs) := by
  induction cs generalizing l with
  | nil => exact h
  | cons c cs ih => exact ih (h.step e c)

theorem Start.linv {l : Lib} (h : Start l) : LInv l := by
  intro hx; rw [h.token] at hx; exact absurd rfl hx

end Verif
