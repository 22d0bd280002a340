import Verif.Proofs.Pin
import Verif.Spec.Pin

/-!
# Login attempts, case by case
-/

namespace Verif

theorem lockCheck_none {a : Account} {now : Int} : lockCheck a now = none ↔ Locked a now := by
  unfold lockCheck Locked
  show (if a.fails = maxFails then _ else _) = _ ↔ a.fails = maxFails ∧ _
  by_cases h : a.fails = maxFails
  · by_cases h2 : a.last + a.timeout < now
    · simp only [h, if_true, h2, true_and]
      constructor
      · intro x; cases x
      · intro x; omega
    · simp only [h, if_true, h2, if_false, true_and]
      constructor
      · intro _; omega
      · intro _; trivial
  · simp [h]

/-- The account after the check of the lock. -/
def unlocked (a : Account) : Account := if a.fails = 3 then { a with fails := 0 } else a

theorem lockCheck_some {a : Account} {now : Int} (h : ¬ Locked a now) :
    lockCheck a now = some (unlocked a) := by
  cases hc : lockCheck a now with
  | none => exact absurd (lockCheck_none.mp hc) h
  | some b =>
    unfold lockCheck at hc
    unfold unlocked
    show _ = some (if a.fails = maxFails then _ else _)
    by_cases h : a.fails = maxFails
    · rw [if_pos h] at hc ⊢
      split at hc
      · cases hc; rfl
      · cases hc
    · rw [if_neg h] at hc ⊢
      cases hc; rfl

theorem samePin_unlocked (a : Account) : SamePin a (unlocked a) := by
  unfold unlocked; split <;> exact ⟨rfl, rfl⟩

theorem pinLenOk_iff {p : Bytes} : pinLenOk p = true ↔ 4 ≤ p.length ∧ p.length ≤ 32 := by
  simp [pinLenOk]

/-- Some session is open read-only. -/
def RoOpen (e : Env) (l : Lib) : Prop := ∃ h, OpenAs e l h false

theorem roOpen_iff {e : Env} {l : Lib} (hi : SInv l) (hb : l.bad = false) :
    RoOpen e l ↔ (l.sessions.any fun s => s.use == .ro) = true := by
  constructor
  · rintro ⟨h, ho⟩
    obtain ⟨_, s, hs, hrw⟩ := (openAs_iff hi).mp ho
    obtain ⟨hm, _, hu⟩ := (getSession_iff hi).mp hs
    refine List.any_eq_true.mpr ⟨s, hm, ?_⟩
    cases hsu : s.use with
    | no => exact absurd hsu hu
    | ro => rfl
    | rw => rw [hsu] at hrw; cases hrw
  · intro h
    obtain ⟨s, hm, hu⟩ := List.any_eq_true.mp h
    have hu : s.use = .ro := by simpa using hu
    refine ⟨s.handle, (openAs_iff hi).mpr ⟨hb, s, (getSession_iff hi).mpr ⟨hm, rfl, by simp [hu]⟩, by simp [hu]⟩⟩

/-- What a login attempt does. -/
inductive LoginCase (e : Env) (l : Lib) (w : Who) (pin : Bytes) (now : Int) (r : Lib × Resp) : Prop
  | badLen : ¬ (4 ≤ pin.length ∧ pin.length ≤ 32) → r = (l, { rv := .pinIncorrect }) →
      LoginCase e l w pin now r
  | already : l.token.login ≠ .pub → r = (l, { rv := .userAlreadyLoggedIn }) →
      LoginCase e l w pin now r
  | locked : Locked (w.acct l.token) now → r = (l, { rv := .pinIncorrect }) →
      LoginCase e l w pin now r
  | readOnly : ¬ Locked (w.acct l.token) now → w = .so → RoOpen e l →
      r.2.rv = .sessionReadOnlyExists →
      w.acct r.1.token = unlocked (w.acct l.token) → r.1.token.login = l.token.login →
      LoginCase e l w pin now r
  | notSet : ¬ Locked (w.acct l.token) now → (l.token.init = false ∨ (w.acct l.token).pin = []) →
      r.2.rv = .userPinNotInitialized →
      w.acct r.1.token = unlocked (w.acct l.token) → r.1.token.login = l.token.login →
      LoginCase e l w pin now r
  | wrong : 4 ≤ pin.length ∧ pin.length ≤ 32 → l.token.login = .pub →
      ¬ Locked (w.acct l.token) now → (w = .so → ¬ RoOpen e l) →
      l.token.init = true → (w.acct l.token).pin ≠ [] → ¬ Matches e (w.acct l.token) pin →
      r.2.rv = .pinIncorrect →
      w.acct r.1.token = failed (unlocked (w.acct l.token)) now w.penalty →
      r.1.token.login = l.token.login →
      LoginCase e l w pin now r
  | right : 4 ≤ pin.length ∧ pin.length ≤ 32 → l.token.login = .pub →
      ¬ Locked (w.acct l.token) now → (w = .so → ¬ RoOpen e l) →
      l.token.init = true → (w.acct l.token).pin ≠ [] → Matches e (w.acct l.token) pin →
      (r.2.rv = .ok ↔ (w = .user →
        (decodeAll e.store (e.store.hash pin l.token.seed) l.token.objs).1 = .ok)) →
      w.acct r.1.token = succeeded (unlocked (w.acct l.token)) →
      LoginCase e l w pin now r

theorem checkPin_cases (e : Env) (t : Token) (a : Account) (pin : Bytes) :
    (checkPin e t a pin = .notSet ∧ (t.init = false ∨ a.pin = [])) ∨
    (checkPin e t a pin = .invalid ∧ t.init = true ∧ a.pin ≠ [] ∧ ¬ Matches e a pin) ∨
    (checkPin e t a pin = .ok ∧ t.init = true ∧ a.pin ≠ [] ∧ Matches e a pin) := by
  unfold checkPin
  by_cases h : t.init = false ∨ a.pin = []
  · exact .inl ⟨if_pos h, h⟩
  · have h1 : t.init = true := by
      cases hi : t.init with
      | true => rfl
      | false => exact absurd (.inl hi) h
    have h2 : a.pin ≠ [] := fun x => h (.inr x)
    by_cases h3 : (e.store.hash pin a.seed).take a.pin.length = a.pin
    · refine .inr (.inr ⟨by rw [if_neg h, if_pos h3], h1, h2, h2, h3⟩)
    · refine .inr (.inl ⟨by rw [if_neg h, if_neg h3], h1, h2, fun x => h3 x.2⟩)

theorem matches_same {e : Env} {a b : Account} (h : SamePin a b) (pin : Bytes) :
    Matches e b pin ↔ Matches e a pin := by
  unfold Matches; rw [h.1, h.2]

theorem login_cases {e : Env} {l : Lib} (hi : SInv l) (hb : l.bad = false) {h : Nat} (ho : IsOpen e l h)
    (w : Who) (pin : Bytes) (now : Int) :
    LoginCase e l w pin now (callBody e l (loginCall h w pin now)) := by
  obtain ⟨_, s, hs⟩ := (isOpen_iff hi).mp ho
  have hc : ¬ l.count ≤ 0 := by have := count_pos_of_open hi hs; omega
  simp only [loginCall, callBody, hc, if_false, hs, sessCall, login]
  by_cases hp : pinLenOk pin = true
  case neg =>
    have hp' : pinLenOk pin = false := by simpa using hp
    refine .badLen (fun x => hp (pinLenOk_iff.mpr x)) ?_
    simp [hp']
  have hlen := pinLenOk_iff.mp hp
  simp only [hp, Bool.not_true, Bool.false_eq_true, if_false]
  have hsp := samePin_unlocked (w.acct l.token)
  cases w with
  | so =>
    simp only [Who.type, Who.acct] at hsp ⊢
    unfold soLogin
    by_cases hl : l.token.login = .pub
    case neg => rw [if_pos hl]; exact .already hl rfl
    rw [if_neg (by simpa using hl)]
    by_cases hlk : Locked l.token.so now
    · rw [lockCheck_none.mpr hlk]; exact .locked hlk rfl
    rw [lockCheck_some hlk]
    dsimp only
    by_cases hro : RoOpen e l
    · rw [if_pos ((roOpen_iff hi hb).mp hro)]
      exact .readOnly hlk rfl hro rfl rfl rfl
    rw [if_neg (fun x => hro ((roOpen_iff hi hb).mpr x))]
    rcases checkPin_cases e { l.token with so := unlocked l.token.so } (unlocked l.token.so) pin with
      ⟨h1, h2⟩ | ⟨h1, h2, h3, h4⟩ | ⟨h1, h2, h3, h4⟩
    · rw [h1]
      exact .notSet hlk (h2.imp id (fun x => hsp.1 ▸ x)) rfl rfl rfl
    · rw [h1]
      exact .wrong hlen hl hlk (fun _ => hro) h2 (fun x => h3 (hsp.1.trans x))
        (fun x => h4 ((matches_same hsp pin).mpr x)) rfl rfl rfl
    · rw [h1]
      refine .right hlen hl hlk (fun _ => hro) h2 (fun x => h3 (hsp.1.trans x))
        ((matches_same hsp pin).mp h4) ?_ rfl
      simp
  | user =>
    simp only [Who.type, Who.acct] at hsp ⊢
    unfold userLogin
    by_cases hl : l.token.login = .pub
    case neg => rw [if_pos hl]; exact .already hl rfl
    rw [if_neg (by simpa using hl)]
    by_cases hlk : Locked l.token.user now
    · rw [lockCheck_none.mpr hlk]; exact .locked hlk rfl
    rw [lockCheck_some hlk]
    dsimp only
    rcases checkPin_cases e l.token (unlocked l.token.user) pin with
      ⟨h1, h2⟩ | ⟨h1, h2, h3, h4⟩ | ⟨h1, h2, h3, h4⟩
    · rw [h1]
      exact .notSet hlk (h2.imp id (fun x => hsp.1 ▸ x)) rfl rfl rfl
    · rw [h1]
      exact .wrong hlen hl hlk (fun x => by cases x) h2 (fun x => h3 (hsp.1.trans x))
        (fun x => h4 ((matches_same hsp pin).mpr x)) rfl rfl rfl
    · rw [h1]
      refine .right hlen hl hlk (fun x => by cases x) h2 (fun x => h3 (hsp.1.trans x))
        ((matches_same hsp pin).mp h4) ?_ ?_
      · dsimp only
        cases (decodeAll e.store (e.store.hash pin l.token.seed) l.token.objs).1 <;> simp
      · dsimp only
        cases (decodeAll e.store (e.store.hash pin l.token.seed) l.token.objs).1 <;> rfl

theorem not_evaluates_same {e : Env} {l : Lib} {w : Who} {h : Nat} {u : UserType} {p : Option Bytes}
    {now : Int} (hne : ∀ q, ¬ (u = w.type ∧ p = some q)) : ¬ WrongGuess e l w (.sess h (.login u p now)) := by
  rintro ⟨q, n, ⟨h', hc, _⟩, _⟩
  simp only [loginCall, Call.sess.injEq, SessCall.login.injEq] at hc
  exact hne q ⟨hc.2.1, hc.2.2.1⟩

/-- The counters of an account. -/
def SameCount (a a' : Account) : Prop := a'.fails = a.fails ∧ a'.last = a.last ∧ a'.timeout = a.timeout

/-- What a call that does not clear the counters of `w` does to them. -/
inductive CountCase (e : Env) (l : Lib) (w : Who) (c : Call) (a' : Account) : Prop
  | same : SameCount (w.acct l.token) a' → ¬ WrongGuess e l w c → CountCase e l w c a'
  | expired (h : Nat) (pin : Bytes) (now : Int) : c = loginCall h w pin now →
      ¬ Locked (w.acct l.token) now → SameCount (unlocked (w.acct l.token)) a' → ¬ WrongGuess e l w c →
      CountCase e l w c a'
  | wrong (h : Nat) (pin : Bytes) (now : Int) : c = loginCall h w pin now →
      ¬ Locked (w.acct l.token) now →
      SameCount (failed (unlocked (w.acct l.token)) now w.penalty) a' → WrongGuess e l w c →
      CountCase e l w c a'

theorem loginCall_inj {h h' : Nat} {w w' : Who} {p p' : Bytes} {n n' : Int}
    (he : loginCall h w p n = loginCall h' w' p' n') : h = h' ∧ p = p' ∧ n = n' := by
  simp only [loginCall, Call.sess.injEq, SessCall.login.injEq, Option.some.injEq] at he
  exact ⟨he.1, he.2.2.1, he.2.2.2⟩

theorem count_cases {e : Env} {l : Lib} (hi : SInv l) (hb : l.bad = false) {w : Who} {c : Call}
    (hc : ¬ Clears e l w c) : CountCase e l w c (w.acct (step e l c).1.token) := by
  rw [(step_sessions (e := e) hb c).2.2.1]
  by_cases hacc : c.onAccounts = false
  · have hs := sameAcct_callBody e l c hacc
    refine .same ?_ ?_
    · cases w
      · simp only [Who.acct, hs.so]; exact ⟨rfl, rfl, rfl⟩
      · simp only [Who.acct, hs.user]; exact ⟨rfl, rfl, rfl⟩
    · rintro ⟨q, n, ⟨h', he, _⟩, _⟩
      rw [he] at hacc; cases hacc
  cases c with
  | cInit => exact absurd (.inl rfl) hc
  | cFinal => exact absurd (.inr (.inl rfl)) hc
  | slot i sc =>
    cases sc with
    | tokenInfo => exact absurd rfl hacc
    | openSession => exact absurd rfl hacc
    | closeAll => exact absurd rfl hacc
    | initToken p lab =>
      have hnok : (callBody e l (.slot i (.initToken p lab))).2.rv ≠ .ok := by
        intro x
        exact hc (.inr (.inr (.inl ⟨i, p, lab, rfl, by rw [answer, step_resp hb]; exact x⟩)))
      have hl : (callBody e l (.slot i (.initToken p lab))).1 = l := by
        simp only [callBody] at hnok ⊢
        split; · rfl
        split; · rfl
        rename_i h1 h2
        simp only [h1, h2, if_false] at hnok
        rcases initToken_spec e l p lab with h | ⟨_, _, _, _, _, _, h, _⟩
        · exact h.1
        · exact absurd (by simp only [slotCall, h]) hnok
      rw [hl]
      refine .same ⟨rfl, rfl, rfl⟩ ?_
      rintro ⟨q, n, ⟨h', he, _⟩, _⟩
      cases he
  | sess k sc =>
    by_cases ho : IsOpen e l k
    case neg =>
      have hl : (callBody e l (.sess k sc)).1 = l := by
        simp only [callBody]
        split; · rfl
        split
        · rfl
        · rename_i s hs
          exact absurd ((isOpen_iff hi).mpr ⟨hb, s, hs⟩) ho
      rw [hl]
      refine .same ⟨rfl, rfl, rfl⟩ ?_
      rintro ⟨q, n, ⟨h', he, ho', _⟩, _⟩
      simp only [loginCall, Call.sess.injEq] at he
      exact ho (he.1 ▸ ho')
    obtain ⟨_, s, hs⟩ := (isOpen_iff hi).mp ho
    have hcnt : ¬ l.count ≤ 0 := by have := count_pos_of_open hi hs; omega
    have nowrong : ∀ sc : SessCall, (∀ u p n, sc ≠ .login u p n) → ¬ WrongGuess e l w (.sess k sc) := by
      rintro sc hne ⟨q, n, ⟨h', he, _⟩, _⟩
      simp only [loginCall, Call.sess.injEq] at he
      exact hne _ _ _ he.2
    cases sc
    case initPin p =>
      refine .same ?_ (nowrong _ (by simp))
      simp only [callBody, hcnt, if_false, hs, sessCall]
      rcases initPin_spec e l s p with h | ⟨q, _, _, _, h⟩
      · rw [h.1]; exact ⟨rfl, rfl, rfl⟩
      · rw [h]; cases w <;> exact ⟨rfl, rfl, rfl⟩
    case setPin o n =>
      refine .same ?_ (nowrong _ (by simp))
      simp only [callBody, hcnt, if_false, hs, sessCall]
      rcases setPin_spec e l s o n with h | ⟨_, _, _, _, _, _, ⟨_, _, h⟩ | ⟨_, _, h⟩⟩
      · rw [h.1]; exact ⟨rfl, rfl, rfl⟩
      · rw [h]; cases w <;> exact ⟨rfl, rfl, rfl⟩
      · rw [h]; cases w <;> exact ⟨rfl, rfl, rfl⟩
    case login u p n =>
      by_cases hw : u = w.type ∧ ∃ q, p = some q
      · obtain ⟨rfl, q, rfl⟩ := hw
        have hlc := login_cases hi hb ho w q n
        have hWne : ∀ (P : Prop), (Evaluates e l w (loginCall k w q n) q n → P) →
            (WrongGuess e l w (loginCall k w q n) → P) := by
          rintro P hP ⟨q', n', hE, _⟩
          have hE' := hE
          obtain ⟨h', he, _⟩ := hE'
          obtain ⟨_, rfl, rfl⟩ := loginCall_inj he
          exact hP hE
        have hro : ∀ {h' : Prop}, (w = .so → ∀ h'', ¬ OpenAs e l h'' false) → w = .so → RoOpen e l → h' := by
          rintro h' h1 h2 ⟨x, hx⟩; exact absurd hx (h1 h2 x)
        have hcc : Call.sess k (.login w.type (some q) n) = loginCall k w q n := rfl
        rw [hcc] at hc ⊢
        cases hlc with
        | badLen h1 h2 =>
          rw [h2]
          refine .same ⟨rfl, rfl, rfl⟩ (hWne _ ?_)
          rintro ⟨_, _, _, _, _, _, _, _, h3⟩; exact h1 h3
        | already h1 h2 =>
          rw [h2]
          refine .same ⟨rfl, rfl, rfl⟩ (hWne _ ?_)
          rintro ⟨_, _, _, h3, _⟩; exact h1 h3
        | locked h1 h2 =>
          rw [h2]
          refine .same ⟨rfl, rfl, rfl⟩ (hWne _ ?_)
          rintro ⟨_, _, _, _, h3, _⟩; exact h3 h1
        | readOnly h1 h2 h3 _ h4 =>
          refine .expired k q n rfl h1 (by rw [h4]; exact ⟨rfl, rfl, rfl⟩) (hWne _ ?_)
          rintro ⟨_, _, _, _, _, h5, _⟩; exact hro h5 h2 h3
        | notSet h1 h2 _ h4 =>
          refine .expired k q n rfl h1 (by rw [h4]; exact ⟨rfl, rfl, rfl⟩) (hWne _ ?_)
          rintro ⟨_, _, _, _, _, _, h5, h6, _⟩
          rcases h2 with h2 | h2
          · rw [h2] at h5; cases h5
          · exact h6 h2
        | wrong h1 h2 h3 h4 h5 h6 h7 _ h8 =>
          refine .wrong k q n rfl h3 (by rw [h8]; exact ⟨rfl, rfl, rfl⟩) ?_
          exact ⟨q, n, ⟨k, rfl, ho, h2, h3, fun x y z => h4 x ⟨y, z⟩, h5, h6, h1⟩, h7⟩
        | right h1 h2 h3 h4 h5 h6 h7 _ h8 =>
          exact absurd (.inr (.inr (.inr ⟨q, n,
            ⟨k, rfl, ho, h2, h3, fun x y z => h4 x ⟨y, z⟩, h5, h6, h1⟩, h7⟩))) hc
      · refine .same ?_ (not_evaluates_same (fun q x => hw ⟨x.1, q, x.2⟩))
        simp only [callBody, hcnt, if_false, hs, sessCall, login]
        cases p with
        | none => exact ⟨rfl, rfl, rfl⟩
        | some q =>
          have hu : u ≠ w.type := fun x => hw ⟨x, q, rfl⟩
          dsimp only
          split
          · exact ⟨rfl, rfl, rfl⟩
          cases u with
          | so =>
            cases w with
            | so => exact absurd rfl hu
            | user =>
              have := soLogin_acct e l q n
              simp only [Who.acct]
              rw [this.2.1]; exact ⟨rfl, rfl, rfl⟩
          | user =>
            cases w with
            | user => exact absurd rfl hu
            | so =>
              have := userLogin_acct e l q n
              simp only [Who.acct]
              rw [this.2.1]; exact ⟨rfl, rfl, rfl⟩
          | contextSpecific => exact ⟨rfl, rfl, rfl⟩
          | other => exact ⟨rfl, rfl, rfl⟩
    all_goals exact absurd rfl hacc

end Verif
