import Verif.Props.Lockout
import Verif.Props.SessClose

/-!
# PINs: who may set them and what they open (C10, C14, C15, C16, C62)
-/

namespace Verif

theorem hash_ne_nil {e : Env} (hh : HashLen e) (p s : Bytes) : e.store.hash p s ≠ [] := by
  intro h
  have := hh p s
  rw [h] at this; cases this

theorem pinSet_ub (r : Lib × Bool) : (pinSet r).2.rv ≠ .ub := by
  rcases pinSet_rv r with h | h <;> rw [h] <;> simp

theorem stateOf_eq {e : Env} {l : Lib} (hi : SInv l) (hb : l.bad = false) {h : Nat} {s : Session}
    (hs : getSession l h = some s) : stateOf e l h = some (sessState l s) := by
  unfold stateOf
  rw [sessionInfo_eq hb (count_pos_of_open hi hs), hs]
  rfl

theorem SamePin.of_eq {a b : Account} (h : b = a) : SamePin a b := by subst h; exact ⟨rfl, rfl⟩

theorem SamePin.holds {e : Env} {a b : Account} (h : SamePin a b) {p : Option Bytes}
    (hp : a.pin = (p.map fun q => e.store.hash q a.seed).getD []) :
    b.pin = (p.map fun q => e.store.hash q b.seed).getD [] := by
  rw [h.1, h.2]; exact hp

/-- The token holds the hashes of the PINs that were set: refinement of the machine that
stores PINs in clear, one call. -/
theorem holds_step {e : Env} {l : Lib} (hi : SInv l) (hl : LInv l) {p : Pins} (hp : Holds e l p) (c : Call)
    (hn : Initialised e l) (hn' : Initialised e (step e l c).1) :
    Holds e (step e l c).1 (p.next (stateOf e l c.session) c (answer e l c)) := by
  cases hb : l.bad with
  | true =>
    have : p.next (stateOf e l c.session) c (answer e l c) = p := by
      unfold Pins.next
      rw [if_neg]
      rw [answer, step_bad hb]; simp
    rw [step_bad hb, this]; exact hp
  | false =>
  have htok := (step_sessions (e := e) hb c).2.2.1
  have hans : answer e l c = (callBody e l c).2 := step_resp hb c
  rw [hans]
  -- enough: the token
  suffices h : Holds e (callBody e l c).1 (p.next (stateOf e l c.session) c (callBody e l c).2) from
    ⟨by rw [htok]; exact h.so, by rw [htok]; exact h.user, by rw [htok]; exact h.init⟩
  have hsame : ∀ l' : Lib, SamePin l.token.so l'.token.so → SamePin l.token.user l'.token.user →
      l'.token.init = l.token.init → Holds e l' p := by
    intro l' h1 h2 h3
    exact ⟨h1.holds hp.so, h2.holds hp.user, by rw [h3]; exact hp.init⟩
  have nextEq : ∀ (r : Resp), (r.rv ≠ .ok ∧ r.rv ≠ .functionFailed) →
      p.next (stateOf e l c.session) c r = p := by
    intro r hr
    unfold Pins.next
    rw [if_neg (by simp [hr])]
  cases c with
  | cInit =>
    have h0 : ¬ l.count = 0 := by have := (initialised_iff hb).mp hn; omega
    have : ∀ st r, p.next st .cInit r = p := by intro st r; unfold Pins.next; split <;> rfl
    rw [this]
    simp only [callBody, cInitialize, h0, if_false]
    exact hsame _ ⟨rfl, rfl⟩ ⟨rfl, rfl⟩ rfl
  | cFinal =>
    have hb' : (step e l .cFinal).1.bad = false := by
      cases hx : (step e l .cFinal).1.bad with
      | false => rfl
      | true => rw [Initialised, answer, step_bad hx] at hn'; cases hn'
    have hcount := (initialised_iff hb').mp hn'
    rw [(step_sessions (e := e) hb _).2.1] at hcount
    have : ∀ st r, p.next st .cFinal r = p := by intro st r; unfold Pins.next; split <;> rfl
    rw [this]
    simp only [callBody, cFinalize] at hcount ⊢
    split
    · rename_i h0
      exfalso
      simp only [h0, if_true, Lib.store] at hcount
      omega
    · exact hsame _ ⟨rfl, rfl⟩ ⟨rfl, rfl⟩ rfl
  | slot i sc =>
    cases sc with
    | initToken q lab =>
      simp only [callBody] at nextEq ⊢
      split
      · rw [nextEq _ (by simp)]; exact hp
      split
      · rw [nextEq _ (by simp)]; exact hp
      simp only [slotCall]
      rcases initToken_spec e l q lab with h | ⟨q, lab, rfl, rfl, _, _, h1, h2⟩
      · rw [nextEq _ h.2, h.1]; exact hp
      · rw [h1]
        have : p.next (stateOf e l (Call.session (.slot i (.initToken (some q) (some lab)))))
            (.slot i (.initToken (some q) (some lab))) { rv := .ok } = { so := some q, user := none } := by
          simp [Pins.next]
        rw [this]
        exact ⟨by rw [h2]; rfl, by rw [h2]; rfl, fun _ => by rw [h2]⟩
    | tokenInfo a b =>
      have hs := sameAcct_callBody e l _ (show Call.onAccounts (.slot i (.tokenInfo a b)) = false from rfl)
      have : ∀ r, p.next (stateOf e l (Call.session (.slot i (.tokenInfo a b)))) (.slot i (.tokenInfo a b)) r = p := by
        intro r; unfold Pins.next; split <;> rfl
      rw [this]
      exact hsame _ (by rw [hs.so]; exact ⟨rfl, rfl⟩) (by rw [hs.user]; exact ⟨rfl, rfl⟩) hs.init
    | openSession a b d =>
      have hs := sameAcct_callBody e l _ (show Call.onAccounts (.slot i (.openSession a b d)) = false from rfl)
      have : ∀ r, p.next (stateOf e l (Call.session (.slot i (.openSession a b d)))) (.slot i (.openSession a b d)) r = p := by
        intro r; unfold Pins.next; split <;> rfl
      rw [this]
      exact hsame _ (by rw [hs.so]; exact ⟨rfl, rfl⟩) (by rw [hs.user]; exact ⟨rfl, rfl⟩) hs.init
    | closeAll =>
      have hs := sameAcct_callBody e l _ (show Call.onAccounts (.slot i .closeAll) = false from rfl)
      have : ∀ r, p.next (stateOf e l (Call.session (.slot i .closeAll))) (.slot i .closeAll) r = p := by
        intro r; unfold Pins.next; split <;> rfl
      rw [this]
      exact hsame _ (by rw [hs.so]; exact ⟨rfl, rfl⟩) (by rw [hs.user]; exact ⟨rfl, rfl⟩) hs.init
  | sess k sc =>
    cases hg : getSession l k with
    | none =>
      have h1 : (callBody e l (.sess k sc)).1 = l ∧ (callBody e l (.sess k sc)).2.rv ≠ .ok ∧
          (callBody e l (.sess k sc)).2.rv ≠ .functionFailed := by
        simp only [callBody, hg]
        split <;> simp
      rw [nextEq _ h1.2, h1.1]; exact hp
    | some s =>
      have hcnt : ¬ l.count ≤ 0 := by have := count_pos_of_open hi hg; omega
      have hst := stateOf_eq (e := e) hi hb hg
      by_cases hpin : (∃ q, sc = .initPin q) ∨ (∃ o n, sc = .setPin o n)
      · rcases hpin with ⟨q, rfl⟩ | ⟨o, n, rfl⟩
        · simp only [callBody, hcnt, if_false, hg, sessCall] at nextEq ⊢
          rcases initPin_spec e l s q with h | ⟨q, rfl, _, hso, h⟩
          · rw [nextEq _ h.2, h.1]; exact hp
          · rw [h]
            have hn : p.next (stateOf e l k) (.sess k (.initPin (some q))) (pinSet (setUserPin e l q)).2 =
                { p with user := some q } := by
              unfold Pins.next; rw [if_pos (pinSet_rv _)]
            show Holds e _ (p.next (stateOf e l k) _ _)
            rw [hn]
            refine ⟨hp.so, rfl, fun _ => ?_⟩
            show l.token.init = true
            refine hl fun hx => ?_
            unfold sessState at hso
            rw [hx] at hso
            dsimp only at hso
            split at hso <;> cases hso
        · simp only [callBody, hcnt, if_false, hg, sessCall] at nextEq ⊢
          rcases setPin_spec e l s o n with h | ⟨o, n, rfl, rfl, _, _, ⟨h1, h2, h⟩ | ⟨h1, h2, h⟩⟩
          · rw [nextEq _ h.2, h.1]; exact hp
          · rw [h]
            have hn : p.next (stateOf e l k) (.sess k (.setPin (some o) (some n))) (pinSet (setSoPin e l n)).2 =
                { p with so := some n } := by
              unfold Pins.next; rw [if_pos (pinSet_rv _)]
              dsimp only
              rw [if_pos (by rw [hst, h1])]
            show Holds e _ (p.next (stateOf e l k) _ _)
            rw [hn]
            exact ⟨rfl, hp.user, fun _ => (checkPin_ok h2).1⟩
          · rw [h]
            have hn : p.next (stateOf e l k) (.sess k (.setPin (some o) (some n))) (pinSet (setUserPin e l n)).2 =
                { p with user := some n } := by
              unfold Pins.next; rw [if_pos (pinSet_rv _)]
              dsimp only
              rw [if_neg (by rw [hst]; rcases h1 with h1 | h1 <;> rw [h1] <;> decide)]
            show Holds e _ (p.next (stateOf e l k) _ _)
            rw [hn]
            exact ⟨hp.so, rfl, fun _ => (checkPin_ok h2).1⟩
      · have hnx : ∀ r, p.next (stateOf e l k) (.sess k sc) r = p := by
          intro r
          unfold Pins.next
          split
          · cases sc <;> first | rfl | exact absurd (.inl ⟨_, rfl⟩) hpin | exact absurd (.inr ⟨_, _, rfl⟩) hpin
          · rfl
        show Holds e _ (p.next (stateOf e l k) _ _)
        rw [hnx]
        by_cases hlog : ∃ u q n, sc = .login u q n
        · obtain ⟨u, q, n, rfl⟩ := hlog
          simp only [callBody, hcnt, if_false, hg, sessCall, login]
          cases q with
          | none => exact hp
          | some q =>
            dsimp only
            split
            · exact hp
            cases u with
            | so =>
              have := soLogin_acct e l q n
              exact hsame _ this.1 (by rw [this.2.1]; exact ⟨rfl, rfl⟩) this.2.2.1
            | user =>
              have := userLogin_acct e l q n
              exact hsame _ (by rw [this.2.1]; exact ⟨rfl, rfl⟩) this.1 this.2.2.1
            | contextSpecific => exact hp
            | other => exact hp
        · have hacc : Call.onAccounts (.sess k sc) = false := by
            cases sc <;> first | rfl | exact absurd (.inl ⟨_, rfl⟩) hpin |
              exact absurd (.inr ⟨_, _, rfl⟩) hpin | exact absurd ⟨_, _, _, rfl⟩ hlog
          have hs := sameAcct_callBody e l _ hacc
          exact hsame _ (by rw [hs.so]; exact ⟨rfl, rfl⟩) (by rw [hs.user]; exact ⟨rfl, rfl⟩) hs.init

theorem OneLife.head {e : Env} {l : Lib} {cs : List Call} (h : OneLife e l cs) : Initialised e l := by
  cases cs with
  | nil => exact h
  | cons => exact h.1

/-- The same for a whole history. -/
theorem holds_run {e : Env} {l : Lib} (hi : SInv l) (hl : LInv l) {p : Pins} (hp : Holds e l p)
    (cs : List Call) (h1 : OneLife e l cs) : Holds e (run e l cs) (pinsAfter e l p cs) := by
  induction cs generalizing l p with
  | nil => exact hp
  | cons c cs ih =>
    exact ih (hi.step e c) (hl.step e c) (holds_step hi hl hp c h1.1 h1.2.head) h1.2

/-- The token loaded from a directory without one holds no PIN. -/
theorem holds_empty {e : Env} {l : Lib} (h : Start l) (hd : NoToken l) : Holds e (step e l .cInit).1 {} := by
  have ht : (step e l .cInit).1.token = {} := by
    rw [(step_sessions (e := e) h.bad _).2.2.1]
    simp only [callBody, cInitialize, h.count, if_true]
    unfold loadToken
    rw [hd]
  exact ⟨by rw [ht]; rfl, by rw [ht]; rfl, fun hx => by rcases hx with hx | hx <;> exact absurd rfl hx⟩

theorem Holds.pin {e : Env} {l : Lib} {p : Pins} (h : Holds e l p) (w : Who) :
    (w.acct l.token).pin = ((p.of w).map fun q => e.store.hash q (w.acct l.token).seed).getD [] := by
  cases w
  · exact h.so
  · exact h.user

/-- The hash comparison accepts exactly the PIN that was set. -/
theorem matches_iff {e : Env} (hh : HashLen e) {l : Lib} {p : Pins} (h : Holds e l p) (w : Who) (pin : Bytes)
    (hc : NoCollision e p w pin) : Matches e (w.acct l.token) pin ↔ p.of w = some pin := by
  unfold Matches
  have hp := h.pin w
  cases hq : p.of w with
  | none =>
    rw [hq] at hp
    constructor
    · intro hx; exact absurd hp hx.1
    · intro hx; cases hx
  | some q =>
    rw [hq] at hp
    simp only [Option.map_some, Option.getD_some] at hp
    rw [hp, List.take_of_length_le (by rw [hh, hh]; exact Nat.le_refl _)]
    constructor
    · intro hx
      rw [hc q _ hq hx.2]
    · intro hx
      cases hx
      exact ⟨hash_ne_nil hh _ _, rfl⟩

/-- No session reports a login. -/
def NobodyLoggedIn (e : Env) (l : Lib) (h : Nat) : Prop :=
  stateOf e l h = some .roPublic ∨ stateOf e l h = some .rwPublic

theorem nobody_iff {e : Env} {l : Lib} (hi : SInv l) {h : Nat} (ho : IsOpen e l h) :
    NobodyLoggedIn e l h ↔ l.token.login = .pub := by
  obtain ⟨hb, s, hs⟩ := (isOpen_iff hi).mp ho
  unfold NobodyLoggedIn
  rw [stateOf_eq hi hb hs, sessState]
  by_cases hu : s.use = .rw <;> cases l.token.login <;> simp [hu]

/-- All objects on the token can be decrypted with the key made from this PIN. -/
def Decodable (e : Env) (l : Lib) (pin : Bytes) : Prop :=
  (decodeAll e.store (e.store.hash pin l.token.seed) l.token.objs).1 = .ok

/-- When `C_Login` succeeds, if the account accepts exactly the PIN `po`. -/
theorem login_ok_iff {e : Env} {l : Lib} (hi : SInv l) {po : Option Bytes} {w : Who} {pin : Bytes}
    (hm : Matches e (w.acct l.token) pin ↔ po = some pin) (hinit : po = some pin → l.token.init = true)
    (h : Nat) (now : Int) :
    ((answer e l (loginCall h w pin now)).rv = .ok ↔
      IsOpen e l h ∧ 4 ≤ pin.length ∧ pin.length ≤ 32 ∧ po = some pin ∧ NobodyLoggedIn e l h ∧
      ¬ Locked (w.acct l.token) now ∧ (w = .so → ∀ k, ¬ OpenAs e l k false) ∧
      (w = .user → Decodable e l pin)) := by
  by_cases ho : IsOpen e l h
  case neg =>
    constructor
    · intro hok
      exfalso
      cases hb : l.bad with
      | true => rw [answer, step_bad hb] at hok; cases hok
      | false =>
        rw [answer, step_resp hb] at hok
        simp only [loginCall, callBody] at hok
        split at hok
        · cases hok
        split at hok
        · cases hok
        · rename_i s hs
          exact ho ((isOpen_iff hi).mpr ⟨hb, s, hs⟩)
    · intro hx; exact absurd hx.1 ho
  have hb := ((isOpen_iff hi).mp ho).1
  have hno := nobody_iff hi ho
  rw [answer, step_resp hb]
  cases login_cases hi hb ho w pin now with
  | badLen h1 h2 =>
    rw [h2]
    exact ⟨(fun x => by cases x), fun x => absurd ⟨x.2.1, x.2.2.1⟩ h1⟩
  | already h1 h2 =>
    rw [h2]
    exact ⟨(fun x => by cases x), fun x => absurd (hno.mp x.2.2.2.2.1) h1⟩
  | locked h1 h2 =>
    rw [h2]
    exact ⟨(fun x => by cases x), fun x => absurd h1 x.2.2.2.2.2.1⟩
  | readOnly h1 h2 h3 h4 _ =>
    rw [h4]
    exact ⟨(fun x => by cases x), fun x => absurd h3.choose_spec (x.2.2.2.2.2.2.1 h2 _)⟩
  | notSet h1 h2 h3 _ =>
    rw [h3]
    refine ⟨(fun x => by cases x), fun x => ?_⟩
    have hM := hm.mpr x.2.2.2.1
    rcases h2 with h2 | h2
    · rw [hinit x.2.2.2.1] at h2; cases h2
    · exact absurd h2 hM.1
  | wrong h1 h2 h3 h4 h5 h6 h7 h8 _ =>
    rw [h8]
    exact ⟨(fun x => by cases x), fun x => absurd (hm.mpr x.2.2.2.1) h7⟩
  | right h1 h2 h3 h4 h5 h6 h7 h8 _ =>
    rw [h8]
    exact ⟨fun x => ⟨ho, h1.1, h1.2, hm.mp h7, hno.mpr h2, h3, fun a k b => h4 a ⟨k, b⟩, x⟩, fun x => x.2.2.2.2.2.2.2⟩

/-- C10, from any state in which the token holds the hashes of the PINs `p`: after any
history, login succeeds exactly if the PIN offered is the one most recently set, nobody is
logged in, the account is not locked, and (security officer) no session is read-only,
(user) the objects can be decrypted. -/
theorem c10_from (e : Env) (hh : HashLen e) {l₀ : Lib} (h₀ : Start l₀) (cs : List Call) (p₀ : Pins)
    (ds : List Call) (h : Nat) (w : Who) (pin : Bytes) (now : Int) :
    let l₁ := run e l₀ cs
    let l := run e l₁ ds
    let p := pinsAfter e l₁ p₀ ds
    Holds e l₁ p₀ → OneLife e l₁ ds → NoCollision e p w pin →
    ((answer e l (loginCall h w pin now)).rv = .ok ↔
      IsOpen e l h ∧ 4 ≤ pin.length ∧ pin.length ≤ 32 ∧ p.of w = some pin ∧ NobodyLoggedIn e l h ∧
      ¬ Locked (w.acct l.token) now ∧ (w = .so → ∀ k, ¬ OpenAs e l k false) ∧
      (w = .user → Decodable e l pin)) := by
  intro l₁ l p hp₀ hlife hnc
  have hi₁ : SInv l₁ := h₀.sinv.run e cs
  have hi : SInv l := hi₁.run e ds
  have hp : Holds e l p := holds_run hi₁ (h₀.linv.run e cs) hp₀ ds hlife
  have hm := matches_iff hh hp w pin hnc
  exact login_ok_iff hi hm (fun x => hp.init (by
    cases w
    · exact .inl (by rw [show p.so = some pin from x]; simp)
    · exact .inr (by rw [show p.user = some pin from x]; simp))) h now

/-- C10, for a token made in this process. -/
theorem c10_login (e : Env) (hh : HashLen e) {l₀ : Lib} (h₀ : Start l₀) (hd : NoToken l₀)
    (ds : List Call) (h : Nat) (w : Who) (pin : Bytes) (now : Int) :
    let l₁ := (step e l₀ .cInit).1
    let l := run e l₁ ds
    let p := pinsAfter e l₁ {} ds
    OneLife e l₁ ds → NoCollision e p w pin →
    ((answer e l (loginCall h w pin now)).rv = .ok ↔
      IsOpen e l h ∧ 4 ≤ pin.length ∧ pin.length ≤ 32 ∧ p.of w = some pin ∧ NobodyLoggedIn e l h ∧
      ¬ Locked (w.acct l.token) now ∧ (w = .so → ∀ k, ¬ OpenAs e l k false) ∧
      (w = .user → Decodable e l pin)) :=
  c10_from e hh h₀ [.cInit] {} ds h w pin now (holds_empty h₀ hd)

/-- C14: `C_InitToken` on an initialised token: it succeeds only if no session is open and
the PIN is the security officer's; otherwise the whole library is as before. -/
theorem c14_guarded (e : Env) (hh : HashLen e) {l₀ : Lib} (h₀ : Start l₀) (cs : List Call) (i : Nat) (q lab : Option Bytes) :
    let l := run e l₀ cs
    let c := Call.slot i (.initToken q lab)
    ((answer e l c).rv ≠ .ok → (step e l c).1 = l) ∧
    ((answer e l c).rv = .ok → l.token.init = true →
      (∀ h, ¬ IsOpen e l h) ∧
      ∃ pin, q = some pin ∧ 4 ≤ pin.length ∧ pin.length ≤ 32 ∧ Matches e l.token.so pin ∧
        ∀ p, Holds e l p → NoCollision e p .so pin → p.so = some pin) := by
  intro l c
  have hi : SInv l := h₀.sinv.run e cs
  cases hb : l.bad with
  | true => rw [answer, step_bad hb]; exact ⟨fun _ => rfl, fun hx => by cases hx⟩
  | false =>
    have hc : ((callBody e l c).2.rv ≠ .ub) ∧ ((callBody e l c).1 = l ∧ (callBody e l c).2.rv ≠ .ok ∨
        ∃ pin, q = some pin ∧ pinLenOk pin = true ∧
          (l.token.init = true → anyInUse l.sessions = false ∧ checkPin e l.token l.token.so pin = .ok) ∧
          (callBody e l c).2.rv = .ok) := by
      simp only [c, callBody]
      split
      · exact ⟨by simp, .inl ⟨rfl, by simp⟩⟩
      split
      · exact ⟨by simp, .inl ⟨rfl, by simp⟩⟩
      simp only [slotCall]
      rcases initToken_spec e l q lab with h | ⟨pin, _, rfl, rfl, h1, h2, h3, _⟩
      · refine ⟨?_, .inl ⟨h.1, h.2.1⟩⟩
        unfold initToken
        repeat' split
        all_goals first | exact pinSet_ub _ | (intro hx; cases hx; done)
      · rw [h3]; exact ⟨by simp, .inr ⟨pin, rfl, h1, h2, rfl⟩⟩
    rw [answer, step_eq hb hc.1]
    rcases hc.2 with hc | ⟨pin, hq, hlen, hg, hok⟩
    · exact ⟨fun _ => hc.1, fun hx => absurd hx hc.2⟩
    · refine ⟨fun hx => absurd hok hx, fun _ hin => ?_⟩
      obtain ⟨g1, g2⟩ := hg hin
      refine ⟨fun h ho => ?_, pin, hq, (pinLenOk_iff.mp hlen).1, (pinLenOk_iff.mp hlen).2, ?_⟩
      · obtain ⟨_, s, hs⟩ := (isOpen_iff hi).mp ho
        obtain ⟨hm, _, hu⟩ := (getSession_iff hi).mp hs
        rw [anyInUse_iff.mpr ⟨s, hm, hu⟩] at g1; cases g1
      · have hM : Matches e l.token.so pin := by
          rcases checkPin_cases e l.token l.token.so pin with ⟨h1, _⟩ | ⟨h1, _⟩ | ⟨_, _, _, h4⟩
          · rw [g2] at h1; cases h1
          · rw [g2] at h1; cases h1
          · exact h4
        exact ⟨hM, fun p hp hnc => (matches_iff hh hp .so pin hnc).mp hM⟩

/-- C14: after a successful `C_InitToken` there is no object and no user PIN, nobody is
logged in, the counters are clear, and the label and the PIN are the new ones. -/
theorem c14_success (e : Env) {l₀ : Lib} (h₀ : Start l₀) (cs : List Call) (i : Nat) (q lab : Option Bytes)
    (now : Int) :
    let l := run e l₀ cs
    let c := Call.slot i (.initToken q lab)
    let l' := (step e l c).1
    (answer e l c).rv = .ok →
    l'.token.objs = [] ∧ l'.token.login = .pub ∧
    (∃ pin lb, q = some pin ∧ lab = some lb ∧ Holds e l' { so := some pin, user := none } ∧
      (answer e l' (.slot 1 (.tokenInfo true now))).info =
        some { label := if (labelOf lb).headD 0 = 0 then List.replicate 32 32 else labelOf lb, tokenInit := true,
               userPinInit := false, soLow := false, soFinal := false, soLocked := false,
               userLow := false, userFinal := false, userLocked := false }) := by
  intro l c l' hok
  cases hb : l.bad with
  | true => rw [answer, step_bad hb] at hok; cases hok
  | false =>
    rw [answer, step_resp hb] at hok
    have hst : step e l c = callBody e l c := step_eq hb (by rw [hok]; simp)
    simp only [c, callBody] at hok hst
    split at hok
    · cases hok
    rename_i hcnt
    split at hok
    · cases hok
    rename_i hid
    simp only [hcnt, hid, if_false, slotCall] at hok hst
    rcases initToken_spec e l q lab with h | ⟨pin, lb, hq, hlab, _, _, _, h2⟩
    · exact absurd hok h.2.1
    · have ht : l'.token = 
          { label := labelOf lb, init := true, so := Account.withPin e {} pin (e.store.rand l.rng 16) } := by
        show (step e l c).1.token = _
        rw [show step e l c = _ from hst, h2]
      refine ⟨by rw [ht], by rw [ht], pin, lb, hq, hlab, ?_, ?_⟩
      · exact ⟨by rw [ht]; rfl, by rw [ht]; rfl, fun _ => by rw [ht]⟩
      · have hl' : l' = (initToken e l q lab).1 := by
          show (step e l c).1 = _
          rw [show step e l c = _ from hst]
        have hcnt' : l'.count = l.count := by rw [hl']; exact (initToken_sessions e l q lab).2.1
        have hb' : l'.bad = false := by
          rw [hl']; unfold initToken pinSet setSoPin Lib.store
          repeat' split
          all_goals exact hb
        rw [answer, step_resp hb']
        have hcnt'' : ¬ l'.count ≤ 0 := by rw [hcnt']; exact hcnt
        simp only [callBody, hcnt'', if_false, slotCall]
        simp [tokenInfo, ht, Account.withPin, maxFails]

/-- The PIN of an account differs between two tokens: it was set (or removed). -/
def PinChanged (w : Who) (t t' : Token) : Prop := ¬ SamePin (w.acct t) (w.acct t')

/-- What a call does to the PINs. -/
inductive PinCase (e : Env) (l : Lib) (c : Call) : Prop
  | same : (∀ w : Who, SamePin (w.acct l.token) (w.acct (step e l c).1.token)) → PinCase e l c
  | initToken (i : Nat) (pin : Bytes) (lab : Option Bytes) : c = .slot i (.initToken (some pin) lab) →
      (answer e l c).rv = .ok → pinLenOk pin = true → PinCase e l c
  | initPin (h : Nat) (pin : Bytes) : c = .sess h (.initPin (some pin)) → stateOf e l h = some .rwSo →
      pinLenOk pin = true → (step e l c).1.token.so = l.token.so → PinCase e l c
  | setSo (h : Nat) (old new : Bytes) : c = .sess h (.setPin (some old) (some new)) →
      stateOf e l h = some .rwSo → Matches e l.token.so old → pinLenOk new = true →
      (step e l c).1.token.user = l.token.user → PinCase e l c
  | setUser (h : Nat) (old new : Bytes) : c = .sess h (.setPin (some old) (some new)) →
      (stateOf e l h = some .rwUser ∨ stateOf e l h = some .rwPublic) → Matches e l.token.user old →
      pinLenOk new = true → (step e l c).1.token.so = l.token.so → PinCase e l c

theorem checkPin_matches {e : Env} {t : Token} {a : Account} {p : Bytes} (h : checkPin e t a p = .ok) :
    Matches e a p := by
  rcases checkPin_cases e t a p with ⟨h1, _⟩ | ⟨h1, _⟩ | ⟨_, _, _, h4⟩
  · rw [h] at h1; cases h1
  · rw [h] at h1; cases h1
  · exact h4

theorem pin_cases {e : Env} {l : Lib} (hi : SInv l) (c : Call) (hn : Initialised e l)
    (hn' : Initialised e (step e l c).1) : PinCase e l c := by
  have hb : l.bad = false := by
    cases hb : l.bad with
    | false => rfl
    | true => rw [Initialised, answer, step_bad hb] at hn; cases hn
  have htok := (step_sessions (e := e) hb c).2.2.1
  have hans : answer e l c = (callBody e l c).2 := step_resp hb c
  have hsame : (∀ w : Who, SamePin (w.acct l.token) (w.acct (callBody e l c).1.token)) → PinCase e l c :=
    fun h => .same (by rw [htok]; exact h)
  have hid : (callBody e l c).1.token = l.token → PinCase e l c :=
    fun h => hsame (fun w => by rw [h]; exact ⟨rfl, rfl⟩)
  by_cases hacc : c.onAccounts = false
  · have hs := sameAcct_callBody e l c hacc
    refine hsame (fun w => ?_)
    cases w
    · simp only [Who.acct, hs.so]; exact ⟨rfl, rfl⟩
    · simp only [Who.acct, hs.user]; exact ⟨rfl, rfl⟩
  cases c with
  | cInit =>
    have h0 : ¬ l.count = 0 := by have := (initialised_iff hb).mp hn; omega
    refine hid ?_
    simp only [callBody, cInitialize, h0, if_false]
  | cFinal =>
    have hb' : (step e l .cFinal).1.bad = false := by
      cases hx : (step e l .cFinal).1.bad with
      | false => rfl
      | true => rw [Initialised, answer, step_bad hx] at hn'; cases hn'
    have hcount := (initialised_iff hb').mp hn'
    rw [(step_sessions (e := e) hb _).2.1] at hcount
    refine hid ?_
    simp only [callBody, cFinalize] at hcount ⊢
    split
    · rename_i h0
      exfalso
      simp only [h0, if_true, Lib.store] at hcount
      omega
    · rfl
  | slot i sc =>
    cases sc with
    | tokenInfo => exact absurd rfl hacc
    | openSession => exact absurd rfl hacc
    | closeAll => exact absurd rfl hacc
    | initToken q lab =>
      simp only [callBody] at hid hans
      split at hid
      · exact hid rfl
      rename_i h1
      split at hid
      · exact hid rfl
      rename_i h2
      simp only [h1, h2, if_false, slotCall] at hans
      rcases initToken_spec e l q lab with h | ⟨pin, lab, rfl, rfl, h3, _, h4, _⟩
      · exact hid (by simp only [slotCall, h.1])
      · exact .initToken i pin _ rfl (by rw [hans, h4]) h3
  | sess k sc =>
    cases hg : getSession l k with
    | none =>
      refine hid ?_
      simp only [callBody, hg]
      split <;> rfl
    | some s =>
      have hcnt : ¬ l.count ≤ 0 := by have := count_pos_of_open hi hg; omega
      have hst := stateOf_eq (e := e) hi hb hg
      simp only [callBody, hcnt, if_false, hg] at hid hsame htok
      cases sc
      case initPin q =>
        rcases initPin_spec e l s q with h | ⟨q, rfl, h1, hso, h⟩
        · exact hid (by simp only [sessCall, h.1])
        · refine .initPin k q rfl (by rw [hst, hso]) h1 ?_
          rw [htok]; simp only [sessCall, h]; rfl
      case setPin o n =>
        rcases setPin_spec e l s o n with h | ⟨o, n, rfl, rfl, _, h0, ⟨h1, h2, h⟩ | ⟨h1, h2, h⟩⟩
        · exact hid (by simp only [sessCall, h.1])
        · refine .setSo k o n rfl (by rw [hst, h1]) (checkPin_matches h2) h0 ?_
          rw [htok]; simp only [sessCall, h]; rfl
        · refine .setUser k o n rfl ?_ (checkPin_matches h2) h0 ?_
          · rw [hst]; rcases h1 with h1 | h1 <;> rw [h1] <;> simp
          · rw [htok]; simp only [sessCall, h]; rfl
      case login u q n =>
        simp only [sessCall, login] at hsame hid
        cases q with
        | none => exact hid rfl
        | some q =>
          dsimp only at hsame hid
          split at hid
          · exact hid rfl
          rename_i hp
          simp only [hp] at hsame
          cases u with
          | so =>
            have := soLogin_acct e l q n
            refine hsame (fun w => ?_)
            cases w
            · exact this.1
            · simp only [Who.acct]; exact this.2.1 ▸ ⟨rfl, rfl⟩
          | user =>
            have := userLogin_acct e l q n
            refine hsame (fun w => ?_)
            cases w
            · simp only [Who.acct]; exact this.2.1 ▸ ⟨rfl, rfl⟩
            · exact this.1
          | contextSpecific => exact hid rfl
          | other => exact hid rfl
      all_goals exact absurd rfl hacc

/-- C16: the security officer's PIN changes only through a successful `C_InitToken`, or
`C_SetPIN` in a session in which the security officer is logged in, with the old PIN; the
new PIN has 4 to 32 bytes. -/
theorem c16_so (e : Env) {l₀ : Lib} (h₀ : Start l₀) (cs : List Call) (c : Call) :
    let l := run e l₀ cs
    let l' := (step e l c).1
    Initialised e l → Initialised e l' → PinChanged .so l.token l'.token →
    (∃ i pin lab, c = .slot i (.initToken (some pin) lab) ∧ (answer e l c).rv = .ok ∧
      4 ≤ pin.length ∧ pin.length ≤ 32) ∨
    (∃ h old new, c = .sess h (.setPin (some old) (some new)) ∧ stateOf e l h = some .rwSo ∧
      Matches e l.token.so old ∧ 4 ≤ new.length ∧ new.length ≤ 32) := by
  intro l l' hn hn' hch
  cases pin_cases (h₀.sinv.run e cs) c hn hn' with
  | same h => exact absurd (h .so) hch
  | initToken i pin lab h1 h2 h3 => exact .inl ⟨i, pin, lab, h1, h2, pinLenOk_iff.mp h3⟩
  | initPin _ _ _ _ _ h => exact absurd (SamePin.of_eq h) hch
  | setSo h old new h1 h2 h3 h4 _ => exact .inr ⟨h, old, new, h1, h2, h3, pinLenOk_iff.mp h4⟩
  | setUser _ _ _ _ _ _ _ h => exact absurd (SamePin.of_eq h) hch

/-- C16: the user's PIN changes only through `C_InitPIN` in a session in which the security
officer is logged in, `C_SetPIN` in a read/write session without the security officer, with
the old PIN, or a successful `C_InitToken`, which removes it; the new PIN has 4 to 32
bytes. -/
theorem c16_user (e : Env) {l₀ : Lib} (h₀ : Start l₀) (cs : List Call) (c : Call) :
    let l := run e l₀ cs
    let l' := (step e l c).1
    Initialised e l → Initialised e l' → PinChanged .user l.token l'.token →
    (∃ i pin lab, c = .slot i (.initToken (some pin) lab) ∧ (answer e l c).rv = .ok ∧ l'.token.user.pin = []) ∨
    (∃ h new, c = .sess h (.initPin (some new)) ∧ stateOf e l h = some .rwSo ∧
      4 ≤ new.length ∧ new.length ≤ 32) ∨
    (∃ h old new, c = .sess h (.setPin (some old) (some new)) ∧
      (stateOf e l h = some .rwUser ∨ stateOf e l h = some .rwPublic) ∧
      Matches e l.token.user old ∧ 4 ≤ new.length ∧ new.length ≤ 32) := by
  intro l l' hn hn' hch
  cases pin_cases (h₀.sinv.run e cs) c hn hn' with
  | same h => exact absurd (h .user) hch
  | initToken i pin lab h1 h2 h3 =>
    refine .inl ⟨i, pin, lab, h1, h2, ?_⟩
    subst h1
    obtain ⟨_, _, _, _, _, _, h, _⟩ := c14_success e h₀ cs i (some pin) lab 0 h2
    exact h.user
  | initPin h pin h1 h2 h3 _ => exact .inr (.inl ⟨h, pin, h1, h2, pinLenOk_iff.mp h3⟩)
  | setSo _ _ _ _ _ _ _ h => exact absurd (SamePin.of_eq h) hch
  | setUser h old new h1 h2 h3 h4 _ => exact .inr (.inr ⟨h, old, new, h1, h2, h3, pinLenOk_iff.mp h4⟩)

/-- C15, the part that holds: every wrong PIN offered to `C_Login` and looked at is counted
(until the account is locked).  Missing: wrong PINs offered to `C_SetPIN` and
`C_InitToken`. -/
theorem c15_partial (e : Env) {l₀ : Lib} (h₀ : Start l₀) (cs : List Call) (w : Who) (c : Call) :
    let l := run e l₀ cs
    Sane w (w.acct l.token) → WrongGuess e l w c →
    (w.acct (step e l c).1.token).fails = (if (w.acct l.token).fails = 3 then 1 else (w.acct l.token).fails + 1) := by
  intro l hs hw
  have hi : SInv l := h₀.sinv.run e cs
  have hb := wrongGuess_good hi hw
  obtain ⟨pin, now, ⟨h, rfl, ho, h1, h2, h3, h4, h5, h6⟩, h7⟩ := hw
  have hu : (unlocked (w.acct l.token)).fails + 1 =
      (if (w.acct l.token).fails = 3 then 1 else (w.acct l.token).fails + 1) := by
    unfold unlocked; split <;> simp
  rw [(step_sessions (e := e) hb _).2.2.1, ← hu]
  cases login_cases hi hb ho w pin now with
  | badLen h _ => exact absurd h6 h
  | already h _ => exact absurd h1 h
  | locked h _ => exact absurd h h2
  | readOnly _ h h' _ _ => exact absurd h'.choose_spec (h3 h _)
  | notSet _ h _ _ =>
    rcases h with h | h
    · rw [h4] at h; cases h
    · exact absurd h h5
  | wrong _ _ _ _ _ _ _ _ h8 => rw [h8]; exact (failed_eq ..).1
  | right _ _ _ _ _ _ h _ _ => exact absurd h h7

/-- Repeating one call. -/
theorem run_replicate {e : Env} {l : Lib} {c : Call} (h : (step e l c).1 = l) (n : Nat) :
    run e l (List.replicate n c) = l := by
  induction n with
  | zero => rfl
  | succ n ih => rw [List.replicate_succ, run, h, ih]

/-- C15 is violated: whatever the number `n` of wrong PINs offered to `C_SetPIN` in a session
in which nobody is logged in, each is looked at and refused with `CKR_PIN_INCORRECT`, none is
counted, and the right PIN is then accepted by `C_Login`. -/
theorem c15_violated : ∃ (e : Env) (l : Lib) (cs : List Call), Start l ∧
    ∀ n, let guess := Call.sess 65538 (.setPin (some [9, 9, 9, 9]) (some [1, 1, 1, 1]))
      let l' := run e (run e l cs) (List.replicate n guess)
      (answer e l' guess).rv = .pinIncorrect ∧
      ((answer e l' (.slot 1 (.tokenInfo true 0))).info.map (·.userLow)) = some false ∧
      (answer e l' (loginCall 65538 .user Demo.userPin 0)).rv = .ok := by
  refine ⟨Demo.env, Demo.fresh, Demo.setup ++ [.sess 65538 .logout], Demo.fresh_start, fun n => ?_⟩
  have hs : (step Demo.env Demo.ready (.sess 65538 (.setPin (some [9, 9, 9, 9]) (some [1, 1, 1, 1])))).1 = Demo.ready := by
    rw [step_eq (by decide) (by decide)]
    rfl
  dsimp only
  rw [show run Demo.env Demo.fresh (Demo.setup ++ [.sess 65538 .logout]) = Demo.ready from rfl,
    run_replicate hs]
  decide

/-- C62: the flags of `C_GetTokenInfo`. -/
theorem c62_flags (e : Env) {l₀ : Lib} (h₀ : Start l₀) (cs : List Call) (now : Int) :
    let l := run e l₀ cs
    Initialised e l → ∃ i, (answer e l (.slot 1 (.tokenInfo true now))).info = some i ∧
      (i.tokenInit = true ↔ l.token.init = true) ∧
      (i.userPinInit = true ↔ l.token.user.pin ≠ []) ∧
      (i.soLow = true ↔ 0 < l.token.so.fails) ∧ (i.userLow = true ↔ 0 < l.token.user.fails) ∧
      (i.soFinal = true ↔ l.token.so.fails = 2) ∧ (i.userFinal = true ↔ l.token.user.fails = 2) ∧
      (i.soLocked = true → Locked l.token.so now) ∧ (i.userLocked = true → Locked l.token.user now) := by
  intro l hn
  have hb : l.bad = false := by
    cases hb : l.bad with
    | false => rfl
    | true => rw [Initialised, answer, step_bad hb] at hn; cases hn
  have hc : ¬ l.count ≤ 0 := by have := (initialised_iff hb).mp hn; omega
  refine ⟨tokenInfo l now, ?_, ?_⟩
  · rw [answer, step_resp hb]
    simp [callBody, hc, slotCall]
  · have hm : maxFails = 3 := rfl
    have hlk : ∀ a : Account, decide (a.fails = maxFails ∧ now < a.last + a.timeout) = true → Locked a now := by
      intro a h
      have h := of_decide_eq_true h
      rw [hm] at h
      exact ⟨h.1, by omega⟩
    have hft : ∀ a : Account, decide (a.fails = maxFails - 1) = true ↔ a.fails = 2 := by
      intro a
      rw [decide_eq_true_iff, hm]; omega
    refine ⟨Iff.rfl, ?_, decide_eq_true_iff, decide_eq_true_iff, hft _, hft _, hlk _, hlk _⟩
    simp only [tokenInfo]
    cases l.token.user.pin <;> simp

/-- C62: the flags and the PINs that were set, for a token made in this process. -/
theorem c62_pins (e : Env) (hh : HashLen e) {l₀ : Lib} (h₀ : Start l₀) (hd : NoToken l₀) (ds : List Call)
    (now : Int) :
    let l₁ := (step e l₀ .cInit).1
    let l := run e l₁ ds
    let p := pinsAfter e l₁ {} ds
    OneLife e l₁ ds →
    ((answer e l (.slot 1 (.tokenInfo true now))).info.map (·.userPinInit)) = some p.user.isSome := by
  intro l₁ l p hlife
  have hp : Holds e l p := holds_run (h₀.sinv.step e _) (h₀.linv.step e _) (holds_empty h₀ hd) ds hlife
  have hn : Initialised e l := by
    show Initialised e (run e l₁ ds)
    clear hp p
    revert hlife
    generalize l₁ = l₁
    intro hlife
    induction ds generalizing l₁ with
    | nil => exact hlife
    | cons c ds ih => exact ih _ hlife.2
  obtain ⟨i, hi, _, hu, _⟩ := c62_flags e h₀ (.cInit :: ds) now hn
  show (answer e (run e l₀ (.cInit :: ds)) _).info.map _ = _
  rw [hi]
  simp only [Option.map_some, Option.some.injEq]
  have hu' : i.userPinInit = true ↔ p.user.isSome = true := by
    rw [hu]
    show l.token.user.pin ≠ [] ↔ _
    rw [hp.user]
    cases p.user with
    | none => simp
    | some q => simpa using hash_ne_nil hh _ _
  cases h1 : i.userPinInit <;> cases h2 : p.user.isSome <;> simp_all

/-- C62: the flags and the wrong PINs offered since the counters were clear. -/
theorem c62_tries (e : Env) {l₀ : Lib} (h₀ : Start l₀) (cs ds : List Call) (now : Int) :
    let l := run e l₀ cs
    let l' := run e l ds
    l.token.user.fails = 0 → NoClear e .user l ds → wrongGuesses e .user l ds ≤ 2 → Initialised e l' →
    ∃ i, (answer e l' (.slot 1 (.tokenInfo true now))).info = some i ∧
      (i.userLow = true ↔ 0 < wrongGuesses e .user l ds) ∧
      (i.userFinal = true ↔ wrongGuesses e .user l ds = 2) ∧ i.userLocked = false := by
  intro l l' h0 hn hw hn'
  have hf := (fails_count (w := .user) ds l (h₀.sinv.run e cs) (by simp [Who.acct, h0])
    (by simp only [Who.acct, h0]; omega) hn).1
  simp only [Who.acct, h0] at hf
  obtain ⟨i, hi, _, _, _, h1, _, h2, _, h3⟩ := c62_flags e h₀ (cs ++ ds) now (by rw [run_append]; exact hn')
  rw [run_append] at hi h1 h2 h3
  refine ⟨i, hi, ?_, ?_, ?_⟩
  · rw [h1, hf]; omega
  · rw [h2, hf]; omega
  · cases hl : i.userLocked with
    | false => rfl
    | true =>
      have := (h3 hl).1
      rw [hf] at this; omega

/-! The demonstration token meets the hypotheses. -/

example : HashLen Demo.env := by intro p s; simp [Demo.env, Demo.store]

example : NoToken Demo.fresh := fun _ => rfl

theorem Demo.noCollision (p : Pins) (w : Who) (pin : Bytes) (hl : pin.length ≤ 30)
    (hp : ∀ q, p.of w = some q → q.length ≤ 30) : NoCollision Demo.env p w pin := by
  intro q s hq h
  have hq := hp q hq
  simp only [Demo.env, Demo.store, List.cons_append, List.nil_append, List.take_succ_cons,
    List.cons.injEq, true_and] at h
  have hlen : pin.length = q.length := by
    have := congrArg UInt8.toNat h.1
    simp only [UInt8.toNat_ofNat'] at this
    omega
  have h2 := congrArg (List.take pin.length) h.2
  rw [List.take_take, List.take_take, Nat.min_eq_left hl, List.take_append_of_le_length (by omega),
    List.take_append_of_le_length (by omega), List.take_length, hlen, List.take_length] at h2
  exact h2

example : OneLife Demo.env (step Demo.env Demo.fresh .cInit).1 (Demo.setup.drop 1) := by
  simp only [OneLife, Demo.setup, List.drop, Initialised]
  decide

example : pinsAfter Demo.env (step Demo.env Demo.fresh .cInit).1 {} (Demo.setup.drop 1) =
    { so := some Demo.soPin, user := some Demo.userPin } := by decide

end Verif
