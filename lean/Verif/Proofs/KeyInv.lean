import Verif.Proofs.PinStep

/-!
# The storage key while the user is logged in
-/

namespace Verif

variable {e : Env}

/-- `q` is a PIN of allowed length whose hash the user's account holds, and the storage
key is derived from it. -/
def KeyOf (e : Env) (t : Token) (q : Bytes) : Prop :=
  pinLenOk q = true ∧ Matches e t.user q ∧ t.key = e.store.hash q t.seed

/-- While the user is logged in the storage key is derived from the user's PIN. -/
def KInv (e : Env) (l : Lib) : Prop := l.token.login = .user → ∃ q, KeyOf e l.token q

theorem KeyOf.same {t t' : Token} {q : Bytes} (h : KeyOf e t q) (h1 : SamePin t.user t'.user)
    (h2 : t'.seed = t.seed) (h3 : t'.key = t.key) : KeyOf e t' q :=
  ⟨h.1, (matches_same h1 q).mpr h.2.1, by rw [h2, h3]; exact h.2.2⟩

theorem KInv.tframe {l l' : Lib} (h : KInv e l) (hf : TFrame l l') : KInv e l' := by
  intro hx
  rw [hf.login] at hx
  obtain ⟨q, hq⟩ := h hx
  exact ⟨q, hq.same (by rw [hf.user]; exact ⟨rfl, rfl⟩) hf.seed hf.key⟩

theorem KInv.setUser (hh : HashLen e) (l : Lib) {p : Bytes} (hp : pinLenOk p = true) : KInv e (setUserPin e l p).1 := by
  intro _
  refine ⟨p, hp, ?_, rfl⟩
  show Matches e (l.token.user.withPin e p (e.store.rand l.rng 16)) p
  have := hh p (e.store.rand l.rng 16)
  refine ⟨fun hx => ?_, List.take_length⟩
  have hx : e.store.hash p (e.store.rand l.rng 16) = [] := hx
  rw [hx] at this; cases this

theorem KInv.soLogin {l : Lib} (h : KInv e l) (pin : Bytes) (now : Int) : KInv e (soLogin e l pin now).1 := by
  unfold Verif.soLogin
  split
  · exact h
  rename_i hl
  have hl : l.token.login = .pub := by simpa using hl
  split
  · exact h
  dsimp only
  split
  · intro hx
    have hx : l.token.login = .user := hx
    rw [hl] at hx; cases hx
  split
  · intro hx
    have hx : l.token.login = .user := hx
    rw [hl] at hx; cases hx
  · intro hx
    have hx : l.token.login = .user := hx
    rw [hl] at hx; cases hx
  · intro hx; cases hx

theorem KInv.userLogin {l : Lib} (h : KInv e l) {pin : Bytes} (hp : pinLenOk pin = true) (now : Int) :
    KInv e (userLogin e l pin now).1 := by
  unfold Verif.userLogin
  split
  · exact h
  rename_i hl
  have hl : l.token.login = .pub := by simpa using hl
  split
  · exact h
  rename_i a ha
  have ha := samePin_lockCheck ha
  split
  · intro hx
    have hx : l.token.login = .user := hx
    rw [hl] at hx; cases hx
  · intro hx
    have hx : l.token.login = .user := hx
    rw [hl] at hx; cases hx
  · rename_i hc
    have hm : Matches e a pin := by
      rcases checkPin_cases e l.token a pin with h | h | h
      · rw [hc] at h; cases h.1
      · rw [hc] at h; cases h.1
      · exact h.2.2.2
    dsimp only
    split
    · intro _; exact ⟨pin, hp, hm, rfl⟩
    · intro hx
      have hx : l.token.login = .user := hx
      rw [hl] at hx; cases hx
    · intro hx
      have hx : l.token.login = .user := hx
      rw [hl] at hx; cases hx

theorem KInv.callBody (hh : HashLen e) {l : Lib} (h : KInv e l) (c : Call) : KInv e (callBody e l c).1 := by
  cases c with
  | cInit =>
    simp only [Verif.callBody, cInitialize]
    split
    · intro hx
      have : (loadToken e.store l.disk l.uid).login = .user := hx
      rw [loadToken_login] at this; cases this
    · exact h
  | cFinal =>
    simp only [Verif.callBody, cFinalize]
    split
    · intro hx; cases hx
    · exact h
  | slot id sc =>
    simp only [Verif.callBody]
    split; · exact h
    split; · exact h
    cases sc with
    | initToken p lab =>
      simp only [slotCall]
      rcases initToken_spec e l p lab with h' | ⟨_, _, _, _, _, _, _, h'⟩
      · rw [h'.1]; exact h
      · intro hx; rw [h'] at hx; cases hx
    | tokenInfo => simp only [slotCall]; split <;> exact h
    | closeAll => exact h
    | openSession =>
      simp only [slotCall, openSession]
      repeat' split
      all_goals exact h
  | sess k sc =>
    simp only [Verif.callBody]
    split; · exact h
    split; · exact h
    rename_i t _
    cases sc
    case close =>
      simp only [sessCall, closeSession]
      split
      · exact h
      · intro hx; cases hx
    case login u pin now =>
      simp only [sessCall, login]
      split
      · exact h
      split
      · exact h
      rename_i q hp
      have hp : pinLenOk q = true := by simpa using hp
      split
      · exact h.soLogin _ _
      · exact h.userLogin hp _
      · exact h
      · exact h
    case logout => intro hx; cases hx
    case initPin p =>
      simp only [sessCall]
      rcases initPin_spec e l t p with h' | ⟨_, _, h1, _, h'⟩
      · rw [h'.1]; exact h
      · rw [h']; exact KInv.setUser hh l h1
    case setPin o n =>
      simp only [sessCall]
      rcases setPin_spec e l t o n with h' | ⟨_, _, _, _, _, h2, ⟨_, _, h'⟩ | ⟨_, _, h'⟩⟩
      · rw [h'.1]; exact h
      · rw [h']; exact h
      · rw [h']; exact KInv.setUser hh l h2
    all_goals
      refine KInv.tframe h (tframe_sessCall e l t _ ?_)
      rfl

theorem KInv.step (hh : HashLen e) {l : Lib} (h : KInv e l) (c : Call) : KInv e (step e l c).1 := by
  cases hb : l.bad with
  | true => rw [step_bad hb]; exact h
  | false =>
    unfold KInv
    rw [(step_sessions (e := e) hb c).2.2.1]
    exact h.callBody hh c

theorem KInv.run (hh : HashLen e) {l : Lib} (h : KInv e l) (cs : List Call) : KInv e (run e l cs) := by
  induction cs generalizing l with
  | nil => exact h
  | cons c cs ih => exact ih (h.step hh c)

theorem Start.kinv {l : Lib} (h : Start l) : KInv e l := by
  intro hx; rw [h.token] at hx; cases hx

end Verif
