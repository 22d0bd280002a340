import Verif.Spec.OneMessage
import Verif.Props.Begun

/-!
# C48 for histories of the whole interface
-/

namespace Verif

variable {e : Env}

theorem begun_noInit {h : Nat} (cs : List Call) : ∀ {l : Lib},
    (∀ cs₁ c cs₂, cs = cs₁ ++ c :: cs₂ → ¬ InitOk e (run e l cs₁) h c) → begun e h l cs none = none := by
  induction cs with
  | nil => intro l _; rfl
  | cons c cs ih =>
    intro l hn
    have h1 : noted e h l none c = none := by
      unfold noted
      split
      · refine initSeen_keep fun k m p key hc hok => hn [] c cs rfl ⟨hok, k, m, p, key, hc⟩
      · rfl
    show begun e h (step e l c).1 cs (noted e h l none c) = none
    rw [h1]
    exact ih fun cs₁ d cs₂ hc => hn (c :: cs₁) d cs₂ (by rw [hc]; rfl)

/-- The data call that ends a message ends the operation. -/
theorem ends_none (x : Crypto) (s : OpSt) (o : Obj) (c : DataCall)
    (hm : s.mech = .aesCbc ∨ s.mech = .aesCbcPad ∨ ∃ a, s.mech = .hmac a)
    (hc : match c with
      | .encryptUpdate .. | .decryptUpdate .. | .signUpdate .. | .verifyUpdate .. => False
      | .verify .. | .verifyFinal .. => (c.run x s (some o)).2.rv = .ok ∨
          (c.run x s (some o)).2.rv = .signatureInvalid
      | _ => (c.run x s (some o)).2.rv = .ok ∧ ∃ n, c.buf = .buf n) :
    (c.run x s (some o)).1.init = .none := by
  have f1 : ∀ (s : OpSt) r, (finish s r).1 = s := by intro s r; cases r <;> rfl
  have f2 : ∀ (s : OpSt) n r, (finishSig s n r).1 = s := by intro s n r; cases r <;> rfl
  have f3 : ∀ (s : OpSt) r, (finishVerify s r).1 = s := by
    intro s r; cases r with
    | none => rfl
    | some b => cases b <;> rfl
  have f4 : ∀ (s : OpSt) r, (finish s r).2.rv = .ok ↔ ∃ w, r = some w := by intro s r; cases r <;> simp [finish]
  have f5 : ∀ d w, (s.cbc.padDecrypt x.aes d).1 = some w → (s.cbc.padDecrypt x.aes d).2.2 = true := by
    intro d w; unfold Cbc.padDecrypt; split <;> simp
  have f6 : ∀ ob, (∃ n, ob = .buf n) → (cbcFinal s ob).1.init = .none := by
    rintro _ ⟨n, rfl⟩; unfold cbcFinal; split <;> rfl
  rcases hm with hm | hm | ⟨a, hm⟩ <;> cases c <;>
    simp only [DataCall.run, DataCall.buf, encrypt, encryptFinal, decrypt,
      decryptFinal, sign, signFinal, verify, verifyFinal, withArgs, needInit, sized, hm] at hc ⊢ <;>
    (repeat' split) <;> simp_all
  all_goals first
    | (obtain ⟨_, n, rfl⟩ := hc; exact f6 _ n rfl)
    | (obtain ⟨w, hw⟩ := hc
       have := f5 _ _ hw
       simp_all)

theorem MessageEnds.cases {l : Lib} {h : Nat} {c : DataCall} (hc : MessageEnds e l h c) :
    (answer e l (.sess h (.crypt c))).rv = .ok ∨ (answer e l (.sess h (.crypt c))).rv = .signatureInvalid := by
  unfold MessageEnds at hc
  split at hc <;> first | exact hc.elim | exact hc | exact .inl hc.1

/-- **C48** for histories of the whole interface (partial).  Whatever happened before: once a data call of AES-CBC,
AES-CBC-PAD or HMAC has delivered its result, every further data call of the session is refused -- nothing is written
-- until an Init in that session succeeds, whatever calls come between, in this session or others.
Missing: AES-GCM, RSA and ECDSA (`c48_violated_*`), and sessions in which `C_WrapKey` answered the length or that the
buffer is too small (`c53_violated`). -/
theorem c48_history_partial (hx : e.crypto.aes.Lawful) {l₀ : Lib} (h₀ : Start l₀) (cs : List Call) (h : Nat) {st : OpSt}
    (hop : operation (run e l₀ cs) h = some st) (hm : st.mech = .aesCbc ∨ st.mech = .aesCbcPad ∨ ∃ a, st.mech = .hmac a)
    {c : DataCall} (hc : MessageEnds e (run e l₀ cs) h c) (cs' : List Call)
    (hn : ∀ cs₁ d cs₂, cs' = cs₁ ++ d :: cs₂ →
      ¬ InitOk e (run e l₀ (cs ++ .sess h (.crypt c) :: cs₁)) h d ∧
      ¬ HalfDone e (run e l₀ (cs ++ .sess h (.crypt c) :: cs₁)) h d) (d : DataCall)
    (hub : (answer e (run e l₀ (cs ++ .sess h (.crypt c) :: cs')) (.sess h (.crypt d))).rv ≠ .ub) :
    DataRefused e (run e l₀ (cs ++ .sess h (.crypt c) :: cs')) h d := by
  have happ : ∀ ds : List Call, run e l₀ (cs ++ .sess h (.crypt c) :: ds) =
      run e (step e (run e l₀ cs) (.sess h (.crypt c))).1 ds := by
    intro ds; rw [run_append]; rfl
  have hi := h₀.sinv.run e cs
  have hf : AllFit (run e l₀ cs) := AllOps.run h₀.allOps (fit_keeps hx) cs
  simp only [happ] at hn hub ⊢
  generalize run e l₀ cs = l at *
  have hi' : SInv (step e l (.sess h (.crypt c))).1 := hi.step e _
  have hf' : AllFit (step e l (.sess h (.crypt c))).1 := hf.step (fit_keeps hx) _
  have hbad' : (run e (step e l (.sess h (.crypt c))).1 cs').bad = false := by
    cases hb : (run e (step e l (.sess h (.crypt c))).1 cs').bad with
    | false => rfl
    | true => unfold answer at hub; rw [step_bad hb] at hub; exact absurd rfl hub
  have hk : OpKnown (step e l (.sess h (.crypt c))).1 h none := by
    refine ⟨fun _ => rfl, fun s' hs' _ k hki => ?_⟩
    exfalso
    obtain ⟨hb, hubc, hst⟩ := step_good (run_good hbad')
    have hrv := hc.cases
    unfold MessageEnds at hc
    unfold answer at hc hrv
    rw [hst] at hc hrv hs'
    by_cases hc0 : l.count ≤ 0
    · rw [show callBody e l (.sess h (.crypt c)) = (l, { rv := .cryptokiNotInitialized }) from by simp [callBody, hc0]] at hrv
      rcases hrv with hrv | hrv <;> cases hrv
    cases hs : getSession l h with
    | none =>
      rw [show callBody e l (.sess h (.crypt c)) = (l, { rv := .sessionHandleInvalid }) from by simp [callBody, hc0, hs]] at hrv
      rcases hrv with hrv | hrv <;> cases hrv
    | some s =>
      have hbody : callBody e l (.sess h (.crypt c)) = cCrypt e l s c := by simp only [callBody, if_neg hc0, hs]; rfl
      obtain ⟨hsj, _, hsm⟩ := getSession_handle hs
      have hst' : st = s.op := by
        unfold operation at hop
        rw [(find_iff hi.nodup).mpr ⟨hsm, hsj⟩] at hop
        cases hop; rfl
      rw [hbody] at hc hrv hs'
      unfold cCrypt at hc hrv hs'
      cases hck : currKey l s with
      | null =>
        rw [hck] at hrv
        obtain ⟨_, _, _, r4⟩ := run_noKey e.crypto s.op c
        dsimp only at hrv
        rcases hrv with hrv | hrv <;> rw [hrv] at r4 <;> simp at r4
      | freed =>
        rw [hck] at hrv
        dsimp only at hrv
        split at hrv <;> rcases hrv with hrv | hrv <;> cases hrv
      | obj o =>
        rw [hck] at hc hs'
        dsimp only at hc hs'
        have hz := ends_none e.crypto s.op o c (hst' ▸ hm) (by cases c <;> exact hc)
        have hs2 : s'.op = (c.run e.crypto s.op (some o)).1 := by
          obtain ⟨g1, _, g2⟩ := getSession_handle hs'
          have g3 : operation (l.upd s.handle fun u => { u with op := (c.run e.crypto s.op (some o)).1 }) h =
              some (c.run e.crypto s.op (some o)).1 := by
            unfold operation Lib.upd
            dsimp only
            rw [hsj, find_map_eq (g := fun u => { u with op := (c.run e.crypto s.op (some o)).1 }) (fun _ => rfl),
              (find_iff hi.nodup).mpr ⟨hsm, hsj⟩]
            rfl
          unfold operation at g3
          have g4 : (step e l (.sess h (.crypt c))).1 =
              (l.upd s.handle fun u => { u with op := (c.run e.crypto s.op (some o)).1 }) := by
            rw [hst, hbody]; unfold cCrypt; rw [hck]
          rw [← g4] at g3 g2
          rw [(find_iff hi'.nodup).mpr ⟨g2, g1⟩] at g3
          exact Option.some.inj g3
        rw [hs2, hz] at hki
        cases hki
  have hk' := OpKnown.run hx cs' hk hi' hf' (fun cs₁ d cs₂ h1 => (hn cs₁ d cs₂ h1).2) hbad'
  rw [begun_noInit cs' fun cs₁ d cs₂ h1 => (hn cs₁ d cs₂ h1).1] at hk'
  refine Classical.byContradiction fun hr => ?_
  obtain ⟨m, key, _, h1, _⟩ := data_known hk' (hi'.run e cs') hbad' d hr hub
  cases h1

namespace Demo

/-- An AES-CBC-PAD encryption that was begun. -/
def padOpen : List Call := setup ++ [createCall 65538 (aesTmpl false 1),
  .sess 65538 (.cryptInit .encrypt (some (.aesCbcPad, .raw iv)) 1)]

/-- The call that ends the message, and calls that come after: another session is opened and begins an encryption. -/
def padWhole : DataCall := .encrypt (some [1, 2, 3]) (.buf 16) 0

def afterPad : List Call := [openCall true, createCall 65537 (aesTmpl false 1),
  .sess 65537 (.cryptInit .encrypt (some (.aesCbc, .raw iv)) 1), .sess 65538 (.info true)]

set_option maxRecDepth 20000 in
/-- Non-vacuity of `c48_history_partial`: the message is encrypted, and a second one is refused later. -/
example : Start fresh ∧ env.crypto.aes.Lawful ∧ (operation (run env fresh padOpen) 65538).map (·.mech) = some .aesCbcPad ∧
    MessageEnds env (run env fresh padOpen) 65538 padWhole ∧
    (operation (run env fresh (padOpen ++ .sess 65538 (.crypt padWhole) :: afterPad)) 65537).map (·.mech) = some .aesCbc ∧
    (answer env (run env fresh (padOpen ++ .sess 65538 (.crypt padWhole) :: afterPad)) (.sess 65538 (.crypt padWhole))).rv =
      .operationNotInitialized := by
  refine ⟨fresh_start, aes_lawful, by decide, ⟨by decide, 16, rfl⟩, by decide, by decide⟩

end Demo

end Verif
