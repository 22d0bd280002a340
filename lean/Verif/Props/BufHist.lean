import Verif.Spec.BufHist
import Verif.Proofs.Fit
import Verif.Proofs.Run
import Verif.Props.Begun

/-!
# C45 for histories of the whole interface
-/

namespace Verif

variable {e : Env}

theorem Refused.respects {s : OpSt} {r : OpSt × Out} (h : Refused s r) (ob : OutBuf) : Respects ob r.2 := by
  obtain ⟨_, h2, h3, h4⟩ := h
  cases ob with
  | buf n =>
    refine ⟨by rw [h2]; exact Nat.zero_le _, fun hk => ?_, fun _ => h2⟩
    rw [hk] at h4
    simp at h4
  | query n => exact h2
  | noLen => exact h2

/-- Nothing is written and the call fails. -/
def QuietOut (r : OpSt × Out) : Prop := r.2.wr = [] ∧ r.2.rv ≠ .ok

theorem quietOut_withArgs {s : OpSt} {curr : Option Obj} {d : Option Bytes} {ob : OutBuf}
    {f : Obj → Bytes → OpSt × Out} (h : ∀ o d, QuietOut (f o d)) : QuietOut (withArgs s curr d ob f) := by
  unfold withArgs
  repeat' split
  all_goals first | exact h _ _ | exact ⟨rfl, by simp⟩

theorem quietOut_needInit {s : OpSt} {i : OpInit} {k : OpSt × Out} (h : s.init ≠ i) : QuietOut (needInit s i k) := by
  unfold needInit
  rw [if_neg h]
  split <;> exact ⟨rfl, by simp⟩

theorem run_notCbc (x : Crypto) {s : OpSt} (hm : s.mech = .aesCbc ∨ s.mech = .aesCbcPad) (hi : ¬ s.init.IsCbc)
    (curr : Option Obj) (c : DataCall) : QuietOut (c.run x s curr) := by
  have g1 : s.init ≠ .aesCbcEnc := fun h => hi (.inl h)
  have g2 : s.init ≠ .aesCbcDec := fun h => hi (.inr (.inl h))
  have g3 : s.init ≠ .aesCbcPadEnc := fun h => hi (.inr (.inr (.inl h)))
  have g4 : s.init ≠ .aesCbcPadDec := fun h => hi (.inr (.inr (.inr h)))
  rcases hm with hm | hm <;> cases c <;> simp only [DataCall.run, encrypt, encryptUpdate, encryptFinal, decrypt, decryptUpdate,
    decryptFinal, sign, signUpdate, macUpdate, signFinal, verify, verifyUpdate, verifyFinal, hm]
  all_goals (try split)
  all_goals first
    | exact ⟨rfl, by simp⟩
    | (apply quietOut_withArgs; intro o d
       first
        | exact ⟨rfl, by simp⟩
        | exact quietOut_needInit g1 | exact quietOut_needInit g2 | exact quietOut_needInit g3 | exact quietOut_needInit g4)

theorem respects_run {x : Crypto} (hx : x.aes.Lawful) {s : OpSt} (hs : s.Fit) (hm : s.mech = .aesCbc ∨ s.mech = .aesCbcPad)
    (curr : Option Obj) (c : DataCall) (hc : ¬ c.Unchecked s.mech) :
    Respects c.buf (c.run x s curr).2 := by
  have hbad : ∀ ob : OutBuf, ∀ r, r ≠ .ok → Respects ob { rv := r } := by
    intro ob r hr
    cases ob
    · rfl
    · rfl
    · exact ⟨Nat.zero_le _, fun h => absurd h hr, fun _ => rfl⟩
  cases curr with
  | none => exact (run_noKey x s c).respects _
  | some o =>
  by_cases hk : s.init.kind = some c.kind
  case neg => exact (run_refused x s (some o) c hk).respects _
  by_cases hi : s.init.IsCbc
  · have hg := hs.key hi
    have hr : CbcReady s := ⟨hg.ok.part, hg.ok.sz, hg.reg, hg.key⟩
    have key := fun d ob rnd => c45_cbc_buffers_partial x hx s o d ob rnd hr
    cases c with
    | encrypt d ob rnd =>
      cases d with
      | none => exact hbad _ _ (by simp)
      | some d =>
        unfold DataCall.Unchecked at hc
        rw [not_or] at hc
        have h16 : d.length % 16 = 0 := Decidable.byContradiction fun h => hc.2 ⟨d, rfl, h⟩
        exact (key d ob rnd).2.2.1 (hm.resolve_right hc.1) h16
    | encryptUpdate d ob =>
      cases d with
      | none => exact hbad _ _ (by simp)
      | some d => exact ((key d ob 0).1 hm).1
    | encryptFinal ob => exact ((key [] ob 0).2.1 (hm.resolve_right hc)).1
    | decrypt d ob rnd =>
      cases d with
      | none => exact hbad _ _ (by simp)
      | some d => exact (key d ob rnd).2.2.2 (hm.resolve_right hc)
    | decryptUpdate d ob =>
      cases d with
      | none => exact hbad _ _ (by simp)
      | some d => exact ((key d ob 0).1 hm).2
    | decryptFinal ob => exact ((key [] ob 0).2.1 (hm.resolve_right hc)).2
    | _ =>
      rcases hi with h | h | h | h <;> rw [h] at hk <;> cases hk
  · obtain ⟨h1, h2⟩ := run_notCbc x hm hi (some o) c
    cases c.buf
    · exact h1
    · exact h1
    · exact ⟨by rw [h1]; exact Nat.zero_le _, fun h => absurd h h2, fun _ => h1⟩

/-- **C45** for histories of the whole interface (partial).  Whatever happened before in any session, a data
call of an AES-CBC operation never writes more bytes than the buffer has, and after `CKR_OK` reports the
number of bytes written.
Missing: the calls of `DataCall.Unchecked`, where the code is wrong (`c45_violated_*`). -/
theorem c45_history_partial (hx : e.crypto.aes.Lawful) {l₀ : Lib} (h₀ : Start l₀) (cs : List Call) (h : Nat) {st : OpSt}
    (hop : operation (run e l₀ cs) h = some st) (hm : st.mech = .aesCbc ∨ st.mech = .aesCbcPad) (d : DataCall)
    (hd : ¬ d.Unchecked st.mech) {out : Out} (ho : (answer e (run e l₀ cs) (.sess h (.crypt d))).out = some out) :
    Respects d.buf out := by
  have hi := h₀.sinv.run e cs
  have hf : AllFit (run e l₀ cs) := AllOps.run h₀.allOps (fit_keeps hx) cs
  generalize run e l₀ cs = l at *
  unfold answer at ho
  cases hb : l.bad with
  | true => rw [step_bad hb] at ho; cases ho
  | false =>
  rw [step_resp hb] at ho
  by_cases hc0 : l.count ≤ 0
  · simp only [callBody, if_pos hc0] at ho; cases ho
  cases hs : getSession l h with
  | none => simp only [callBody, if_neg hc0, hs] at ho; cases ho
  | some s =>
    simp only [callBody, if_neg hc0, hs, sessCall, cCrypt] at ho
    obtain ⟨hsj, _, hsm⟩ := getSession_handle hs
    have hst : s.op = st := by
      unfold operation at hop
      rw [(find_iff hi.nodup).mpr ⟨hsm, hsj⟩] at hop
      exact Option.some.inj hop
    have hsf := hf s hsm
    rw [hst] at ho hsf
    split at ho
    · cases ho; exact respects_run hx hsf hm _ d hd
    · cases ho; exact respects_run hx hsf hm _ d hd
    · split at ho
      · cases ho; exact respects_run hx hsf hm _ d hd
      · cases ho

/-- A session in which an encryption was abandoned with five bytes buffered, and another begun. -/
def Demo.leftOpen : List Call := Demo.setup ++ [createCall 65538 (Demo.aesTmpl false 1),
  .sess 65538 (.cryptInit .encrypt (some (.aesCbcPad, .raw Demo.iv)) 1),
  .sess 65538 (.crypt (.encryptUpdate (some [1, 2, 3, 4, 5]) (.buf 16))),
  .sess 65538 (.cryptInit .decrypt (some (.aesCbc, .raw Demo.iv)) 1)]

set_option maxRecDepth 20000 in
/-- Non-vacuity of `c45_history_partial`: 16 bytes are wanted, more bytes than are passed in. -/
example :
    let l := run Demo.env Demo.fresh Demo.leftOpen
    Demo.env.crypto.aes.Lawful ∧ (operation l 65538).map (·.mech) = some .aesCbc ∧
    (answer Demo.env l (.sess 65538 (.crypt (.decryptUpdate (some (List.replicate 11 7)) (.buf 16))))).out.map
      (fun o => (o.rv, o.wr.length, o.len)) = some (.ok, 16, some 16) ∧
    (answer Demo.env l (.sess 65538 (.crypt (.decryptUpdate (some (List.replicate 11 7)) (.buf 15))))).out =
      some { rv := .bufferTooSmall } := by
  refine ⟨Demo.aes_lawful, by decide, by decide, by decide⟩

end Verif
