import Verif.Props.Trace
import Verif.Props.Wrap

/-!
# C110: cryptographic operations when memory runs out
-/

namespace Verif

variable {e : Env}

/-- **C110** (partial), for the data calls and `C_WrapKey`: whatever allocations fail, the call
does what it would have done with enough memory, or it is refused and changes nothing at all. -/
theorem c110_data_partial (a : Mem) (l : Lib) (h : Nat) (c : SessCall)
    (hc : (∃ d, c = .crypt d) ∨ ∃ m wk key ob, c = .wrap m wk key ob) :
    stepM e a l (.sess h c) = step e l (.sess h c) ∨
    (((answerM e a l (.sess h c)).rv = .obHostMemory ∨ (answerM e a l (.sess h c)).rv = .functionFailed) ∧
      (stepM e a l (.sess h c)).1 = l) := by
  have key : callBodyM e a l (.sess h c) = callBody e l (.sess h c) ∨
      (((callBodyM e a l (.sess h c)).2.rv = .obHostMemory ∨ (callBodyM e a l (.sess h c)).2.rv = .functionFailed) ∧
        (callBodyM e a l (.sess h c)).1 = l) := by
    simp only [callBodyM, callBody]
    split
    · exact .inl rfl
    cases getSession l h with
    | none => exact .inl rfl
    | some s =>
      dsimp only
      rcases hc with ⟨d, rfl⟩ | ⟨m, wk, key, ob, rfl⟩
      · rcases (cCryptM_good (e := e) l s d a).1 with h | h
        · exact .inl h
        · exact .inr ⟨.inr (congrArg (fun r => r.2.rv) h :), (congrArg (fun r => r.1) h :)⟩
      · rcases (cWrapM_good (e := e) l s m wk key ob a).1 with h | h | h
        · exact .inl h
        · exact .inr ⟨.inl (congrArg (fun r => r.2.rv) h :), (congrArg (fun r => r.1) h :)⟩
        · exact .inr ⟨.inr (congrArg (fun r => r.2.rv) h :), (congrArg (fun r => r.1) h :)⟩
  rcases key with h | ⟨h, h'⟩
  · exact .inl (stepM_eq h)
  · cases hb : l.bad with
    | true => left; rw [stepM_bad hb, step_bad hb]
    | false =>
      unfold answerM
      rw [stepM_good hb (by rcases h with h | h <;> rw [h] <;> exact fun h => by cases h)]
      exact .inr ⟨h, h'⟩

/-- **C110** (partial), for `C_UnwrapKey`: with memory running out it does what it would have done
with enough, or it is refused; then no object is made, and at most the operation of the session,
which the call uses for the decryption, has changed. -/
theorem c110_unwrap_partial (a : Mem) (l : Lib) (h : Nat) (m : Option (Mech × MechParam)) (wk : Nat) (d : Option Bytes)
    (t : Option (List Entry)) (ptr : Bool) :
    let c : Call := .sess h (.unwrap m wk d t ptr)
    stepM e a l c = step e l c ∨
    ((answerM e a l c).rv = .obHostMemory ∧ (stepM e a l c).1 = l) ∨
    (((answerM e a l c).rv = .deviceMemory ∨ (answerM e a l c).rv = .functionFailed) ∧ OnlyOp h l (stepM e a l c).1) := by
  intro c
  have key : callBodyM e a l c = callBody e l c ∨ ((callBodyM e a l c).2.rv = .obHostMemory ∧ (callBodyM e a l c).1 = l) ∨
      (((callBodyM e a l c).2.rv = .deviceMemory ∨ (callBodyM e a l c).2.rv = .functionFailed) ∧ OnlyOp h l (callBodyM e a l c).1) := by
    simp only [callBodyM, callBody, c]
    split
    · exact .inl rfl
    cases hs : getSession l h with
    | none => exact .inl rfl
    | some s =>
      refine (cUnwrapM_good (e := e) l s m wk d t ptr a).1.imp id fun h => h.imp id fun ⟨h1, op, curr, h2⟩ => ⟨h1, ?_⟩
      dsimp only [sessCallM]
      rw [h2]
      exact .of_upd (getSession_handle hs).1 op curr
  rcases key with h | h
  · exact .inl (stepM_eq h)
  · cases hb : l.bad with
    | true => left; rw [stepM_bad hb, step_bad hb]
    | false =>
      unfold answerM
      rw [stepM_good hb (by rcases h with h | h | h <;> simp_all)]
      exact .inr h

/-- Data calls without an operation in progress look only at the mechanism. -/
theorem run_idle (x : Crypto) {s s' : OpSt} (hm : s'.mech = s.mech) (h : s.init = .none) (h' : s'.init = .none)
    (k : Option Obj) (c : DataCall) : (c.run x s' k).2 = (c.run x s k).2 := by
  have ni : ∀ i q q', i ≠ OpInit.none → (needInit s' i q').2 = (needInit s i q).2 := by
    intro i q q' hi
    unfold needInit
    rw [h, h']
    simp only [if_neg (Ne.symm hi)]
    rfl
  have wa : ∀ d ob (f f' : Obj → Bytes → OpSt × Out), (∀ o d, (f' o d).2 = (f o d).2) →
      (withArgs s' k d ob f').2 = (withArgs s k d ob f).2 := by
    intro d ob f f' hf
    unfold withArgs
    cases d with
    | none => rfl
    | some d =>
      dsimp only
      split
      · rfl
      · cases k with
        | none => rfl
        | some o => exact hf o d
  have mu : ∀ i d, i ≠ OpInit.none → (macUpdate s' i k d).2 = (macUpdate s i k d).2 := by
    intro i d hi
    unfold macUpdate
    refine wa _ _ _ _ fun o d => ?_
    rw [hm]
    cases s.mech <;> first | rfl | exact ni _ _ _ hi
  cases c with
  | encrypt d ob r =>
    refine wa _ _ _ _ fun o d => ?_
    rw [hm]
    cases s.mech <;> first | rfl | exact ni _ _ _ (fun h => by cases h)
  | encryptUpdate d ob =>
    refine wa _ _ _ _ fun o d => ?_
    rw [hm]
    cases s.mech <;> first | rfl | exact ni _ _ _ (fun h => by cases h)
  | encryptFinal ob =>
    refine wa _ _ _ _ fun o d => ?_
    rw [hm]
    cases s.mech <;> first | rfl | exact ni _ _ _ (fun h => by cases h)
  | decrypt d ob r =>
    refine wa _ _ _ _ fun o d => ?_
    rw [hm]
    cases s.mech <;> first | rfl | exact ni _ _ _ (fun h => by cases h)
  | decryptUpdate d ob =>
    refine wa _ _ _ _ fun o d => ?_
    rw [hm]
    cases s.mech <;> first | rfl | exact ni _ _ _ (fun h => by cases h)
  | decryptFinal ob =>
    refine wa _ _ _ _ fun o d => ?_
    rw [hm]
    cases s.mech <;> first | rfl | exact ni _ _ _ (fun h => by cases h)
  | sign d ob r =>
    refine wa _ _ _ _ fun o d => ?_
    rw [hm]
    cases s.mech <;> first | rfl | exact ni _ _ _ (fun h => by cases h)
  | signUpdate d => exact mu _ d (fun h => by cases h)
  | signFinal ob =>
    refine wa _ _ _ _ fun o d => ?_
    rw [hm]
    cases s.mech <;> first | rfl | exact ni _ _ _ (fun h => by cases h)
  | verify d sg =>
    cases sg with
    | none => rfl
    | some sg =>
      refine wa _ _ _ _ fun o d => ?_
      rw [hm]
      cases s.mech <;> first | rfl | exact ni _ _ _ (fun h => by cases h)
  | verifyUpdate d => exact mu _ d (fun h => by cases h)
  | verifyFinal sg =>
    refine wa _ _ _ _ fun o d => ?_
    rw [hm]
    cases s.mech <;> first | rfl | exact ni _ _ _ (fun h => by cases h)

/-- An operation is in progress in the session with handle `h`. -/
def Busy (l : Lib) (h : Nat) : Prop := ∃ s, getSession l h = some s ∧ s.op.init ≠ .none

/-- **C110** (partial), for the Init calls: with memory running out the call does what it would have
done with enough, or it is refused with `CKR_MECHANISM_PARAM_INVALID` and at most the operation
state of the session has changed; unless an operation is in progress there, every data call in any
session is then answered as if the call had not been made.
Missing: an operation in progress (`c110_violated_init`). -/
theorem c110_init_partial {l₀ : Lib} (h₀ : Start l₀) (cs : List Call) (a : Mem) (h : Nat) (k : Kind) (m : Option (Mech × MechParam)) (key : Nat) :
    let l := run e l₀ cs
    let c : Call := .sess h (.cryptInit k m key)
    stepM e a l c = step e l c ∨
    ((answerM e a l c).rv = .mechanismParamInvalid ∧ OnlyOp h l (stepM e a l c).1 ∧
      (¬ Busy l h → ∀ h' d, answer e (stepM e a l c).1 (.sess h' (.crypt d)) = answer e l (.sess h' (.crypt d)))) := by
  intro l c
  have hn : (handles l.sessions).Nodup := (h₀.sinv.run e cs).nodup
  generalize l = l at *
  cases hb : l.bad with
  | true => left; rw [stepM_bad hb, step_bad hb]
  | false =>
    by_cases hc : l.count ≤ 0
    · left; refine stepM_eq ?_; simp only [callBodyM, callBody, c, if_pos hc]
    cases hs : getSession l h with
    | none => left; refine stepM_eq ?_; simp only [callBodyM, callBody, c, if_neg hc, hs]
    | some s =>
      have hbody : callBodyM e a l c = cCryptInitM e l s k m key a := by
        simp only [callBodyM, c, if_neg hc, hs, sessCallM]
      rcases (cCryptInitM_good (e := e) l s k m key a).1 with h1 | ⟨mp, o, op, _, _, hop, h1⟩
      · left
        refine stepM_eq ?_
        rw [hbody, h1]
        simp only [callBody, c, if_neg hc, hs, sessCall]
      · right
        rw [h1] at hbody
        have hst : stepM e a l c = (l.upd s.handle fun u => { u with op }, { rv := .mechanismParamInvalid }) := by
          rw [stepM_good hb (by rw [hbody]; exact fun h => by cases h), hbody]
        unfold answerM
        rw [hst]
        refine ⟨rfl, .of_op hn hs op, fun hbusy h' d => ?_⟩
        obtain ⟨hm, hi⟩ := initNoMem_keeps hop
        have hnone : s.op.init = .none := Classical.byContradiction fun h => hbusy ⟨s, hs, h⟩
        have hnone' : op.init = .none := by rw [hnone] at hi; rcases hi with h | h <;> exact h
        have hsh := (getSession_handle hs).1
        have hb' : (l.upd s.handle fun u => { u with op }).bad = false := hb
        unfold answer
        rw [step_resp hb', step_resp hb]
        have hc' : (l.upd s.handle fun u => { u with op }).count = l.count := rfl
        simp only [callBody, hc', if_neg hc]
        rw [hsh]
        by_cases he : h' = h
        · rw [he, getSession_upd_eq (l := l) (h := h) (f := fun u => { u with op }) (fun _ => ⟨rfl, rfl⟩), hs]
          simp only [Option.map_some, sessCall, cCrypt]
          have hk : currKey (l.upd h fun u => { u with op }) { s with op } = currKey l s := rfl
          rw [hk]
          cases currKey l s with
          | null => simp only [run_idle e.crypto hm hnone hnone']
          | obj o => simp only [run_idle e.crypto hm hnone hnone']
          | freed =>
            simp only [run_idle e.crypto hm hnone hnone']
            split <;> rfl
        · rw [getSession_upd_ne (f := fun u => { u with op }) (fun _ => rfl) he]
          cases getSession l h' with
          | none => rfl
          | some s' =>
            simp only [sessCall, cCrypt]
            have hk : currKey (l.upd h fun u => { u with op }) s' = currKey l s' := rfl
            rw [hk]
            cases currKey l s' with
            | null => rfl
            | obj o => rfl
            | freed =>
              dsimp only
              by_cases hx : (d.run e.crypto s'.op none).2.rv = .argumentsBad
              · simp only [if_pos hx]
              · simp only [if_neg hx]

namespace Demo

/-- Start another encryption with AES-GCM, with additional data. -/
def gcmStartAad (nonce : Bytes) : Call := .sess 65538 (.cryptInit .encrypt (some (.aesGcm, .gcm nonce (some [9]) 128)) 3)

set_option maxRecDepth 20000 in
/-- C110 fails for `C_EncryptInit`: an encryption is in progress; another Init is refused because
there is no memory for its additional data; the encryption then goes on with the nonce of the
refused call, as if it had been started without additional data. -/
theorem c110_violated_init :
    let n1 : Bytes := [1, 2, 3, 4, 5, 6, 7, 8, 9, 10, 11, 12]
    let n2 : Bytes := [21, 22, 23, 24, 25, 26, 27, 28, 29, 30, 31, 32]
    let l := run pairEnv fresh (rsaAndAes ++ [gcmStart n1])
    let l' := (stepM pairEnv [false] l (gcmStartAad n2)).1
    (answer pairEnv l (gcmStartAad n2)).rv = .ok ∧
    (answerM pairEnv [false] l (gcmStartAad n2)).rv = .mechanismParamInvalid ∧
    (answer pairEnv l' gcmEncrypt).rv = .ok ∧
    (answer pairEnv l' gcmEncrypt).out ≠ (answer pairEnv l gcmEncrypt).out ∧
    (answer pairEnv l' gcmEncrypt).out =
      (answer pairEnv (run pairEnv fresh (rsaAndAes ++ [gcmStart n2])) gcmEncrypt).out :=
  ⟨by decide, by decide, by decide, by decide, by decide⟩

end Demo

set_option maxRecDepth 20000 in
/-- The second case of `c110_init_partial`, without an operation in progress. -/
example :
    let l := run Demo.pairEnv Demo.fresh Demo.rsaAndAes
    let c := Demo.gcmStartAad [1, 2, 3]
    (answerM Demo.pairEnv [false] l c).rv = .mechanismParamInvalid ∧ (answerM Demo.pairEnv [true, false] l c).rv = .ok ∧
    (getSession l 65538).any (fun s => s.op.init == .none) = true :=
  ⟨by decide, by decide, by decide⟩

set_option maxRecDepth 20000 in
/-- GCM decryption in parts as in `c110_data_partial`: the refused part can be given again. -/
example :
    let l := run Demo.pairEnv Demo.fresh (Demo.rsaAndAes ++ [.sess 65538 (.cryptInit .decrypt (some (.aesGcm, .gcm [1, 2, 3] none 128)) 3)])
    let c : Call := .sess 65538 (.crypt (.decryptUpdate (some [1, 2]) (.buf 8)))
    (answerM Demo.pairEnv [false] l c).rv = .functionFailed ∧
    (answer Demo.pairEnv (stepM Demo.pairEnv [false] l c).1 c).rv = .ok ∧
    (answerM Demo.pairEnv [true] l c).rv = .ok :=
  ⟨by decide, by decide, by decide⟩

set_option maxRecDepth 20000 in
/-- `C_WrapKey` as in `c110_data_partial` and `C_UnwrapKey` as in `c110_unwrap_partial`: each of
their allocations fails, or none. -/
example :
    let l := run Demo.wrapEnv Demo.fresh Demo.wrapKeys
    let w := wrapCall 65538 2 1 Demo.iv 16
    let u := unwrapCall 65538 2 Demo.iv Demo.wrapped Demo.unwrapTmpl
    (answerM Demo.wrapEnv [false] l w).rv = .functionFailed ∧ (answerM Demo.wrapEnv [true, false] l w).rv = .obHostMemory ∧
    (answerM Demo.wrapEnv [true, true, false] l w).rv = .functionFailed ∧ (answerM Demo.wrapEnv [true, true, true] l w).rv = .ok ∧
    (answerM Demo.wrapEnv [false] l u).rv = .obHostMemory ∧ (answerM Demo.wrapEnv [true, false] l u).rv = .deviceMemory ∧
    (answerM Demo.wrapEnv [true, true] l u).rv = .ok :=
  ⟨by decide, by decide, by decide, by decide, by decide, by decide, by decide⟩

end Verif
