import Verif.Spec.Derive
import Verif.Props.KeyGen
import Verif.Props.Typed
import Verif.Props.Pair

/-!
# C60 for whole histories
-/

namespace Verif

variable {e : Env}

theorem deriveSecret_shared {o : Obj} {m : DeriveMech} {sec : Bytes} (h : deriveSecret e o m = .ok sec) :
    SharedSecret e o m sec := by
  unfold deriveSecret at h
  repeat' split at h
  all_goals first
    | (cases h; done)
    | skip
  · rename_i hp hn _ _ hs
    cases h
    rw [not_or] at hp hn
    exact ⟨by simpa using hp.2, hp.1, hn.1, Classical.not_not.mp hn.2, hs⟩
  · rename_i hp hn _ _ hs
    cases h
    rw [not_or] at hn
    exact ⟨hp, hn.1, Classical.not_not.mp hn.2, hs⟩

/-- The key made is the whole secret. -/
theorem deriveTail_whole {x : KeyExt} {o o' : Obj} {sec : Bytes} (h : (deriveTail x o sec).obj = some o') :
    o'.data = .symm sec ∧ o'.typ = o.typ ∧ o'.cls = o.cls ∧ sec.length ≤ 512 ∧
      (o.typ = CKK_AES ∨ o.typ = CKK_GENERIC_SECRET) := by
  unfold deriveTail at h
  split at h
  · cases h
  rename_i n hn
  have ht := symmKeyLen_typ hn
  dsimp only at h
  split at h
  · cases h
  rename_i hl
  rw [not_or, List.length_drop] at hl
  have hd : sec.drop (sec.length - n) = sec := by rw [show sec.length - n = 0 by omega]; rfl
  rw [hd] at h
  have hs : setSecretKey o (fun a => if a = .value then some sec else none) =
      (if sec.length > maxSymKey then .ub else .ok, { o with data := .symm sec }) := by
    simp [setSecretKey, secretLen]
  rw [hs] at h
  split at h
  · rename_i heq
    cases h
    obtain ⟨h1, rfl⟩ := Prod.mk.inj heq
    refine ⟨rfl, rfl, rfl, ?_, ht⟩
    split at h1
    · cases h1
    · rename_i hm; simpa [maxSymKey] using hm
  · cases h
  · cases h

/-- **C60** for `C_DeriveKey` after any history: when the call succeeds and returns a
handle, the base key is of the type the mechanism is for, the handle is that of a new AES
or generic key, and its value is the whole secret shared with the other party. Missing:
that the key has the length asked for (`c60_violated_long`), that a shorter one can be
asked for (`c60_violated_short`), that a handle is returned (`c60_violated_none`). -/
theorem c60_partial (hh : HashLen e) (hr : RandLen e) {l₀ : Lib} (h₀ : Start l₀) (hd : NoToken l₀)
    (cs : List Call) (h base k : Nat) (m : DeriveMech) (t : List Entry)
    (hb : BoolToken (cs ++ [deriveCall h base m t])) (hn : 2 * (cs.length + 1) < 2 ^ 28)
    (hok : (answer e (run e l₀ cs) (deriveCall h base m t)).rv = .ok)
    (hk : (answer e (run e l₀ cs) (deriveCall h base m t)).handle = some k) :
    ∃ o q sec, Addressed (run e l₀ cs) h base o ∧ SharedSecret e o m sec ∧
      (∀ p, ¬ Addressed (run e l₀ cs) h k p) ∧ Addressed (run e l₀ (cs ++ [deriveCall h base m t])) h k q ∧
      (q.typ = CKK_AES ∨ q.typ = CKK_GENERIC_SECRET) ∧ q.data = .symm sec ∧ sec.length ≤ 512 := by
  have hb1 : BoolToken cs := fun d hd => hb d (List.mem_append_left _ hd)
  obtain ⟨hi, hc, hv⟩ := reach_inv hh hr h₀ hd cs hb1 (by omega)
  have hrun : run e l₀ (cs ++ [deriveCall h base m t]) = (step e (run e l₀ cs) (deriveCall h base m t)).1 := by
    rw [run_append]; rfl
  rw [hrun]
  generalize run e l₀ cs = l at *
  obtain ⟨_, hpos, s, hs, hst⟩ := sess_step (c := .derive (some m) base (some t) true) hok
  have hst : step e l (deriveCall h base m t) = cDerive e l s (some m) base (some t) true := hst
  unfold answer at hok hk
  rw [hst] at hok hk ⊢
  unfold HandleInv at hv
  rw [if_pos hpos] at hv
  unfold cDerive at hok hk ⊢
  dsimp only [Bool.not_true, Bool.false_eq_true] at hok hk ⊢
  rw [if_neg (by simp)] at hok hk ⊢
  cases ho : findObj l s base with
  | none => rw [ho] at hok; cases hok
  | some o =>
    rw [ho] at hok hk
    dsimp only at hok hk ⊢
    cases hsec : deriveSecret e o m with
    | error rv => rw [hsec] at hk; cases hk
    | ok sec =>
      rw [hsec] at hok hk
      dsimp only at hok hk ⊢
      split at hok
      · rename_i o1 hcr
        rw [hcr] at hk
        dsimp only at hok hk ⊢
        cases hdt : (deriveTail e.key o1 sec).obj with
        | none => rw [hdt] at hk; cases hk
        | some o2 =>
          rw [hdt] at hok hk
          dsimp only at hok hk ⊢
          obtain ⟨w1, w2, w3, w4, w5⟩ := deriveTail_whole hdt
          obtain ⟨on, l', kk, t1, a4, a5⟩ := addObject_ok hok
          rw [a5] at hk ⊢
          cases hk
          have htok := boolToken_tokOk (c := .derive (some m) base (some t) true) hb
          obtain ⟨g0, _, g3⟩ := getSession_handle hs
          obtain ⟨q1, q2, _⟩ := look_add a4 hv (by omega) (htok t (by simp [SessCall.creates]) _ t1) hs g3 g0 rfl
          obtain ⟨q, hq, hview⟩ := look_addressed q2
          refine ⟨o, q, sec, findObj_addressed hs ho, deriveSecret_shared hsec, ?_, hq, ?_, ?_, w4⟩
          · intro p hp
            have := addressed_find hv (by omega) hs hp
            unfold look at q1
            rw [hs] at q1
            simp only [Option.map_some, Option.some.injEq, this] at q1
            cases q1
          · have h1 : q.typ = o2.typ := by have := congrArg (fun o : Obj => o.typ) hview; exact this
            rw [h1, w2]; exact w5
          · have h1 : q.data = o2.data := by have := congrArg (fun o : Obj => o.data) hview; exact this
            rw [h1, w1]
      · rename_i hne heq
        exact absurd hok hne

set_option maxRecDepth 20000 in
/-- Non-vacuity of `c60_partial`: a key derived from a generated DH pair. -/
example :
    BoolToken (Demo.setup ++ [pairCall 65538 .dhKeyPairGen (.null 0) [.of .prime [23], .of .base [5]] []] ++
      [deriveCall 65538 2 (.dh (some [8])) [.of .cls (ulong CKO_SECRET_KEY), .of .keyType (ulong CKK_GENERIC_SECRET)]]) ∧
    (answer Demo.pairEnv (run Demo.pairEnv Demo.fresh
        (Demo.setup ++ [pairCall 65538 .dhKeyPairGen (.null 0) [.of .prime [23], .of .base [5]] []]))
      (deriveCall 65538 2 (.dh (some [8]))
        [.of .cls (ulong CKO_SECRET_KEY), .of .keyType (ulong CKK_GENERIC_SECRET)])) =
      { rv := .ok, handle := some 3 } := ⟨by unfold BoolToken; decide, by decide⟩

end Verif
