import Verif.Proofs.Origin
import Verif.Props.Agree
import Verif.Spec.Copy
import Verif.Spec.Rest

/-!
# C105: where a key says it comes from
-/

namespace Verif

variable {e : Env}

/-- An attribute that shows is an attribute of the object the handle denotes. -/
theorem shows_obj {l : Lib} {h k : Nat} {a : CKA} {v : Bytes} (hs : Shows e l h k a v) :
    ∃ s o, l.bad = false ∧ 0 < l.count ∧ getSession l h = some s ∧ findObj l s k = some o ∧
      (getAttr e.key o a true v.length).ret = .ok ∧ (getAttr e.key o a true v.length).len = v.length ∧
      (getAttr e.key o a true v.length).wr ++ (List.replicate v.length 0).drop (getAttr e.key o a true v.length).wr.length = v := by
  obtain ⟨_, hs⟩ := hs
  have hrv : (answer e l (readCall h k [Entry.of a (List.replicate v.length 0)])).rv = .ok := by rw [hs]
  obtain ⟨hb, hpos, s, hg, hst⟩ := sess_step (c := .getAttr k (some [Entry.of a (List.replicate v.length 0)])) hrv
  have hst : step e l (readCall h k [Entry.of a (List.replicate v.length 0)]) =
    cGetAttr e l s k (some [Entry.of a (List.replicate v.length 0)]) := hst
  unfold answer at hs hrv
  rw [hst] at hs hrv
  unfold cGetAttr at hs hrv
  dsimp only at hs hrv
  cases hf : findObj l s k with
  | none => rw [hf] at hrv; cases hrv
  | some o =>
    refine ⟨s, o, hb, hpos, hg, hf, ?_⟩
    simp only [hf] at hs
    injection hs with h1 _ _ _ h2 _ _ _
    have h2 := Option.some.inj h2
    unfold getAttributeValue at h1 h2
    dsimp only at h1 h2
    split at h1
    · rename_i hc; exact absurd h1 hc
    rename_i hc
    rw [if_neg hc] at h2
    unfold getEntries at h1 h2
    dsimp only at h1 h2
    split at h1
    · rename_i hok
      rw [if_pos hok] at h2
      simp only [getEntries, List.cons.injEq, and_true] at h2
      unfold getEntry at hok h2
      simp only [Entry.of, Option.isSome_some, List.length_replicate, Option.map_some] at hok h2
      generalize getAttr e.key o a true v.length = r at *
      revert hok h2
      cases r.ret <;> intro hok h2 <;> simp at hok h2 ⊢
      exact ⟨h2.2, h2.1⟩
    · rename_i hok; exact absurd h1 hok

/-- The mechanism of the object the handle denotes shows. -/
theorem madeBy_of {l : Lib} {h k : Nat} {s : Session} {o : Obj} (hb : l.bad = false) (hp : 0 < l.count)
    (hs : getSession l h = some s) (hf : findObj l s k = some o) : SaysMadeBy e l h k o.keyGenMech := by
  refine ⟨by rw [length_leBytes]; decide, ?_⟩
  unfold readCall
  rw [getAttr_answer, hb, if_neg (by simp), if_neg (by omega)]
  unfold look
  rw [hs, Option.map_some, hf, Option.map_some]
  have hg : getAttr e.key o.view .keyGenMech true (leBytes 8 o.keyGenMech).length =
      { ret := .ok, len := (leBytes 8 o.keyGenMech).length, wr := leBytes 8 o.keyGenMech } := by
    show getData (leBytes 8 o.keyGenMech) true (leBytes 8 o.keyGenMech).length = _
    unfold getData
    rw [if_neg (by simp), if_neg (Nat.lt_irrefl _)]
  have hl : (leBytes 8 o.keyGenMech).length = 8 := length_leBytes ..
  rw [hl] at hg ⊢
  have hge : getEntry e.key o.view (Entry.of .keyGenMech (List.replicate 8 0)) = (.ok, Entry.of .keyGenMech (leBytes 8 o.keyGenMech)) := by
    unfold getEntry
    simp only [Entry.of, Option.isSome_some, List.length_replicate, Option.map_some]
    rw [hg]
    simp [hl]
  show _ = _
  dsimp only
  have : getAttributeValue e.key o.view [Entry.of .keyGenMech (List.replicate 8 0)] =
      (.ok, [Entry.of .keyGenMech (leBytes 8 o.keyGenMech)]) := by
    unfold getAttributeValue
    rw [show checkAttributes false [Entry.of .keyGenMech (List.replicate 8 0)] = .ok from rfl]
    simp only [ne_eq, not_true_eq_false, if_false, getEntries, hge, if_true]
  rw [this]

/-- CKA_LOCAL shows what the object is marked with. -/
theorem shows_local {l : Lib} {h k : Nat} {v : Bytes} (hs : Shows e l h k .local' v) :
    ∃ s o, l.bad = false ∧ 0 < l.count ∧ getSession l h = some s ∧ findObj l s k = some o ∧ v = cbool o.local' := by
  obtain ⟨s, o, h1, h2, h3, h4, g1, g2, g3⟩ := shows_obj hs
  exact ⟨s, o, h1, h2, h3, h4, (getData_ok (d := cbool o.local') g1 g2 g3).symm⟩

theorem findObj_allObj {P : Obj → Prop} {G : Bytes → Prop} {D : Disk → Prop} {l : Lib} (hA : AllObj P G D l) {h k : Nat}
    {s : Session} {o : Obj} (hs : getSession l h = some s) (hf : findObj l s k = some o) : P o := by
  have hm := List.mem_of_find?_eq_some (show ((if handleOnToken k then l.token.objs else s.objs).find?
    fun o => o.handle == k) = some o from hf)
  split at hm
  · exact hA.objs o hm
  · exact hA.sess s (getSession_handle hs).2.2 o hm

/-- **C105**: whatever has been called since the token was empty, also in earlier processes,
an object that says that it was generated on the token comes with the mechanism of a
`C_GenerateKeyPair` that succeeded, and one that says that it was not has no mechanism. -/
theorem c105_history (hr : RandLen e) {l₀ : Lib} (h₀ : Start l₀) (hd : NoToken l₀) (cs : List Call) (h k : Nat) :
    (SaysLocal e (run e l₀ cs) h k → ∃ m r, Generates e l₀ cs m r ∧ SaysMadeBy e (run e l₀ cs) h k m.num) ∧
    (SaysNotLocal e (run e l₀ cs) h k → SaysMadeBy e (run e l₀ cs) h k unavailableInfo) := by
  have key : ∀ {v}, Shows e (run e l₀ cs) h k .local' v → ∃ o : Obj, v = cbool o.local' ∧ Accounted e l₀ cs o.mark ∧
      SaysMadeBy e (run e l₀ cs) h k o.keyGenMech := by
    intro v hs
    obtain ⟨s, o, h1, h2, h3, h4, h5⟩ := shows_local hs
    exact ⟨o, h5, (findObj_allObj (made_run hr h₀ hd cs h1) h3 h4).2, madeBy_of h1 h2 h3 h4⟩
  constructor
  · intro hs
    obtain ⟨o, h1, h2, h3⟩ := key hs
    rcases h2 with h2 | ⟨m, r, h4, _, h5⟩
    · rw [(Prod.mk.inj h2).1] at h1; cases h1
    · exact ⟨m, r, h4, (Prod.mk.inj h5).2 ▸ h3⟩
  · intro hs
    obtain ⟨o, h1, h2, h3⟩ := key hs
    rcases h2 with h2 | ⟨m, r, h4, _, h5⟩
    · exact (Prod.mk.inj h2).2 ▸ h3
    · rw [(Prod.mk.inj h5).1] at h1; cases h1

/-- **C105** for handles: as long as `C_Initialize` is not called again, an object that says
that it was generated on the token was there before with the same handle and said so, or
its handle is one of the two that a `C_GenerateKeyPair` with that mechanism has returned. -/
theorem c105_handle {l₀ : Lib} (h₀ : Start l₀) (cs ds : List Call) (hc : .cInit ∉ ds) (h k : Nat)
    (hs : SaysLocal e (run e l₀ (cs ++ ds)) h k) :
    (∃ m r, Generates e (run e l₀ cs) ds m r ∧ (r.handle = some k ∨ r.priv = some k) ∧
      SaysMadeBy e (run e l₀ (cs ++ ds)) h k m.num) ∨
    ∃ o ∈ tokenObjs (run e l₀ cs) ++ sessObjs (run e l₀ cs) h, o.handle = k ∧ o.local' = true := by
  rw [run_append] at hs ⊢
  have hi := h₀.sinv.run e cs
  generalize run e l₀ cs = l at *
  obtain ⟨s, o, h1, h2, h3, h4, h5⟩ := shows_local hs
  have hl : o.local' = true := by
    cases hx : o.local' with
    | true => rfl
    | false => rw [hx] at h5; cases h5
  have hk : o.handle = k := by
    have := List.find?_some h4
    simpa using this
  have hF := from_run hi ds hc h1
  have hm := List.mem_of_find?_eq_some (show ((if handleOnToken k then (run e l ds).token.objs else s.objs).find?
    fun o => o.handle == k) = some o from h4)
  have new : (Plain o.hm ∨ ∃ m r, Generates e l ds m r ∧ o.hm.2 = (true, m.num) ∧ (r.handle = some o.hm.1 ∨ r.priv = some o.hm.1)) →
      (∃ m r, Generates e l ds m r ∧ (r.handle = some k ∨ r.priv = some k) ∧ SaysMadeBy e (run e l ds) h k m.num) := by
    rintro (h | ⟨m, r, g1, g2, g3⟩)
    · have : o.local' = false := (Prod.mk.inj (show o.mark = plainMark from h)).1
      rw [this] at hl; cases hl
    · refine ⟨m, r, g1, hk ▸ g3, ?_⟩
      have := madeBy_of (e := e) h1 h2 h3 h4
      rwa [show o.keyGenMech = m.num from (Prod.mk.inj (show o.mark = (true, m.num) from g2)).2] at this
  have old : ∀ {os : List Obj}, o.hm ∈ os.map Obj.hm → ∃ p ∈ os, p.handle = k ∧ p.local' = true := by
    intro os ho
    obtain ⟨p, hp, he⟩ := List.mem_map.mp ho
    have h1 : p.handle = o.handle := (Prod.mk.inj he).1
    have h2 : p.local' = o.local' := (Prod.mk.inj (hm_mark he)).1
    exact ⟨p, hp, h1.trans hk, h2.trans hl⟩
  split at hm
  · rcases hF.tok _ (List.mem_map_of_mem hm) with hx | hx
    · obtain ⟨p, hp, hpk⟩ := old hx
      exact .inr ⟨p, List.mem_append_left _ hp, hpk⟩
    · exact .inl (new hx)
  · obtain ⟨hh, _, hms⟩ := getSession_handle h3
    rcases hF.sess s hms _ (List.mem_map_of_mem hm) with ⟨t, ht, hth, hx⟩ | hx
    · obtain ⟨p, hp, hpk⟩ := old hx
      refine .inr ⟨p, List.mem_append_right _ ?_, hpk⟩
      unfold sessObjs
      have huse : t.use ≠ .no := by
        intro hn
        have := (hi.idle t ht hn).1
        rw [this] at hp; cases hp
      rw [(getSession_iff hi).mpr ⟨ht, hth.trans hh, huse⟩]
      exact hp
    · exact .inl (new hx)

/-- **C105**: what is proved of "a key says that it was generated on the token exactly if it
was, and its value is then the generated one". Proved: no other call than a successful
`C_GenerateKeyPair` makes an object say so, and the mechanism is the right one. Missing:
`c105_violated`. -/
theorem c105_partial (hr : RandLen e) {l₀ : Lib} (h₀ : Start l₀) (hd : NoToken l₀) (cs ds : List Call) (h k : Nat) :
    (SaysLocal e (run e l₀ cs) h k → ∃ m r, Generates e l₀ cs m r ∧ SaysMadeBy e (run e l₀ cs) h k m.num) ∧
    (SaysNotLocal e (run e l₀ cs) h k → SaysMadeBy e (run e l₀ cs) h k unavailableInfo) ∧
    (.cInit ∉ ds → SaysLocal e (run e l₀ (cs ++ ds)) h k →
      (∃ m r, Generates e (run e l₀ cs) ds m r ∧ (r.handle = some k ∨ r.priv = some k) ∧
        SaysMadeBy e (run e l₀ (cs ++ ds)) h k m.num) ∨
      ∃ o ∈ tokenObjs (run e l₀ cs) ++ sessObjs (run e l₀ cs) h, o.handle = k ∧ o.local' = true) :=
  ⟨(c105_history hr h₀ hd cs h k).1, (c105_history hr h₀ hd cs h k).2, fun hc hs => c105_handle h₀ cs ds hc h k hs⟩

/-- The calls of the examples: a DH pair, with handles 1 and 2. -/
def Demo.dhPair : Call := Verif.pairCall 65538 .dhKeyPairGen (.null 0) [.of .prime [23], .of .base [5]] [.of .extractable [1]]

set_option maxRecDepth 20000 in
/-- Non-vacuity of `c105_partial`: both keys of the pair say that they were generated, by the DH
mechanism; a copy of the private key, made with everything a template can say, says that it
was not. -/
example :
    SaysLocal Demo.pairEnv (run Demo.pairEnv Demo.fresh (Demo.setup ++ [Demo.dhPair])) 65538 1 ∧
    SaysLocal Demo.pairEnv (run Demo.pairEnv Demo.fresh (Demo.setup ++ [Demo.dhPair])) 65538 2 ∧
    SaysMadeBy Demo.pairEnv (run Demo.pairEnv Demo.fresh (Demo.setup ++ [Demo.dhPair])) 65538 2 0x20 ∧
    Call.cInit ∉ [Demo.dhPair] ∧
    SaysNotLocal Demo.pairEnv (run Demo.pairEnv Demo.fresh (Demo.setup ++ [Demo.dhPair, copyCall 65538 2 [.of .label [65]]])) 65538 3 ∧
    RandLen Demo.pairEnv ∧ Start Demo.fresh ∧ NoToken Demo.fresh := by
  refine ⟨?_, ?_, ?_, ?_, ?_, Demo.randLen, Demo.fresh_start, Demo.noToken⟩
  · unfold SaysLocal Shows; decide
  · unfold SaysLocal Shows; decide
  · unfold SaysMadeBy Shows; decide
  · simp [Demo.dhPair, Verif.pairCall]
  · unfold SaysNotLocal Shows; decide

set_option maxRecDepth 20000 in
/-- **C105** is violated: a secret key that `C_GenerateKey` has generated says that it was not
generated on the token, and a generated private key whose value is then replaced by one of
the caller's says that it was. -/
theorem c105_violated :
    ((answer Demo.pairEnv (run Demo.pairEnv Demo.fresh Demo.setup)
        (genKeyCall 65538 .aesKeyGen (.null 0) [.of .valueLen (ulong 16)])).rv = .ok ∧
      SaysNotLocal Demo.pairEnv (run Demo.pairEnv Demo.fresh
        (Demo.setup ++ [genKeyCall 65538 .aesKeyGen (.null 0) [.of .valueLen (ulong 16)]])) 65538 1) ∧
    (SaysLocal Demo.pairEnv (run Demo.pairEnv Demo.fresh (Demo.setup ++ [Demo.dhPair,
        .sess 65538 (.setAttr 2 (some [.of .prime [23], .of .base [5], .of .value [7, 7, 7]]))])) 65538 2 ∧
      Shows Demo.pairEnv (run Demo.pairEnv Demo.fresh (Demo.setup ++ [Demo.dhPair,
        .sess 65538 (.setAttr 2 (some [.of .prime [23], .of .base [5], .of .value [7, 7, 7]]))])) 65538 2 .value [7, 7, 7]) := by
  refine ⟨⟨?_, ?_⟩, ⟨?_, ?_⟩⟩
  · decide
  · unfold SaysNotLocal Shows; decide
  · unfold SaysLocal Shows; decide
  · unfold Shows; decide

end Verif
