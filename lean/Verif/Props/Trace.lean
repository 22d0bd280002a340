import Verif.Spec.Trace
import Verif.Props.Alloc
import Verif.Props.Template

/-!
# C112: what a refused call leaves behind
-/

namespace Verif

variable {e : Env}

theorem sessAddObject_refused {l : Lib} {s : Session} {on : Nat} {o : Obj} (h : (sessAddObject e l s on o).2 = none) :
    (sessAddObject e l s on o).1 = l := by
  unfold sessAddObject at h ⊢
  dsimp only at h ⊢
  by_cases h1 : on ≠ 0
  · simp only [if_pos h1] at h ⊢
    by_cases h2 : l.token.objs.length ≥ tokenObjMax
    · rw [if_pos h2]
    · simp only [if_neg h2] at h ⊢
      split at h
      · cases h
      · rename_i h3; rw [if_neg h3]
  · simp only [if_neg h1] at h ⊢
    split at h
    · rename_i h2; rw [if_pos h2]
    · cases h

theorem addObject_refused {l : Lib} {s : Session} {t : List Entry} {o : Obj} (h : (addObject e l s t o).2.rv ≠ .ok) :
    (addObject e l s t o).1 = l := by
  unfold addObject at h ⊢
  cases hon : tokenByte t 0 with
  | error rv => rfl
  | ok on =>
    simp only [hon] at h ⊢
    have hn := sessAddObject_refused (e := e) (l := l) (s := s) (on := on) (o := o)
    cases hr : sessAddObject e l s on o with
    | mk l' r =>
      rw [hr] at h hn
      cases r with
      | none => exact hn rfl
      | some k => exact absurd rfl h

theorem SamePin_refl (a : Account) : a.SamePin a := ⟨rfl, rfl⟩

theorem OnlyTries.refl (l : Lib) : OnlyTries l l := ⟨SamePin_refl _, SamePin_refl _, rfl⟩

theorem lockCheck_samePin {a b : Account} {now : Int} (h : lockCheck a now = some b) : a.SamePin b := by
  unfold lockCheck at h
  split at h
  · split at h
    · cases h; exact ⟨rfl, rfl⟩
    · cases h
  · cases h; exact ⟨rfl, rfl⟩

theorem failed_samePin (a : Account) (now add : Int) : a.SamePin (failed a now add) := by
  unfold failed; split <;> exact ⟨rfl, rfl⟩

theorem SamePin_trans {a b c : Account} (h : a.SamePin b) (h' : b.SamePin c) : a.SamePin c :=
  ⟨h'.1.trans h.1, h'.2.trans h.2⟩

theorem login_refused (l : Lib) (u : UserType) (pin : Option Bytes) (now : Int)
    (h : (login e l u pin now).2.Error) : OnlyTries l (login e l u pin now).1 := by
  unfold login at h ⊢
  split
  · exact .refl l
  split
  · exact .refl l
  rename_i _ pin hl
  simp only [if_neg hl] at h
  cases u with
  | so =>
    dsimp only at h ⊢
    unfold soLogin at h ⊢
    split
    · exact .refl l
    rename_i hpub
    simp only [if_neg hpub] at h
    cases hk : lockCheck l.token.so now with
    | none => exact .refl l
    | some a =>
      have ha := lockCheck_samePin hk
      simp only [hk] at h ⊢
      split
      · exact ⟨ha, SamePin_refl _, rfl⟩
      rename_i hro
      simp only [if_neg hro] at h
      split at h
      · exact ⟨ha, SamePin_refl _, rfl⟩
      · exact ⟨SamePin_trans ha (failed_samePin ..), SamePin_refl _, rfl⟩
      · exact absurd rfl h.1
  | user =>
    dsimp only at h ⊢
    unfold userLogin at h ⊢
    split
    · exact .refl l
    rename_i hpub
    simp only [if_neg hpub] at h
    cases hk : lockCheck l.token.user now with
    | none => exact .refl l
    | some a =>
      have ha := lockCheck_samePin hk
      simp only [hk] at h ⊢
      cases hc : checkPin e l.token a _ with
      | notSet => exact ⟨SamePin_refl _, ha, rfl⟩
      | invalid => exact ⟨SamePin_refl _, SamePin_trans ha (failed_samePin ..), rfl⟩
      | ok =>
        simp only [hc] at h ⊢
        have hs : l.token.user.SamePin (succeeded a) := ⟨ha.1, ha.2⟩
        cases hd : (decodeAll e.store (e.store.hash pin l.token.seed) l.token.objs).1 <;> simp only [hd] at h ⊢
        case ok => exact absurd rfl h.1
        all_goals exact ⟨SamePin_refl _, hs, rfl⟩
  | contextSpecific => exact .refl l
  | other => exact .refl l

/-- If the answer is an error, then `Q` holds. -/
def Clean (Q : RV → Lib → Prop) (r : Lib × Resp) : Prop := r.2.Error → Q r.2.rv r.1

theorem pinSet_clean {l : Lib} (r : Lib × Bool) : Clean (fun rv l' => l' = l ∨ rv = .functionFailed) (pinSet r) := by
  intro h
  right
  obtain ⟨l', b⟩ := r
  cases b
  · rfl
  · exact absurd rfl h.1

theorem OnlyOp.of_upd {l : Lib} {s : Session} {h : Nat} (hh : s.handle = h) (op : OpSt) (curr : Option Nat) :
    OnlyOp h l (l.upd s.handle fun u => { u with op, curr }) := by
  subst hh
  exact ⟨op, curr, rfl⟩

/-- The same with the current key kept: there is one session with this handle. -/
theorem OnlyOp.of_op {l : Lib} (hn : (handles l.sessions).Nodup) {s : Session} {h : Nat} (hs : getSession l h = some s) (op : OpSt) :
    OnlyOp h l (l.upd s.handle fun u => { u with op }) := by
  obtain ⟨hh, _, hm⟩ := getSession_handle hs
  refine ⟨op, s.curr, ?_⟩
  unfold Lib.upd
  rw [hh]
  congr 1
  refine List.map_congr_left fun u hu => ?_
  split
  · rename_i he
    rw [handle_inj hn hu hm (he.trans hh.symm)]
  · rfl

theorem addPair_refused {l : Lib} {s : Session} {tp tq : List Entry} {pub priv : Obj}
    (h : (addPair e l s tp tq pub priv).2.Error) :
    (addPair e l s tp tq pub priv).1 = l ∨ (addPair e l s tp tq pub priv).1.bad = true := by
  unfold addPair at h ⊢
  cases hr : addObject e l s tp pub with
  | mk l1 r1 =>
    simp only [hr] at h ⊢
    by_cases h1 : r1.rv ≠ .ok
    · rw [if_pos h1]
      have := addObject_refused (e := e) (l := l) (s := s) (t := tp) (o := pub) (by rw [hr]; exact h1)
      rw [hr] at this
      exact .inl this
    · simp only [if_neg h1] at h ⊢
      split at h
      · exact absurd rfl h.2
      · rename_i s1 hs1
        split at h
        · rename_i h2; rw [if_pos h2]; exact .inr rfl
        · exact absurd rfl h.1

theorem sessCall_clean {l : Lib} (hu : UidOk l) (hn : (handles l.sessions).Nodup) {h : Nat} {s : Session}
    (hs : getSession l h = some s) (c : SessCall) :
    Clean (fun rv l' => Call.MayChange rv l l' (.sess h c)) (sessCall e l s c) := by
  obtain ⟨hh, hu', hm⟩ := getSession_handle hs
  cases c with
  | close => exact fun hr => absurd rfl hr.1
  | info ptr => simp only [sessCall, Call.MayChange]; split <;> exact fun _ => rfl
  | login u pin now => exact fun hr => login_refused l u pin now hr
  | logout => exact fun hr => absurd rfl hr.1
  | initPin pin =>
    simp only [sessCall, Call.MayChange]
    unfold initPin
    repeat' split
    all_goals first
      | exact fun _ => .inl rfl
      | exact pinSet_clean _
  | setPin old new =>
    simp only [sessCall, Call.MayChange]
    unfold setPin
    repeat' split
    all_goals first
      | exact fun _ => .inl rfl
      | exact pinSet_clean _
  | create t ptr =>
    simp only [sessCall, Call.MayChange]
    unfold cCreate
    repeat' split
    all_goals first
      | exact fun _ => rfl
      | exact fun hr => addObject_refused hr.1
  | copy o t ptr =>
    simp only [sessCall, Call.MayChange]
    unfold cCopy
    dsimp only
    repeat' split
    all_goals first
      | exact fun _ => rfl
      | exact fun hr => absurd rfl hr.1
      | skip
    rename_i hx
    intro _
    have := sessAddObject_refused (congrArg Prod.snd hx)
    rw [hx] at this
    exact this
  | destroy o =>
    simp only [sessCall, Call.MayChange]
    unfold cDestroy
    repeat' split
    all_goals first
      | exact fun _ => rfl
      | exact fun hr => absurd rfl hr.1
  | size o ptr => simp only [sessCall, Call.MayChange]; split <;> exact fun _ => rfl
  | getAttr o t =>
    simp only [sessCall, Call.MayChange]
    unfold cGetAttr
    repeat' split
    all_goals exact fun _ => rfl
  | setAttr o t =>
    simp only [sessCall, Call.MayChange]
    unfold cSetAttr
    split
    · exact fun _ => rfl
    split
    · exact fun _ => rfl
    cases hf : findObj l s o with
    | none => exact fun _ => rfl
    | some ob => exact fun _ => allBut_putObj hu hn hs hf (setAttributeValue_key ..).1
  | findInit t =>
    simp only [sessCall, Call.MayChange]
    unfold cFindInit
    split
    · exact fun _ => .inl rfl
    dsimp only
    split
    · exact fun _ => .inl rfl
    split
    · exact fun _ => .inr (by unfold OnlySearch Lib.upd; rw [hh])
    split
    · exact fun hr => absurd rfl hr.2
    split
    · exact fun hr => absurd rfl hr.2
    · exact fun hr => absurd rfl hr.1
  | findNext ptr max =>
    simp only [sessCall, Call.MayChange]
    unfold cFindNext
    split
    · exact fun _ => rfl
    · exact fun hr => absurd rfl hr.1
  | findFinal => exact fun hr => absurd rfl hr.1
  | cryptInit k m key =>
    simp only [sessCall, Call.MayChange]
    unfold cCryptInit
    split
    · exact fun _ => .inl rfl
    split
    · exact fun _ => .inl rfl
    dsimp only
    split
    · exact fun hr => absurd rfl hr.2
    · intro hr
      simp only [if_neg hr.1]
      exact .inr (.of_op hn hs _)
  | crypt c =>
    simp only [sessCall, Call.MayChange]
    unfold cCrypt
    split
    · exact fun _ => .inr (.of_op hn hs _)
    · exact fun _ => .inr (.of_op hn hs _)
    · dsimp only
      split
      · exact fun _ => .inl rfl
      · exact fun hr => absurd rfl hr.2
  | genKey m t ptr =>
    simp only [sessCall, Call.MayChange]
    unfold cGenKey
    repeat' split
    all_goals first
      | exact fun _ => rfl
      | (intro hr; rw [addObject_refused hr.1])
  | genPair m tp tq ptrs =>
    simp only [sessCall, Call.MayChange]
    unfold cGenPair
    repeat' split
    all_goals first
      | exact fun _ => .inl rfl
      | exact fun hr => absurd rfl hr.2
      | (intro hr
         rcases addPair_refused hr with h | h
         · exact .inl (by rw [h])
         · exact .inr h)
  | wrap m wk key ob =>
    simp only [sessCall, Call.MayChange]
    unfold cWrap
    dsimp only
    repeat' split
    all_goals first
      | exact fun _ => .inl rfl
      | exact fun _ => .inr (.of_op hn hs _)
      | exact fun _ => .inr (.of_upd hh _ _)
  | unwrap m wk d t ptr =>
    simp only [sessCall, Call.MayChange]
    unfold cUnwrap
    dsimp only
    repeat' split
    all_goals first
      | exact fun _ => .inl rfl
      | exact fun _ => .inr (.of_op hn hs _)
      | exact fun _ => .inr (.of_upd hh _ _)
      | skip
    intro hr
    unfold addRsaPrivate at hr ⊢
    split at hr
    · split at hr
      · exact .inr (.of_upd hh _ _)
      · rw [addObject_refused hr.1]
        exact .inr (.of_upd hh _ _)
    · exact .inr (.of_upd hh _ _)
  | derive m base t ptr =>
    simp only [sessCall, Call.MayChange]
    unfold cDerive
    dsimp only
    repeat' split
    all_goals first
      | exact fun _ => rfl
      | exact fun hr => addObject_refused hr.1
  | random ptr len =>
    simp only [sessCall, Call.MayChange]
    unfold cRandom
    repeat' split
    all_goals first
      | exact fun _ => rfl
      | exact fun hr => absurd rfl hr.1

/-- **C112** (partial): a call that answers an error changes nothing, but: a refused login counts
a try; a refused cryptographic call may move or end the operation of its own session; a
generated key that could not be added used up random bytes.
Missing, because the code does otherwise: `C_SetAttributeValue` may leave the object changed (and
nothing else), `C_FindObjectsInit` a search that finds nothing, `C_InitPIN` and `C_SetPIN` the new
PIN in memory when it could not be stored, `C_GenerateKeyPair` half a pair (`bad`). -/
theorem c112_partial (hh : HashLen e) (hr : RandLen e) {l₀ : Lib} (h₀ : Start l₀) (hd : NoToken l₀) (cs : List Call) (c : Call)
    (he : (answer e (run e l₀ cs) c).Error) :
    c.MayChange (answer e (run e l₀ cs) c).rv (run e l₀ cs) (step e (run e l₀ cs) c).1 := by
  have hi := h₀.sinv.run e cs
  have hu := ((Start.capInv h₀ hd).run hh hr h₀.sinv cs).pop.uidOk
  generalize run e l₀ cs = l at *
  unfold answer at he ⊢
  cases hb : l.bad with
  | true => rw [step_bad hb] at he; exact absurd rfl he.2
  | false =>
    rw [step_resp hb] at he
    rw [step_eq hb he.2]
    revert he
    cases c with
    | cInit => exact fun he => absurd rfl he.1
    | cFinal => exact fun he => absurd rfl he.1
    | slot id c =>
      simp only [callBody, Call.MayChange]
      split
      · exact fun _ => rfl
      split
      · exact fun _ => rfl
      cases c with
      | tokenInfo ptr now => simp only [slotCall]; split <;> exact fun _ => rfl
      | initToken pin label =>
        simp only [slotCall]
        unfold initToken
        repeat' split
        all_goals first
          | exact fun _ => rfl
          | exact fun hr => absurd rfl hr.1
      | openSession rw serial ptr =>
        simp only [slotCall]
        unfold openSession
        dsimp only
        repeat' split
        all_goals first
          | exact fun _ => rfl
          | exact fun hr => absurd rfl hr.1
      | closeAll => exact fun he => absurd rfl he.1
    | sess h c =>
      simp only [callBody]
      split
      · exact fun _ => by cases c <;> first | rfl | exact .inl rfl | exact OnlyTries.refl _
      cases hs : getSession l h with
      | none => exact fun _ => by cases c <;> first | rfl | exact .inl rfl | exact OnlyTries.refl _
      | some s => exact sessCall_clean hu hi.nodup hs c

/-! ## Cases -/

namespace Demo

/-- Look for token objects, `CKA_TOKEN` being two bytes long. -/
def badSearch : Call := .sess 65538 (.findInit (some [.of .token [1, 1]]))

/-- Look for all objects. -/
def anySearch : Call := .sess 65538 (.findInit (some []))

set_option maxRecDepth 20000 in
/-- C112 fails for `C_FindObjectsInit`: the search with a malformed template is refused, and the
search after it too, which would have been begun without the first. -/
theorem c112_violated :
    let l := run env fresh withKey
    (answer env l anySearch).rv = .ok ∧
    (answer env l badSearch).rv = .attributeValueInvalid ∧
    (answer env (step env l badSearch).1 anySearch).rv = .operationActive := by
  decide

set_option maxRecDepth 20000 in
/-- Refused calls as in `c112_partial`: creation, a wrong PIN, a decryption. -/
example :
    let l := run env fresh withKey
    (answer env l (createCall 65538 [])).Error ∧
    (answer env l (.sess 65538 (.initPin (some newPin)))).Error ∧
    (answer env (step env l (.sess 65538 .logout)).1 (loginCall 65538 .user newPin 0)).Error ∧
    (answer env (step env l (.sess 65538 .logout)).1 (loginCall 65538 .user newPin 0)).rv = .pinIncorrect ∧
    (step env (step env l (.sess 65538 .logout)).1 (loginCall 65538 .user newPin 0)).1.token.user.fails = 1 := by
  unfold Resp.Error
  decide

end Demo

end Verif
