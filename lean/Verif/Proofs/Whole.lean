import Verif.Proofs.Ops
import Verif.Proofs.Emptied
import Verif.Props.Usage
import Verif.Spec.Safe

/-!
# No Init call has overwritten the parameters of an operation
-/

namespace Verif

variable {e : Env}

/-- The parameters of the operation have not been overwritten. -/
def OpSt.Whole (s : OpSt) : Prop := ∀ i, s.init ≠ .torn i

/-- Those of no session have. -/
def AllWhole (l : Lib) : Prop := ∀ s ∈ l.sessions, s.op.Whole

theorem whole_none {s : OpSt} (h : s.init = .none) : s.Whole := fun i hi => by rw [h] at hi; cases hi

theorem whole_run {s : OpSt} (h : s.Whole) (x : Crypto) (curr : Option Obj) (c : DataCall) : (c.run x s curr).1.Whole := by
  rcases (run_keeps x s curr c).2 with h1 | h1
  · intro i; rw [h1]; exact h i
  · exact whole_none h1

theorem whole_final {s : OpSt} (h : s.Whole) : (opFinal s).Whole := by
  unfold opFinal
  split
  all_goals first | exact h | exact whole_none rfl

theorem initCall_cases (x : Crypto) (k : Kind) (s : OpSt) (o : Obj) (m : Mech) (p : MechParam) :
    ((initCall x k s o m p).2 = .ok → (initCall x k s o m p).1.Whole) := by
  intro h
  have pl : ∀ t m i, (∀ j, i ≠ .torn j) → (plainInit s o t m p i).2 = .ok → (plainInit s o t m p i).1.Whole := by
    intro t m i hi
    unfold plainInit OpSt.started
    repeat' split
    all_goals intro h; first | exact hi | cases h
  have cbc : ∀ m i, (∀ j, i ≠ .torn j) → (cbcInit s o m p i).2 = .ok → (cbcInit s o m p i).1.Whole := by
    intro m i hi
    unfold cbcInit OpSt.started
    repeat' split
    all_goals intro h; first | exact hi | cases h
  have gcm : ∀ i, (∀ j, i ≠ .torn j) → (gcmInit s o p i).2 = .ok → (gcmInit s o p i).1.Whole := by
    intro i hi
    unfold gcmInit OpSt.started
    repeat' split
    all_goals intro h; first | exact hi | cases h
  have oaep : ∀ i, (∀ j, i ≠ .torn j) → (oaepInit s o p i).2 = .ok → (oaepInit s o p i).1.Whole := by
    intro i hi
    unfold oaepInit OpSt.started
    dsimp only
    repeat' split
    all_goals intro h; first | exact hi | cases h
  have pss : ∀ i, (∀ j, i ≠ .torn j) → (pssInit s o p i).2 = .ok → (pssInit s o p i).1.Whole := by
    intro i hi
    unfold pssInit OpSt.started
    dsimp only
    repeat' split
    all_goals intro h; first | exact hi | cases h
  have hmac : ∀ a i, (∀ j, i ≠ .torn j) → (hmacInit x s o a p i).2 = .ok → (hmacInit x s o a p i).1.Whole := by
    intro a i hi
    unfold hmacInit OpSt.started
    dsimp only
    repeat' split
    all_goals intro h; first | exact hi | cases h
  cases k <;> cases m <;> first
    | (cases h; done)
    | exact pl _ _ _ (by intro j hj; cases hj) h
    | exact cbc _ _ (by intro j hj; cases hj) h
    | exact gcm _ (by intro j hj; cases hj) h
    | exact oaep _ (by intro j hj; cases hj) h
    | exact pss _ (by intro j hj; cases hj) h
    | exact hmac _ _ (by intro j hj; cases hj) h

/-- An accepted Init leaves its own parameters. -/
theorem initCall_whole {x : Crypto} {k : Kind} {s : OpSt} {o : Obj} {m : Mech} {p : MechParam}
    (h : (initCall x k s o m p).2 = .ok) : (initCall x k s o m p).1.Whole := initCall_cases x k s o m p h

/-- And so does every other one, with a key and a parameter that fit. -/
theorem initCall_fits {k : Kind} {s : OpSt} (hs : s.Whole) {o : Obj} {m : Mech} {p : MechParam} (h : InitFits e o m p) :
    (initCall e.crypto k s o m p).1.Whole := by
  by_cases hok : (initCall e.crypto k s o m p).2 = .ok
  · exact initCall_whole hok
  have pl : ∀ t m i, (plainInit s o t m p i).2 ≠ .ok → (plainInit s o t m p i).1.Whole := by
    intro t m i
    unfold plainInit OpSt.started
    repeat' split
    all_goals intro h; first | exact hs | exact absurd rfl h
  have cbc : (o.typ = CKK_AES → o.symm.length = 16 ∨ o.symm.length = 24 ∨ o.symm.length = 32) →
      ∀ m i, (cbcInit s o m p i).2 ≠ .ok → (cbcInit s o m p i).1.Whole := by
    intro hk m i
    unfold cbcInit OpSt.started
    repeat' split
    all_goals intro h
    all_goals first
      | exact hs
      | exact absurd rfl h
      | (rename_i hn
         unfold Cbc.setParams at hn
         rw [if_pos (hk (Classical.not_not.mp (by assumption)))] at hn
         cases hn)
  have gcm : ∀ i, (gcmInit s o p i).2 ≠ .ok → (gcmInit s o p i).1.Whole := by
    intro i
    unfold gcmInit OpSt.started
    repeat' split
    all_goals intro h; first | exact hs | exact absurd rfl h
  have oaep : (o.typ = CKK_RSA → ParamOk .rsaOaep p) → ∀ i, (oaepInit s o p i).2 ≠ .ok → (oaepInit s o p i).1.Whole := by
    intro hk i
    unfold oaepInit
    split
    · intro _; exact hs
    rename_i ht
    have hp := hk (Classical.not_not.mp ht)
    split
    · rename_i a b src lab
      cases a <;> cases b <;> simp only [ParamOk] at hp
      subst hp
      intro h
      exact absurd rfl h
    · intro _; exact hs
  have pss : (o.typ = CKK_RSA → ParamOk .rsaPss p) → ∀ i, (pssInit s o p i).2 ≠ .ok → (pssInit s o p i).1.Whole := by
    intro hk i
    unfold pssInit
    split
    · intro _; exact hs
    rename_i ht
    have hp := hk (Classical.not_not.mp ht)
    split
    · rename_i a b salt
      cases a <;> cases b <;> simp only [ParamOk] at hp
      intro h
      exfalso
      apply h
      have : ¬ toInt32 salt > pssSaltMax := by unfold toInt32 pssSaltMax; omega
      simp only [setPss, if_neg this, if_true]
      rfl
    · intro _; exact hs
  have hmac : ∀ a, (o.typ = CKK_GENERIC_SECRET → e.crypto.mac.keyOk a o.symm = true) →
      ∀ i, (hmacInit e.crypto s o a p i).2 ≠ .ok → (hmacInit e.crypto s o a p i).1.Whole := by
    intro a hk i
    unfold hmacInit
    split
    · intro _; exact hs
    rename_i ht
    have hp := hk (Classical.not_not.mp ht)
    split
    · intro _; exact hs
    · intro h
      exfalso
      apply h
      simp only [HmacSt.start, hp, if_true]
      rfl
  cases k <;> cases m <;> first
    | exact hs
    | exact pl _ _ _ hok
    | exact cbc h _ _ hok
    | exact gcm _ hok
    | exact oaep h _ hok
    | exact pss h _ hok
    | exact hmac _ h _ hok

theorem AllWhole.same {l l' : Lib} (hf : AllWhole l) (hs : SameAt Session.ops l l') : AllWhole l' := by
  intro s hm
  have : s.ops ∈ l'.sessions.map Session.ops := List.mem_map_of_mem (f := Session.ops) hm
  rw [hs] at this
  obtain ⟨t, ht, he⟩ := List.mem_map.mp this
  have h2 : t.op = s.op := congrArg Prod.snd he
  rw [← h2]
  exact hf t ht

theorem AllWhole.upd {l : Lib} (hf : AllWhole l) {k : Nat} {f : Session → Session}
    (ho : ∀ t ∈ l.sessions, (f t).op.Whole) : AllWhole (l.upd k f) := by
  intro s hm
  obtain ⟨t, ht, rfl⟩ := List.mem_map.mp hm
  by_cases hk : t.handle = k
  · simp only [hk, if_true]; exact ho t ht
  · simp only [hk, if_false]; exact hf t ht

theorem AllWhole.callBody {l : Lib} (hf : AllWhole l) {c : Call} (hc : c.Safe e l) : AllWhole (callBody e l c).1 := by
  have hnew : ({} : OpSt).Whole := whole_none rfl
  have hob : NoObjs Session.ops := fun _ _ => rfl
  cases c with
  | cInit =>
    simp only [Verif.callBody, cInitialize]
    split
    · intro s hs
      simp only [addSession, List.mem_cons, List.not_mem_nil, or_false] at hs
      rcases hs with rfl | rfl <;> exact hnew
    · exact hf
  | cFinal =>
    simp only [Verif.callBody, cFinalize]
    split
    · intro s hs; cases hs
    · exact hf
  | slot id c =>
    simp only [Verif.callBody]
    split
    · exact hf
    split
    · exact hf
    cases c with
    | tokenInfo p n => simp only [slotCall]; split <;> exact hf
    | initToken p lab => exact hf.same (.of (initToken_sessions e l p lab).1)
    | closeAll =>
      intro s hs
      simp only [slotCall] at hs
      unfold Verif.closeAll at hs
      split at hs
      · cases hs
      · rename_i a as heq
        rcases List.mem_cons.mp hs with rfl | h1
        · exact whole_final (hf a (mem_closeDown (heq ▸ List.mem_cons_self)))
        · exact hf s (mem_closeDown (heq ▸ List.mem_cons_of_mem _ h1))
    | openSession rw' serial ptr =>
      simp only [slotCall]
      split
      · exact hf
      split
      · exact hf
      unfold openSession
      dsimp only
      split
      · exact hf
      split
      · exact hf.same (.upd (by intro _; rfl))
      · split
        · exact hf
        · split
          · rename_i s rest hadd
            intro t ht
            cases hss : l.sessions with
            | nil =>
              rw [hss] at hadd
              simp only [addSession, List.cons.injEq] at hadd
              obtain ⟨rfl, rfl⟩ := hadd
              simp only [List.mem_cons, List.not_mem_nil, or_false] at ht
              subst ht; exact hnew
            | cons a as =>
              rw [hss] at hadd
              simp only [addSession, List.cons.injEq] at hadd
              obtain ⟨rfl, rfl⟩ := hadd
              rcases List.mem_cons.mp ht with rfl | ht
              · exact hnew
              · exact hf t (hss ▸ ht)
          · exact hf
  | sess k c =>
    simp only [Verif.callBody]
    split
    · exact hf
    split
    · exact hf
    rename_i s hs
    obtain ⟨hsh, _, hsm⟩ := getSession_handle hs
    have hse := hf s hsm
    cases c with
    | close =>
      intro t ht
      rw [show (sessCall e l s .close).1.sessions = closeOne l.sessions s.handle from
        (closeSession_sessions e l s.handle).1] at ht
      unfold Verif.closeOne at ht
      split at ht
      · cases ht
      · rename_i heq
        split at ht
        · exact hf t (heq ▸ List.mem_cons_of_mem _ (mem_dropUnused ht))
        · obtain ⟨t, htm, rfl⟩ := List.mem_map.mp ht
          by_cases hk : t.handle = s.handle
          · simp only [hk, if_true]; exact whole_final (hf t (heq ▸ htm))
          · simp only [hk, if_false]; exact hf t (heq ▸ htm)
    | findInit t =>
      simp only [sessCall, cFindInit]
      repeat' split
      all_goals first | exact hf | exact hf.same (.upd (by intro _; rfl))
    | findNext p n =>
      simp only [sessCall, cFindNext]
      split
      · exact hf
      · exact hf.same (.upd (by intro _; rfl))
    | findFinal => exact hf.same (.upd (by intro _; rfl))
    | cryptInit kd m key =>
      simp only [sessCall, cCryptInit]
      split
      · exact hf
      rename_i m p
      split
      · exact hf
      rename_i o ho
      split
      · exact hf
      exact hf.upd fun _ _ => initCall_fits hse ((hc o (findObj_addressed hs ho)).2 m p rfl)
    | crypt d =>
      simp only [sessCall, cCrypt]
      split
      · exact hf.upd fun _ _ => whole_run hse _ _ _
      · exact hf.upd fun _ _ => whole_run hse _ _ _
      · split <;> exact hf
    | wrap m wk key ob =>
      simp only [sessCall, cWrap]
      split
      · exact hf
      rename_i m p
      split
      · exact hf
      split
      · exact hf
      split
      · exact hf
      split
      · exact hf
      rename_i w hw
      split
      · exact hf
      split
      · exact hf
      split
      · exact hf
      split
      · exact hf
      have h1 : (encryptInit s.op w m p).1.Whole :=
        initCall_fits (k := .encrypt) hse (hc m p rfl w (findObj_addressed hs hw))
      split
      · exact hf.upd fun _ _ => h1
      · exact hf.upd fun _ _ => whole_run h1 e.crypto _ (.encrypt _ _ _)
    | unwrap m wk d t ptr =>
      simp only [sessCall, cUnwrap]
      split
      · exact hf
      split
      · rename_i m p d t
        split
        · exact hf
        split
        · exact hf
        rename_i w hw
        split
        · exact hf
        split
        · exact hf
        split
        · exact hf
        have h1 : (decryptInit s.op w m p).1.Whole :=
          initCall_fits (k := .decrypt) hse (hc.2 m p rfl w (findObj_addressed hs hw))
        split
        · exact hf.upd fun _ _ => h1
        have h2 : AllWhole (l.upd s.handle fun u =>
            { u with op := (decrypt e.crypto (decryptInit s.op w m p).1 (some w) (some d) (.buf 0) 0).1, curr := some w.uid }) :=
          hf.upd fun _ _ => whole_run h1 e.crypto _ (.decrypt _ _ _)
        split
        · exact h2
        · unfold addRsaPrivate
          split
          · split
            · exact h2
            · exact h2.same (same_addObject hob ..)
          · exact h2
      · exact hf
    | _ =>
      exact hf.same (same_objs hob s _ (by simp) (by simp) (by simp) (by simp) (by simp) (by simp) (by simp) (by simp))

end Verif
