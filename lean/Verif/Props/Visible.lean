import Verif.Props.Usage
import Verif.Props.Find
import Verif.Props.ReadOnly
/-!
# Visibility

C23: private objects without a login.  C64: `C_FindObjects` without a search.
-/
namespace Verif

variable {e : Env}

theorem cleared_blank {o : Obj} (h : o.IsSecret) :
    (cleared o).encoded = true ∧ (cleared o).Blank := by
  obtain ⟨hc, h⟩ := h
  unfold cleared
  have hz : ∀ (n : Nat), ∀ b ∈ List.replicate n (0 : UInt8), b = 0 := by
    intro n b hb; exact (List.mem_replicate.mp hb).2
  by_cases h1 : o.typ = CKK_RSA
  · have hp : o.cls = CKO_PRIVATE_KEY := by
      rcases h with h | h | h
      · exact h
      · rw [h1] at h; cases h
      · rw [h1] at h; cases h
    rw [if_pos h1, if_pos hp]
    exact ⟨rfl, rfl⟩
  rw [if_neg h1]
  by_cases h2 : o.typ = CKK_EC
  · have hp : o.cls = CKO_PRIVATE_KEY := by
      rcases h with h | h | h
      · exact h
      · rw [h2] at h; cases h
      · rw [h2] at h; cases h
    rw [if_pos h2, if_pos hp]
    exact ⟨rfl, rfl, rfl, rfl⟩
  rw [if_neg h2]
  by_cases h3 : o.typ = CKK_DH
  · have hp : o.cls = CKO_PRIVATE_KEY := by
      rcases h with h | h | h
      · exact h
      · rw [h3] at h; cases h
      · rw [h3] at h; cases h
    rw [if_pos h3, if_pos hp]
    exact ⟨rfl, hz _⟩
  rw [if_neg h3]
  exact ⟨rfl, hz _⟩

/-- What `encodeObj` leaves of a key. -/
theorem encodeObj_blank {x : StoreExt} {k : Bytes} {o : Obj} (h : o.IsSecret) (hok : (encodeObj x k true o).1 = true) :
    (encodeObj x k true o).2.encoded = true ∧ (encodeObj x k true o).2.Blank := by
  have hkey : (encodeKey x k o).2.cls = o.cls ∧ (encodeKey x k o).2.typ = o.typ := by
    unfold encodeKey encodeRsa encodeEcc encodeDh encodeSymm
    dsimp only
    repeat' split
    all_goals exact ⟨rfl, rfl⟩
  unfold encodeObj at hok ⊢
  rw [if_neg h.1] at hok ⊢
  dsimp only at hok ⊢
  by_cases h1 : (encodeKey x k o).1 = true
  · rw [if_pos ⟨rfl, h1⟩]
    exact cleared_blank ⟨by rw [hkey.1]; exact h.1, by rw [hkey.1, hkey.2]; exact h.2⟩
  · rw [if_neg (fun h => h1 h.2)] at hok
    exact absurd hok h1

theorem encodeAll_blank {x : StoreExt} {k : Bytes} {os : List Obj} (hok : ∀ o ∈ os, (encodeObj x k true o).1 = true) :
    ∀ o' ∈ encodeAll x k os, o'.IsSecret → o'.encoded = true ∧ o'.Blank := by
  induction os with
  | nil => intro o' h; cases h
  | cons o os ih =>
    intro o' h hs
    simp only [encodeAll] at h
    rw [if_pos (hok o List.mem_cons_self)] at h
    rcases List.mem_cons.mp h with rfl | h
    · have hsame := encodeObj_same x k true o
      have hb : (encodeObj x k true o).2.cls = o.cls ∧ (encodeObj x k true o).2.typ = o.typ := by
        rw [hsame]; exact ⟨rfl, rfl⟩
      exact encodeObj_blank ⟨by rw [← hb.1]; exact hs.1, by rw [← hb.1, ← hb.2]; exact hs.2⟩
        (hok o List.mem_cons_self)
    · exact ih (fun p hp => hok p (List.mem_cons_of_mem _ hp)) o' h hs

/-- **C23, the part that holds**: when the user logs out, and provided every key of the
token can be encoded, the token's private and secret keys are wiped from memory
(reading them by handle gives zeros) and not found by any search.  What fails is
`c23_violated`: session objects, other objects of the token, and attributes read by
handle. -/
theorem c23_partial (hh : HashLen e) (hr : RandLen e) {l₀ : Lib} (h₀ : Start l₀) (hd : NoToken l₀) (cs : List Call)
    (hb : BoolToken cs) (hn : 2 * (cs.length + 1) < 2 ^ 28) (h : Nat) :
    let l := run e l₀ cs
    let l' := (step e l (.sess h .logout)).1
    IsOpen e l h → l.token.login = .user →
    (∀ o ∈ tokenObjs l, (encodeObj e.store l.token.key true o).1 = true) →
    ∀ o ∈ tokenObjs l', o.IsSecret → o.Blank ∧ ∀ k w, o.handle ∉ hits e l' k w := by
  intro l l' ho hu hok o hom hs
  have hi : SInv l := h₀.sinv.run e cs
  obtain ⟨hbad, s, hss⟩ := (isOpen_iff hi).mp ho
  have hcnt := count_pos_of_open hi hss
  have hl' : l' = logout e l := by
    have hbody : callBody e l (.sess h .logout) = (logout e l, { rv := .ok }) := by
      simp only [callBody, hss, sessCall]; rw [if_neg (by omega)]
    show (step e l (.sess h .logout)).1 = _
    rw [step_eq hbad (by rw [hbody]; simp), hbody]
  have hob : tokenObjs l' = encodeAll e.store l.token.key l.token.objs := by
    unfold tokenObjs
    rw [hl']
    unfold logout
    dsimp only
    rw [if_pos hu]
  rw [hob] at hom
  obtain ⟨h1, h2⟩ := encodeAll_blank hok o hom hs
  refine ⟨h2, fun k w hk => ?_⟩
  have hl'run : l' = run e l₀ (cs ++ [.sess h .logout]) := by rw [run_append]; rfl
  have hdist := c18_distinct hh hr h₀ hd (cs ++ [.sess h .logout])
    (by
      intro c hc t ht
      rcases List.mem_append.mp hc with hc | hc
      · exact hb c hc t ht
      · rw [List.mem_singleton] at hc; subst hc; cases ht)
    (by simpa using hn)
  rw [← hl'run] at hdist
  obtain ⟨d1, d2⟩ := hdist
  unfold hits at hk
  obtain ⟨p, hp, hpe⟩ := List.mem_map.mp hk
  obtain ⟨hp1, hp2⟩ := List.mem_filter.mp hp
  simp only [decide_eq_true_eq] at hp2
  have hom' : o ∈ tokenObjs l' := by rw [hob]; exact hom
  have hpo : p = o := by
    rcases List.mem_append.mp hp1 with h3 | h3
    · exact absurd hpe ((d2 k).2 p h3 o hom')
    · have : ∀ (p o : Obj) {os : List Obj}, (os.map (·.handle)).Nodup → p ∈ os → o ∈ os → p.handle = o.handle → p = o := by
        intro p o os hnd h4 h5 h6
        induction os with
        | nil => cases h4
        | cons q os ih =>
          obtain ⟨n1, n2⟩ := List.nodup_cons.mp hnd
          rcases List.mem_cons.mp h4 with rfl | h7 <;> rcases List.mem_cons.mp h5 with rfl | h8
          · rfl
          · exact absurd (List.mem_map.mpr ⟨o, h8, h6.symm⟩) n1
          · exact absurd (List.mem_map.mpr ⟨p, h7, h6⟩) n1
          · exact ih n2 h7 h8
      exact this p o d1 h3 hom' hpe
  subst hpo
  exact absurd (h1.symm.trans hp2.1.1) (by simp)

namespace Demo

/-- A private AES key of the session and one of the token, then the user logs out. -/
def privHist : List Call := setup ++
  [createCall 65538 (aesTmpl false 7 ++ [.of .priv (cbool true), .of .encrypt (cbool true), .of .extractable (cbool true)]),
   createCall 65538 (aesTmpl true 7 ++ [.of .priv (cbool true), .of .label [1, 2]]),
   .sess 65538 .logout]

/-- **C23 fails**: nobody is logged in, yet a search finds the private session key,
its value is read, and the label of the private token key too. -/
theorem c23_violated :
    (sessionInfo env (run env fresh privHist) 65538).state = some (.rwPublic, true) ∧
    ((sessObjs (run env fresh privHist) 65538 ++ tokenObjs (run env fresh privHist)).all
      fun o => o.flag &&& FLAG_PRIVATE != 0) = true ∧
    (answers env (run env fresh privHist) [.sess 65538 (.findInit (some [])), .sess 65538 (.findNext true 10)]).map
      (·.found) = [[], [1]] ∧
    (answers env (run env fresh privHist) [readOne 65538 1 .value 16, readOne 65538 (2 ^ 28 + 1) .label 2]).map
      (fun r => (r.rv, r.tmpl.map fun t => t.map (·.val))) =
      [(.ok, some [List.replicate 16 7]), (.ok, some [[1, 2]])] := by decide

/-- Non-vacuity of `c23_partial`: the user is logged in, all keys can be encoded, and a
secret key is on the token. -/
example :
    let l := run env fresh (setup ++ [createCall 65538 (aesTmpl true 7)])
    (sessionInfo env l 65538).rv = .ok ∧ l.token.login = .user ∧
    ((tokenObjs l).all fun o => (encodeObj env.store l.token.key true o).1) = true ∧
    ((tokenObjs (step env l (.sess 65538 .logout)).1).any fun o => o.typ == CKK_AES) = true := by decide

/-- **C64 fails**: after `C_FindObjectsFinal` `C_FindObjects` answers `CKR_OK` and goes on
delivering what the search before had found. -/
theorem c64_violated :
    (answers env (run env fresh (setup ++ [createCall 65538 (aesTmpl false 1), createCall 65538 (aesTmpl false 2)]))
      [.sess 65538 (.findInit (some [])), .sess 65538 (.findNext true 1), .sess 65538 .findFinal,
       .sess 65538 (.findNext true 1)]).map (fun r => (r.rv, r.found)) =
      [(.ok, []), (.ok, [2]), (.ok, []), (.ok, [1])] := by decide

/-- It even delivers, in a new session, what an earlier session on the same place had
found: a handle that names nothing there. -/
theorem c64_violated_new_session :
    (answers env (run env fresh (setup ++ [createCall 65538 (aesTmpl false 1)]))
      [.sess 65538 (.findInit (some [])), .sess 65538 .close, openCall true, .sess 65538 (.findNext true 1),
       .sess 65538 (.size 1 true)]).map (fun r => (r.rv, r.found)) =
      [(.ok, []), (.ok, []), (.ok, []), (.ok, [1]), (.objectHandleInvalid, [])] := by decide

end Demo

/-- No session has found anything. -/
def NoneFound (l : Lib) : Prop := ∀ s ∈ l.sessions, s.find.found = []

theorem NoneFound.same {l l' : Lib} (h : NoneFound l) (hs : SameAt (fun s : Session => s.find.found) l l') :
    NoneFound l' := by
  intro s hm
  have : s.find.found ∈ l'.sessions.map (fun s : Session => s.find.found) :=
    List.mem_map_of_mem (f := fun s : Session => s.find.found) hm
  rw [hs] at this
  obtain ⟨t, ht, he⟩ := List.mem_map.mp this
  rw [← he]
  exact h t ht

theorem NoneFound.callBody {l : Lib} (h : NoneFound l) (c : Call) (hc : ∀ k t, c ≠ .sess k (.findInit t)) :
    NoneFound (callBody e l c).1 := by
  cases c with
  | cInit =>
    simp only [Verif.callBody, cInitialize]
    split
    · intro s hs
      simp only [addSession, List.mem_cons, List.not_mem_nil, or_false] at hs
      rcases hs with rfl | rfl <;> rfl
    · exact h
  | cFinal =>
    simp only [Verif.callBody, cFinalize]
    split
    · intro s hs; cases hs
    · exact h
  | slot id c =>
    simp only [Verif.callBody]
    split
    · exact h
    split
    · exact h
    cases c with
    | tokenInfo p n => simp only [slotCall]; split <;> exact h
    | initToken p lab => exact h.same (.of (initToken_sessions e l p lab).1)
    | closeAll =>
      intro s hs
      simp only [slotCall] at hs
      unfold Verif.closeAll at hs
      split at hs
      · cases hs
      · rename_i a as heq
        rcases List.mem_cons.mp hs with rfl | h1
        · exact h a (mem_closeDown (heq ▸ List.mem_cons_self))
        · exact h s (mem_closeDown (heq ▸ List.mem_cons_of_mem _ h1))
    | openSession rw' serial ptr =>
      simp only [slotCall]
      split
      · exact h
      split
      · exact h
      unfold openSession
      dsimp only
      split
      · exact h
      split
      · exact h.same (.upd (by intro _; rfl))
      · split
        · exact h
        · split
          · rename_i s rest hadd
            intro t ht
            cases hss : l.sessions with
            | nil =>
              rw [hss] at hadd
              simp only [addSession, List.cons.injEq] at hadd
              obtain ⟨rfl, rfl⟩ := hadd
              simp only [List.mem_cons, List.not_mem_nil, or_false] at ht
              subst ht; rfl
            | cons a as =>
              rw [hss] at hadd
              simp only [addSession, List.cons.injEq] at hadd
              obtain ⟨rfl, rfl⟩ := hadd
              rcases List.mem_cons.mp ht with rfl | ht
              · rfl
              · exact h t (hss ▸ ht)
          · exact h
  | sess k c =>
    simp only [Verif.callBody]
    split
    · exact h
    split
    · exact h
    rename_i s hs
    have hob : NoObjs (fun s : Session => s.find.found) := fun _ _ => rfl
    have hcr : NoCrypt (fun s : Session => s.find.found) := fun _ _ _ => rfl
    by_cases hcl : c = .close
    · subst hcl
      intro t ht
      rw [show (sessCall e l s .close).1.sessions = closeOne l.sessions s.handle from
        (closeSession_sessions e l s.handle).1] at ht
      unfold Verif.closeOne at ht
      split at ht
      · cases ht
      · rename_i heq
        split at ht
        · exact h t (heq ▸ List.mem_cons_of_mem _ (mem_dropUnused ht))
        · obtain ⟨t, htm, rfl⟩ := List.mem_map.mp ht
          split
          · exact h t (heq ▸ htm)
          · exact h t (heq ▸ htm)
    · cases c with
      | close => exact absurd rfl hcl
      | findInit t => exact absurd rfl (hc k t)
      | findNext p n =>
        simp only [sessCall, cFindNext]
        split
        · exact h
        · exact h.same (.upd (by intro _; rfl))
      | findFinal => exact h.same (.upd (by intro _; rfl))
      | cryptInit a b d => exact h.same (same_cryptInit hcr ..)
      | crypt d => exact h.same (same_crypt hcr ..)
      | wrap a b d o => exact h.same (same_wrap hcr ..)
      | unwrap a b d o t => exact h.same (same_unwrap hcr hob ..)
      | _ =>
        exact h.same (same_objs hob s _ (by simp) (by simp) (by simp) (by simp) (by simp) (by simp) (by simp) (by simp))

/-- **C64, the part that holds**: if no search has been started at all, `C_FindObjects`
delivers nothing. -/
theorem c64_partial {l₀ : Lib} (h₀ : Start l₀) (cs : List Call) (hno : ∀ k t, .sess k (.findInit t) ∉ cs)
    (h : Nat) (p : Bool) (n : Nat) : (answer e (run e l₀ cs) (.sess h (.findNext p n))).found = [] := by
  have key : ∀ l cs, NoneFound l → (∀ k t, .sess k (.findInit t) ∉ cs) → NoneFound (run e l cs) := by
    intro l cs
    induction cs generalizing l with
    | nil => exact fun h _ => h
    | cons c cs ih =>
      intro hl hcs
      refine ih _ ?_ (fun k t hm => hcs k t (List.mem_cons_of_mem _ hm))
      have h1 := NoneFound.callBody (e := e) hl c
        (fun k t he => hcs k t (by rw [he]; exact List.mem_cons_self))
      unfold step
      dsimp only
      split
      · exact hl
      · split <;> exact h1
  have hl := key l₀ cs (by intro s hs; rw [h₀.sessions] at hs; cases hs) hno
  generalize run e l₀ cs = l at *
  unfold answer
  cases hb : l.bad with
  | true => rw [step_bad hb]
  | false =>
    rw [step_resp hb]
    simp only [Verif.callBody]
    split
    · rfl
    split
    · rfl
    rename_i s hs
    have := hl s (getSession_handle hs).2.2
    simp only [sessCall, cFindNext, this]
    split <;> simp

end Verif
