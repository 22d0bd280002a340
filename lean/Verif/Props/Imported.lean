import Verif.Props.Import
import Verif.Props.Enduring

/-!
# C139: a secret key that an orderly application imports onto the token works at any later time
-/

namespace Verif

variable {e : Env}

/-- **C139**: a secret key imported onto the token by an application that obeys the rules of C125
works for as long as it is not destroyed.  In any read/write session of the user, as long as there
is room on the token, importing it succeeds; and at any later time at which the user is logged in,
after any number of logouts, PIN changes and restarts, in any session, every job the key is fit for
can be begun with the same handle and answers with the result of the algorithm under the value that
was imported. -/
theorem c139_imported (hx : StoreLaws e.store) (hse : SealLen e) (hm : e.crypto.mac.Lawful) (ha : e.crypto.aes.Lawful) (hh : HashLen e)
    (hr : RandLen e) {l₀ : Lib} (h₀ : Start l₀) (hd : NoToken l₀) (cs : List Call) (h : Nat)
    (ho : stateOf e (run e l₀ cs) h = some .rwUser) (typ : Nat) (ht : typ = CKK_AES ∨ typ = CKK_GENERIC_SECRET) (v : Bytes)
    (hv : v.length ≤ 512) (hroom : (tokenObjs (run e l₀ cs)).length < 64) :
    ∃ κ, answer e (run e l₀ cs) (createCall h (secretTmpl true typ v)) = { rv := .ok, handle := some κ } ∧
      ∀ mid now, now = cs ++ createCall h (secretTmpl true typ v) :: mid → NotDestroyed κ mid → Ordered e l₀ now →
      BoolToken now → 2 * now.length < 2 ^ 28 → ClockWithin (2 ^ 62) (now.map .call) → (run e l₀ now).bad = false →
      ∀ h', UserIn e (run e l₀ now) h' →
      ∀ (j : Job) (n rnd : Nat), j.keyType = typ → j.Fit e.crypto v n →
        answer e (run e l₀ now) (j.init h' κ) = { rv := .ok } ∧
        ∀ cs', (∀ c ∈ cs', Bystander h' κ c) → (run e l₀ (now ++ j.init h' κ :: cs')).bad = false →
          answer e (run e l₀ (now ++ j.init h' κ :: cs')) (j.call h' n rnd) = j.result e.crypto v := by
  have hi := h₀.sinv.run e cs
  obtain ⟨s, hs, hb, hc, hlg⟩ := user_of_state hi (.inl ho)
  have hu : s.use = .rw := by
    rw [stateOf_eq hi hb hs] at ho
    unfold sessState at ho
    rw [hlg] at ho
    by_cases hw : s.use = .rw
    · exact hw
    · simp [hw] at ho
  obtain ⟨κ, l', hstep, hb', hc', hlog, s', o, hs', hmem, hk, h1, h2, h3⟩ := import_ok (e := e) hb hc hs hu true
    (createObject_import (e := e) hu true ht v hv) rfl (fun _ key b u => by rcases ht with rfl | rfl <;> rfl) hroom
  refine ⟨κ, by unfold answer; rw [hstep], ?_⟩
  rintro mid now rfl hmid hord hbt hlen hclock hgood h' hu' j n rnd hj hf
  have hrun1 : run e l₀ (cs ++ [createCall h (secretTmpl true typ v)]) = l' := by
    rw [run_append]; simp only [run, hstep]
  have hsplit : cs ++ createCall h (secretTmpl true typ v) :: mid = (cs ++ [createCall h (secretTmpl true typ v)]) ++ mid := by simp
  rw [hsplit] at hord hbt hlen hclock hgood hu' ⊢
  have hb1 : BoolToken (cs ++ [createCall h (secretTmpl true typ v)]) := fun d hd => hbt d (List.mem_append_left _ hd)
  have hn1 : 2 * (cs ++ [createCall h (secretTmpl true typ v)]).length < 2 ^ 28 := by
    rw [List.length_append] at hlen; omega
  obtain ⟨i1, i2, i3⟩ := reach_inv hh hr h₀ hd _ hb1 hn1
  rw [hrun1] at i1 i2 i3
  unfold HandleInv at i3
  rw [if_pos hc'] at i3
  simp only [if_true] at hmem
  have had : Addressed l' h κ o := ⟨List.mem_append_right _ hmem, hk⟩
  have hrg := i3.tok.range o.hb (List.mem_map.mpr ⟨o, hmem, rfl⟩)
  have hon : handleOnToken κ = true := by
    simp only [Obj.hb, hk] at hrg
    exact tok_handle hrg.1 (by omega)
  have hus : UserIn e l' h := by
    unfold UserIn
    rw [stateOf_eq i1 hb' hs']
    unfold sessState
    rw [hlog, hlg]
    by_cases hw : s'.use = .rw <;> simp [hw]
  rw [← hrun1] at had hus
  obtain ⟨⟨o', had', hsh⟩, -, -⟩ := c125_kept hx hse hh hr h₀ hd _ mid h h' κ o hbt hlen hclock hord hus had hon hmid hgood hu'
  have t1 : o'.typ = typ := (congrArg (·.typ) hsh :).trans h1
  have t2 : o'.cls = CKO_SECRET_KEY := (congrArg (·.cls) hsh :).trans h2
  have t3 : o'.data = .symm v := (congrArg (·.data) hsh :).trans h3
  obtain ⟨k1, _, k3⟩ := reach_inv hh hr h₀ hd _ hbt hlen
  obtain ⟨sm, hsm, hgm, hcm, _⟩ := user_of_state k1 hu'
  unfold HandleInv at k3
  rw [if_pos hcm] at k3
  have hfind := addressed_find k3 hlen hsm had'
  obtain ⟨kd, m, p, d, j1, j2, j3⟩ := job_init e.crypto sm.op (o := o') (t1.trans hj.symm) t3 hf
  have hinit : answer e (run e l₀ ((cs ++ [createCall h (secretTmpl true typ v)]) ++ mid)) (initOf h' kd m p κ) = { rv := .ok } := by
    generalize hL : run e l₀ ((cs ++ [createCall h (secretTmpl true typ v)]) ++ mid) = L at *
    have hbody : (callBody e L (.sess h' (.cryptInit kd (some (m, p)) κ))).2 = { rv := .ok } := by
      have hc0 : ¬ L.count ≤ 0 := by omega
      have : ¬ ((initCall e.crypto kd sm.op o' m p).2 = .ok ∧ o'.cls = CKO_CERTIFICATE) := by
        rintro ⟨_, hx⟩; rw [t2] at hx; exact absurd hx (by decide)
      simp only [callBody, if_neg hc0, hsm, sessCall, cCryptInit, hfind]
      rw [if_neg this, j3]
    unfold answer initOf
    rw [step_eq hgm (by rw [hbody]; simp)]
    exact hbody
  rw [j1]
  refine ⟨hinit, fun cs' hcs' hgd => ?_⟩
  obtain ⟨sx, ox, st, g1, g2, g3, g4⟩ := one_shot_at hh hr h₀ hd _ cs' h' κ kd m p (by rw [hinit]) hcs' hgd
  obtain rfl : ox = o' := addressed_unique k3 hlen hsm g2 had'
  have := g4 (d rnd)
  unfold dataOf initOf at this
  rw [j2, this]
  exact job_run e.crypto hm ha _ st t3 hf j1 g3 (j2 h' rnd)

/-! ## A case -/

namespace Demo

/-- A key is imported and used after logouts, a PIN change and two restarts. -/
def importedLong : List Call := setup ++ createCall 65538 (secretTmpl true CKK_GENERIC_SECRET (List.replicate 20 5)) :: longerWay

set_option maxRecDepth 100000 in
/-- The hypotheses of `c139_imported` are met. -/
example : stateOf env (run env fresh setup) 65538 = some .rwUser ∧ (tokenObjs (run env fresh setup)).length < 64 ∧
    (answer env (run env fresh setup) (createCall 65538 (secretTmpl true CKK_GENERIC_SECRET (List.replicate 20 5)))).handle = some tok1 ∧
    NotDestroyed tok1 longerWay ∧ Ordered env fresh importedLong ∧ BoolToken importedLong ∧
    ClockWithin (2 ^ 62) (importedLong.map .call) ∧ (run env fresh importedLong).bad = false ∧
    UserIn env (run env fresh importedLong) 65538 ∧
    (Job.mac .sha256 [1, 2, 3]).Fit env.crypto (List.replicate 20 5) 32 ∧
    (run env fresh (importedLong ++ [(Job.mac .sha256 [1, 2, 3]).init 65538 tok1])).bad = false := by
  refine ⟨by decide +kernel, by decide +kernel, by decide +kernel, ?_, ordered_of (by decide +kernel), by unfold BoolToken; decide +kernel,
    clockWithin_of (by decide), by decide +kernel, by unfold UserIn; decide +kernel, by unfold Job.Fit; decide, by decide +kernel⟩
  intro h hm
  simp [longerWay, longWay, openCall, createCall, loginCall, tok1] at hm

end Demo

end Verif
