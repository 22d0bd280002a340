import Verif.Spec.VerifyHist
import Verif.Proofs.DerUnique
import Verif.Props.StreamHist
import Verif.Props.Rsa
import Verif.Props.EcSig
import Verif.Props.InitParam
import Verif.Proofs.Ops
import Verif.Props.History

/-!
# C144: signatures are judged right after every history
-/

namespace Verif

variable {e : Env}

theorem verify_keeps (x : Crypto) (s : OpSt) (o : Option Obj) (d sig : Option Bytes) (hm : ∀ a, s.mech ≠ .hmac a) :
    (verify x s o d sig).1 = s := by
  have f3 : ∀ r, (finishVerify s r).1 = s := by
    intro r; cases r with
    | none => rfl
    | some b => cases b <;> rfl
  simp only [verify, withArgs, needInit]
  repeat' split
  all_goals first | rfl | exact f3 _ | (rename_i h _; exact absurd h (hm _)) | simp_all

theorem after_verifies (x : Crypto) (o : Obj) {h k : Nat} {m : Mech} {st : OpSt} (hst : st.mech = m) (cs : List Call)
    (hcs : ∀ c ∈ cs, VerifiesMore h k m c) : afterData x o st (dataCalls h cs) = st := by
  induction cs with
  | nil => rfl
  | cons c cs ih =>
    have ih := ih fun c hc => hcs c (List.mem_cons_of_mem _ hc)
    rcases hcs c (List.mem_cons_self ..) with hb | ⟨hm, d, sig, rfl⟩
    · cases c with
      | sess j c =>
        cases c with
        | crypt d => have hne : j ≠ h := hb.2; simp only [dataCalls, if_neg hne]; exact ih
        | _ => exact ih
      | _ => exact ih
    · simp only [dataCalls, if_true, afterData, DataCall.run]
      rw [verify_keeps x st (some o) d sig (by rw [hst]; exact hm)]
      exact ih

/-- What `C_Verify` answers right after the Init. -/
theorem verify_right (x : Crypto) (hx : x.rsa.Lawful) (hmac : x.mac.Lawful) {s₀ st : OpSt} {o : Obj} {m : Mech} {p : MechParam}
    (hi : verifyInit x s₀ o m p = (st, .ok)) (d sig : Bytes) (hj : Judged o m d) :
    (verify x st (some o) (some d) (some sig)).2.rv = .ok ↔ RightSig x o m p d sig := by
  have plain : ∀ m i t, plainInit s₀ o t m p i = (st, .ok) → st.mech = m ∧ st.init = i := by
    intro m i t h
    unfold plainInit OpSt.started at h
    (repeat' split at h) <;> cases h
    exact ⟨rfl, rfl⟩
  cases m with
  | rsaPkcs =>
    obtain ⟨h1, h2⟩ := plain _ _ _ hi
    exact (c50_pkcs_verify_exact x st o d sig h1 h2).1
  | rsaX509 =>
    obtain ⟨h1, h2⟩ := plain _ _ _ hi
    exact c51_x509_verify_partial x hx st o d sig h1 h2 hj.1 hj.2
  | rsaPss =>
    have hp : ∃ hs mgf n, p = .pss (some hs) (some mgf) n := by
      simp only [verifyInit, pssInit] at hi
      split at hi
      · cases hi
      cases p with
      | pss a b n =>
        cases a with
        | none => simp [setPss] at hi
        | some a =>
          cases b with
          | none => simp [setPss] at hi
          | some b => exact ⟨a, b, n, rfl⟩
      | _ => cases hi
    obtain ⟨hs, mgf, n, rfl⟩ := hp
    exact c67_pss_verify_exact x s₀ st o d sig hs mgf n hi
  | ecdsa =>
    obtain ⟨h1, h2⟩ := plain _ _ _ hi
    show _ ↔ ∃ c, _
    cases hc : o.ec.dp with
    | none =>
      simp [verify, withArgs, needInit, h1, h2, hc]
    | some c =>
      obtain ⟨g1, g2⟩ := c52_verify x st o c d sig h1 h2 hc (hj c hc)
      by_cases hl : sig.length = 2 * c.size
      · obtain ⟨der, k1, k2, _⟩ := g2 hl
        rw [k2]
        constructor
        · intro hv; exact ⟨c, rfl, hl, der, k1, hv⟩
        · rintro ⟨c', hc', _, der', k3, k4⟩
          cases hc'
          rw [k1.unique k3]; exact k4
      · rw [g1 hl]
        constructor
        · intro hv; cases hv
        · rintro ⟨c', hc', hl', _⟩
          cases hc'
          exact absurd hl' hl
  | hmac a =>
    have := (c49_verify_exact x hmac s₀ st o a p [d] sig hi).2
    simp only [List.flatten_cons, List.flatten_nil, List.append_nil] at this
    rw [this]
    show _ ↔ sig = _
    split
    · rename_i h; simp [h]
    · rename_i h; simp [h]
  | _ => cases hi

theorem verifyInit_mech {x : Crypto} {s₀ st : OpSt} {o : Obj} {m : Mech} {p : MechParam}
    (hi : verifyInit x s₀ o m p = (st, .ok)) : st.mech = m := (initCall_ok (k := .verify) hi).1

/-- **C144** (partial).  Whatever happened before, and whatever is done between `C_VerifyInit` and `C_Verify` that leaves
the key and the operation alone: `C_Verify` returns `CKR_OK` exactly for the correct signatures of the data with the key
that was named.  Missing: raw RSA with data of another length than the key's (`c51_violated_*`). -/
theorem c144_verify_partial (hx : e.crypto.rsa.Lawful) (hmac : e.crypto.mac.Lawful) (hh : HashLen e) (hr : RandLen e)
    {l₀ : Lib} (h₀ : Start l₀) (hd : NoToken l₀) (cs cs' : List Call) (h k : Nat) (m : Mech) (p : MechParam)
    (hok : (answer e (run e l₀ cs) (.sess h (.cryptInit .verify (some (m, p)) k))).rv = .ok)
    (hcs : ∀ c ∈ cs', VerifiesMore h k m c)
    (hgood : (run e l₀ (cs ++ .sess h (.cryptInit .verify (some (m, p)) k) :: cs')).bad = false) :
    ∃ o, Addressed (run e l₀ cs) h k o ∧ ∀ d sig, Judged o m d →
      ((answer e (run e l₀ (cs ++ .sess h (.cryptInit .verify (some (m, p)) k) :: cs'))
        (.sess h (.crypt (.verify (some d) (some sig))))).rv = .ok ↔ RightSig e.crypto o m p d sig) := by
  obtain ⟨s, o, st, _, h2, h3, _, _, h6⟩ := op_history hh hr h₀ hd cs cs' h k .verify m p hok
    (fun c hc => (hcs c hc).imp id fun ⟨_, d, sig, h⟩ => ⟨_, h⟩) hgood
  refine ⟨o, h2, fun d sig hj => ?_⟩
  rw [h6, after_verifies e.crypto o (verifyInit_mech h3) cs' hcs]
  exact verify_right e.crypto hx hmac h3 d sig hj

set_option maxRecDepth 20000 in
/-- Non-vacuity of `c144_verify_partial`: a pair is generated and used in a session in which other things happen; the
right signature is accepted and another one is not, before and after. -/
example :
    let i := Call.sess 65538 (.cryptInit .verify (some (.rsaPkcs, .null 0)) 1)
    let between : List Call := .sess 65538 (.crypt (.verify (some [1, 2]) (some [3, 4]))) :: Demo.meanwhile
    Demo.pairEnv.crypto.rsa.Lawful ∧ Demo.pairEnv.crypto.mac.Lawful ∧ Start Demo.fresh ∧ NoToken Demo.fresh ∧
    (answer Demo.pairEnv (run Demo.pairEnv Demo.fresh (Demo.setup ++ [Demo.genCall])) i).rv = .ok ∧
    (∀ c ∈ between, VerifiesMore 65538 1 .rsaPkcs c) ∧
    (run Demo.pairEnv Demo.fresh (Demo.setup ++ [Demo.genCall] ++ i :: between)).bad = false ∧
    (answer Demo.pairEnv (run Demo.pairEnv Demo.fresh (Demo.setup ++ [Demo.genCall] ++ i :: between))
      (.sess 65538 (.crypt (.verify (some [1, 2]) (some [1, 2]))))).rv = .ok ∧
    (answer Demo.pairEnv (run Demo.pairEnv Demo.fresh (Demo.setup ++ [Demo.genCall] ++ i :: between))
      (.sess 65538 (.crypt (.verify (some [1, 2]) (some [1, 3]))))).rv = .signatureInvalid := by
  refine ⟨Demo.blockRsa_lawful, Demo.mac_lawful, Demo.fresh_start, Demo.noToken, by decide, ?_, by decide, by decide, by decide⟩
  unfold Demo.meanwhile VerifiesMore Bystander
  intro c hc
  simp only [List.mem_cons, List.not_mem_nil, or_false] at hc
  rcases hc with rfl | rfl | rfl | rfl | rfl | rfl | rfl
  · exact .inr ⟨nofun, _, _, rfl⟩
  all_goals exact .inl ⟨trivial, fun h => h⟩

end Verif
