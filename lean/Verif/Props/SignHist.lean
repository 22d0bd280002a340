import Verif.Spec.SignHist
import Verif.Proofs.DerUnique
import Verif.Props.StreamHist
import Verif.Props.SignVerify
import Verif.Props.Hmac
import Verif.Props.EcSig
import Verif.Proofs.Ops
import Verif.Props.InitParam
import Verif.Props.History
import Verif.Props.Safe

/-!
# C146: what `C_Sign` writes after every history
-/

namespace Verif

variable {e : Env}

theorem finishSig_fst (s : OpSt) (n : Nat) (r : Option Bytes) : (finishSig s n r).1 = s := by cases r <;> rfl

theorem sized_fst {s : OpSt} {k : OpSt × Out} (ob : OutBuf) (n : Nat) (hk : k.1 = s) : (sized s ob n k).1 = s := by
  unfold sized
  repeat' split
  all_goals first | rfl | exact hk

theorem needInit_fst {s : OpSt} {k : OpSt × Out} (i : OpInit) (hk : k.1 = s) : (needInit s i k).1 = s := by
  unfold needInit
  repeat' split
  all_goals first | rfl | exact hk

/-- Except with an HMAC, `C_Sign` leaves the operation as it is. -/
theorem sign_keeps (x : Crypto) (s : OpSt) (o : Option Obj) (d : Option Bytes) (ob : OutBuf) (rnd : Nat)
    (hm : ∀ a, s.mech ≠ .hmac a) : (sign x s o d ob rnd).1 = s := by
  unfold sign withArgs
  split
  · rfl
  split
  · rfl
  split
  · rfl
  dsimp only
  split
  · exact needInit_fst _ (sized_fst _ _ (finishSig_fst ..))
  · exact needInit_fst _ (sized_fst _ _ (finishSig_fst ..))
  · exact needInit_fst _ (sized_fst _ _ (finishSig_fst ..))
  · refine needInit_fst _ ?_
    split
    · rfl
    · refine sized_fst _ _ ?_
      split
      · rfl
      · exact finishSig_fst ..
      · exact finishSig_fst ..
  · rename_i h; exact absurd h (hm _)
  · rfl

theorem after_signs (x : Crypto) (o : Obj) {h k : Nat} {m : Mech} {st : OpSt} (hst : st.mech = m) (cs : List Call)
    (hcs : ∀ c ∈ cs, SignsMore h k m c) : afterData x o st (dataCalls h cs) = st := by
  induction cs with
  | nil => rfl
  | cons c cs ih =>
    have ih := ih fun c hc => hcs c (List.mem_cons_of_mem _ hc)
    rcases hcs c (List.mem_cons_self ..) with hb | ⟨hm, d, ob, rnd, rfl⟩
    · cases c with
      | sess j c =>
        cases c with
        | crypt d => have hne : j ≠ h := hb.2; simp only [dataCalls, if_neg hne]; exact ih
        | _ => exact ih
      | _ => exact ih
    · simp only [dataCalls, if_true, afterData, DataCall.run]
      rw [sign_keeps x st (some o) d ob rnd (by rw [hst]; exact hm)]
      exact ih

theorem sized_finishSig {s s' : OpSt} {n need k : Nat} {r : Option Bytes} :
    ((sized s (.buf n) need (finishSig s' k r)).2.rv = .ok → r = some (sized s (.buf n) need (finishSig s' k r)).2.wr) ∧
    (need ≤ n → r.isSome → (sized s (.buf n) need (finishSig s' k r)).2.rv = .ok) := by
  unfold sized
  dsimp only
  split
  · refine ⟨nofun, fun h => ?_⟩; omega
  · cases r with
    | none => exact ⟨nofun, fun _ h => by cases h⟩
    | some w => exact ⟨fun _ => rfl, fun _ _ => rfl⟩

theorem sign_single (x : Crypto) (hmac : x.mac.Lawful) (hec : EcSigns x.ecdsa) {s st : OpSt} {o : Obj} {m : Mech} {p : MechParam}
    (hi : signInit x s o m p = (st, .ok)) (d : Bytes) (n rnd : Nat) :
    let r := (sign x st (some o) (some d) (.buf n) rnd).2
    (r.rv = .ok → SignedWith x o m p d rnd r.wr) ∧
    (SigRoom x o m n → (∃ sig, SignedWith x o m p d rnd sig) → r.rv = .ok) := by
  intro r
  cases m with
  | rsaX509 =>
    obtain ⟨h1, h2⟩ := plainInit_ok hi
    have hp : rsaSign x.rsa o.rsa d rnd =
        x.rsa.raw .privateEncrypt o.rsa (List.replicate (o.rsa.keyLen - d.length) 0 ++ d) rnd := by
      unfold rsaSign
      split
      · rfl
      · rename_i hl; rw [show o.rsa.keyLen - d.length = 0 by omega]; rfl
    simp only [r, sign, withArgs, needInit, h1, h2, if_true, reduceCtorEq, if_false, hp]
    exact ⟨sized_finishSig.1, fun hn ⟨w, hw⟩ => sized_finishSig.2 hn (Option.isSome_iff_exists.mpr ⟨w, hw⟩)⟩
  | rsaPkcs =>
    obtain ⟨h1, h2⟩ := plainInit_ok hi
    simp only [r, sign, withArgs, needInit, h1, h2, if_true, reduceCtorEq, if_false]
    exact ⟨sized_finishSig.1, fun hn ⟨w, hw⟩ => sized_finishSig.2 hn (Option.isSome_iff_exists.mpr ⟨w, hw⟩)⟩
  | rsaPss =>
    obtain ⟨h1, h2, a, b, k, rfl, h3⟩ := pssInit_ok hi
    simp only [r, sign, withArgs, needInit, h1, h2, if_true, reduceCtorEq, if_false, pssSign, h3, Bool.false_eq_true]
    exact ⟨sized_finishSig.1, fun hn ⟨w, hw⟩ => sized_finishSig.2 hn (Option.isSome_iff_exists.mpr ⟨w, hw⟩)⟩
  | ecdsa =>
    obtain ⟨h1, h2⟩ := plainInit_ok hi
    cases hc : o.ec.dp with
    | none =>
      refine ⟨fun hok => ?_, fun _ ⟨_, c, _, _, _, hc', _⟩ => by rw [hc] at hc'; cases hc'⟩
      simp [r, sign, withArgs, needInit, h1, h2, hc] at hok
    | some c =>
      cases hw : x.ecdsa.sign o.ec d rnd with
      | none =>
        refine ⟨fun hok => ?_, fun _ ⟨_, c, der, _, _, _, hw', _⟩ => by rw [hw] at hw'; cases hw'⟩
        simp only [r, sign, withArgs, needInit, h1, h2, hc, ecSign, hw, if_true, reduceCtorEq, if_false, sized] at hok
        split at hok <;> cases hok
      | some der =>
        obtain ⟨a, b, ha, hb, hder⟩ := hec _ _ _ _ _ hc hw
        have hr : r = _ := c52_sign x st o c d der n rnd a b h1 h2 hc hw hder ha hb
        rw [hr]
        split
        · exact ⟨fun _ => ⟨c, der, a, b, hc, hw, hder, rfl⟩, fun _ _ => rfl⟩
        · rename_i hn
          exact ⟨nofun, fun hroom => absurd (hroom c hc) hn⟩
  | hmac a =>
    have hr := (c49_sign_split x hmac s st o a p [d] n rnd hi).2.trans (c49_sign_split x hmac s st o a p [d] n rnd hi).1
    simp only [List.flatten_cons, List.flatten_nil, List.append_nil] at hr
    by_cases hn : x.mac.size a ≤ n
    · rw [if_pos hn] at hr
      have hr : r = _ := hr
      rw [hr]
      exact ⟨fun _ => rfl, fun _ _ => rfl⟩
    · rw [if_neg hn] at hr
      simp only [r, hr]
      exact ⟨nofun, fun hroom => absurd hroom hn⟩
  | _ => cases hi

/-- **C146.**  Whatever happened before, and whatever is done between `C_SignInit` and `C_Sign` that leaves the key and the
operation alone: when `C_Sign` succeeds, what it writes is the signature of the data made with the key and the parameters
named in the Init; and it succeeds if wolfCrypt does and there is room. -/
theorem c146_sign (hmac : e.crypto.mac.Lawful) (hec : EcSigns e.crypto.ecdsa) (hh : HashLen e) (hr : RandLen e)
    {l₀ : Lib} (h₀ : Start l₀) (hd : NoToken l₀) (cs cs' : List Call) (h k : Nat) (m : Mech) (p : MechParam)
    (hok : (answer e (run e l₀ cs) (.sess h (.cryptInit .sign (some (m, p)) k))).rv = .ok)
    (hcs : ∀ c ∈ cs', SignsMore h k m c)
    (hgood : (run e l₀ (cs ++ .sess h (.cryptInit .sign (some (m, p)) k) :: cs')).bad = false) :
    ∃ o, Addressed (run e l₀ cs) h k o ∧ ∀ d n rnd,
      let r := answer e (run e l₀ (cs ++ .sess h (.cryptInit .sign (some (m, p)) k) :: cs'))
        (.sess h (.crypt (.sign (some d) (.buf n) rnd)))
      (r.rv = .ok → SignedWith e.crypto o m p d rnd r.wr) ∧
      (SigRoom e.crypto o m n → (∃ sig, SignedWith e.crypto o m p d rnd sig) → r.rv = .ok) := by
  obtain ⟨s, o, st, _, h2, h3, _, _, h6⟩ := op_history hh hr h₀ hd cs cs' h k .sign m p hok
    (fun c hc => (hcs c hc).imp id fun ⟨_, d, ob, rnd, h⟩ => ⟨_, h⟩) hgood
  refine ⟨o, h2, fun d n rnd => ?_⟩
  dsimp only
  rw [h6, after_signs e.crypto o (initCall_ok (k := .sign) h3).1 cs' hcs]
  exact sign_single e.crypto hmac hec h3 d n rnd

/-- An environment with lawful RSA and ECDSA. -/
def Demo.signEnv : Env :=
  { Demo.pairEnv with crypto := { Demo.pairEnv.crypto with ecdsa := Demo.safeEnv.crypto.ecdsa } }

theorem Demo.signEnv_ec : EcSigns Demo.signEnv.crypto.ecdsa := fun k c d rnd der hc h =>
  let ⟨r, t, h1, h2, h3⟩ := Demo.safe_laws.ecSign k c d rnd der hc h
  ⟨r, t, h2, h3, h1⟩

set_option maxRecDepth 20000 in
/-- Non-vacuity of `c146_sign`: a pair is generated and its private key used in a session in which other things happen, an
earlier signature among them; the signature is written, and a buffer that is too small is refused. -/
example :
    let i := Call.sess 65538 (.cryptInit .sign (some (.rsaPkcs, .null 0)) 2)
    let between : List Call := .sess 65538 (.crypt (.sign (some [1, 2]) (.buf 1000) 5)) :: Demo.meanwhile
    let l := run Demo.signEnv Demo.fresh (Demo.setup ++ [Demo.genCall] ++ i :: between)
    Demo.signEnv.crypto.mac.Lawful ∧ EcSigns Demo.signEnv.crypto.ecdsa ∧ HashLen Demo.signEnv ∧ Start Demo.fresh ∧ NoToken Demo.fresh ∧
    (answer Demo.signEnv (run Demo.signEnv Demo.fresh (Demo.setup ++ [Demo.genCall])) i).rv = .ok ∧
    (∀ c ∈ between, SignsMore 65538 2 .rsaPkcs c) ∧ l.bad = false ∧
    (answer Demo.signEnv l (.sess 65538 (.crypt (.sign (some [1, 2]) (.buf 1000) 5)))).rv = .ok ∧
    (answer Demo.signEnv l (.sess 65538 (.crypt (.sign (some [1, 2]) (.buf 1000) 5)))).wr = [1, 2] ∧
    (answer Demo.signEnv l (.sess 65538 (.crypt (.sign (some [1, 2]) (.buf 1) 5)))).rv = .bufferTooSmall := by
  refine ⟨Demo.mac_lawful, Demo.signEnv_ec, Demo.hashLen, Demo.fresh_start, Demo.noToken, by decide, ?_, by decide, by decide, by decide, by decide⟩
  unfold Demo.meanwhile SignsMore Bystander
  intro c hc
  simp only [List.mem_cons, List.not_mem_nil, or_false] at hc
  rcases hc with rfl | rfl | rfl | rfl | rfl | rfl | rfl
  · exact .inr ⟨nofun, _, _, _, rfl⟩
  all_goals exact .inl ⟨trivial, fun h => h⟩

end Verif
