import Verif.Spec.Rest
import Verif.Proofs.Rng
import Verif.Props.Pair
import Verif.Props.Usage
import Verif.Props.AttrData
import Verif.Props.Restart
import Verif.Props.History
import Verif.Proofs.AllObj

/-!
# C91, C92, C93: the whole interface, random numbers and generated keys
-/

namespace Verif

variable {e : Env}

/-! ## C91 -/

/-- **C91**: a function the library does not offer never succeeds and changes nothing,
whatever its arguments and the state of the library. -/
theorem c91_refused (l : Lib) (c : RestCall) (hc : c.NotOffered) :
    (restStep l c).1 = l ∧ (restStep l c).2.rv ≠ .ok := by
  unfold restStep
  split
  · exact ⟨rfl, by simp⟩
  · unfold restBody
    split
    · exact ⟨rfl, by simp⟩
    · cases c with
      | waitEvent => exact ⟨rfl, by simp⟩
      | sess h c =>
        dsimp only
        split
        · exact ⟨rfl, by simp⟩
        · cases c with
          | seed p => exact hc.elim
          | _ =>
            simp only [restSess]
            refine ⟨trivial, ?_⟩
            repeat' split
            all_goals simp
      | _ => exact hc.elim

/-- **C91**: asking about the library, its slots and mechanisms changes nothing. -/
theorem c91_asks (l : Lib) (c : RestCall) (hc : c.Asks) : (restStep l c).1 = l := by
  unfold restStep
  split
  · rfl
  · unfold restBody
    split
    · rfl
    · cases c with
      | waitEvent => rfl
      | sess h c => exact hc.elim
      | _ => dsimp only; repeat' split
             all_goals rfl

/-- **C91**: before `C_Initialize`, and only then, these functions answer that the library is
not initialised. -/
theorem c91_uninitialised (l : Lib) (hb : l.bad = false) (c : RestCall) :
    (restStep l c).2.rv = .cryptokiNotInitialized ↔ l.count ≤ 0 := by
  unfold restStep
  rw [hb, if_neg (by simp)]
  unfold restBody
  split
  · simp [*]
  · rename_i hn
    refine iff_of_false ?_ hn
    cases c with
    | sess h c =>
      dsimp only
      split
      · simp
      · cases c <;> simp only [restSess] <;> repeat' split
        all_goals simp
    | slotList p b n => 
      dsimp only
      repeat' split
      all_goals first | (simp; done) | (simp only [ListOut.resp, getSlotList]; repeat' split)
      all_goals simp
    | mechList i b n => 
      dsimp only
      repeat' split
      all_goals first | (simp; done) | (simp only [ListOut.resp, getMechanismList]; repeat' split)
      all_goals simp
    | _ => dsimp only; repeat' split
           all_goals simp

/-- **C91**: the slots that can be asked about, their mechanisms included, are exactly those
that `C_GetSlotList` lists; so are those on which tokens are initialised, asked about and
opened. -/
theorem c91_slots (l : Lib) (hb : l.bad = false) (hc : 0 < l.count) (id : Nat) :
    let listed := id ∈ (restStep l (.slotList 0 true (some 1))).2.wr
    (∀ ptr, (restStep l (.slotInfo id ptr)).2.rv = .slotIdInvalid ↔ ¬ listed) ∧
    (∀ buf n, (restStep l (.mechList id buf n)).2.rv = .slotIdInvalid ↔ ¬ listed) ∧
    (∀ m ptr, (restStep l (.mechInfo id m ptr)).2.rv = .slotIdInvalid ↔ ¬ listed) ∧
    ∀ c, ¬ listed → (answer e l (.slot id c)).rv = .slotIdInvalid := by
  have hn : ¬ l.count ≤ 0 := by omega
  have hl : (restStep l (.slotList 0 true (some 1))).2.wr = [1] := by
    simp [restStep, restBody, hb, hn, show getSlotList true 1 = ⟨.ok, [1], some 1⟩ by decide, ListOut.resp]
  rw [hl]
  simp only [List.mem_singleton, restStep, restBody, hb, hn, Bool.false_eq_true, if_false, answer, step, callBody]
  refine ⟨fun ptr => ?_, fun buf n => ?_, fun m ptr => ?_, fun c h => ?_⟩
  · by_cases h : id = 1 <;> simp [h]
    cases ptr <;> simp
  · by_cases h : id = 1 <;> simp [h]
    cases n
    · simp
    · simp only [getMechanismList, ListOut.resp]; repeat' split
      all_goals simp
  · by_cases h : id = 1 <;> simp [h]
    repeat' split
    all_goals simp
  · simp [h]

theorem seed_step (l : Lib) (h : Nat) (ptr : Bool) :
    (restStep l (.sess h (.seed ptr))).1 = (step e l (.sess h (.random ptr 0))).1 := by
  unfold restStep
  cases hb : l.bad with
  | true => rw [step_bad hb]; rfl
  | false =>
    rw [if_neg (by simp)]
    have hr : callBody e l (.sess h (.random ptr 0)) = if l.count ≤ 0 then (l, { rv := .cryptokiNotInitialized })
        else match getSession l h with
          | none => (l, { rv := .sessionHandleInvalid })
          | some _ => cRandom e l ptr 0 := rfl
    have hne : (callBody e l (.sess h (.random ptr 0))).2.rv ≠ .ub := by
      rw [hr]
      unfold cRandom
      repeat' split
      all_goals simp
    rw [step_eq hb hne, hr]
    unfold restBody
    split
    · rfl
    · dsimp only
      cases getSession l h with
      | none => rfl
      | some s =>
        simp only [restSess, cRandom]
        cases ptr <;> rfl

theorem anyStep_rest (l : Lib) (c : RestCall) (hc : ∀ h p, c ≠ .sess h (.seed p)) :
    (restStep l c).1 = l := by
  by_cases h : c.NotOffered
  · exact (c91_refused l c h).1
  · refine c91_asks l c ?_
    cases c with
    | waitEvent => exact absurd trivial h
    | sess k c => cases c with
      | seed p => exact absurd rfl (hc k p)
      | _ => exact absurd trivial h
    | _ => trivial

/-- **C91**: every state the whole interface can reach is reached by the calls of the machine:
what is proved about the histories of the machine holds for those of the interface. -/
theorem c91_histories (e : Env) (l : Lib) (cs : List AnyCall) : anyRun e l cs = run e l (core cs) := by
  induction cs generalizing l with
  | nil => rfl
  | cons c cs ih =>
    cases c with
    | main c => exact ih _
    | rest c =>
      by_cases hc : ∃ h p, c = .sess h (.seed p)
      · obtain ⟨h, p, rfl⟩ := hc
        simp only [anyRun, anyStep, core, run]
        rw [seed_step (e := e)]
        exact ih _
      · have hc : ∀ h p, c ≠ .sess h (.seed p) := fun h p he => hc ⟨h, p, he⟩
        have h1 : (anyStep e l (.rest c)).1 = l := anyStep_rest l c hc
        have h2 : core (.rest c :: cs) = core cs := by
          cases c with
          | sess k c => cases c with
            | seed p => exact absurd rfl (hc k p)
            | _ => rfl
          | _ => rfl
        simp only [anyRun, h1, h2]
        exact ih _

/-- **C91**: in a history without `C_SeedRandom` the calls of the machine are answered as if
the others had not been made. -/
theorem c91_unnoticed (e : Env) (l : Lib) (cs : List AnyCall) (hs : Unseeded cs) :
    mainAnswers (anyAnswers e l cs) = replies e l (core cs) := by
  induction cs generalizing l with
  | nil => rfl
  | cons c cs ih =>
    have hs' : Unseeded cs := fun h p hm => hs h p (List.mem_cons_of_mem _ hm)
    cases c with
    | main c =>
      show _ :: _ = _ :: _
      exact congrArg _ (ih _ hs')
    | rest c =>
      have hc : ∀ h p, c ≠ .sess h (.seed p) := fun h p he => hs h p (he ▸ List.mem_cons_self)
      have h1 : (anyStep e l (.rest c)).1 = l := anyStep_rest l c hc
      have h2 : core (.rest c :: cs) = core cs := by
        cases c with
        | sess k c => cases c with
          | seed p => exact absurd rfl (hc k p)
          | _ => rfl
        | _ => rfl
      simp only [anyAnswers, h1, h2]
      exact ih _ hs'

set_option maxRecDepth 20000 in
/-- Non-vacuity: functions not offered are called amid others; the answers. -/
example :
    let cs := [.rest .waitEvent] ++ Demo.setup.map .main ++
      [.rest (.sess 65538 (.digestInit true)), .rest (.sess 65538 (.both .signEncrypt (some [1]) true)),
       .rest (.sess 65538 (.seed true)), .rest (.mechInfo 1 .aesGcm true), .main (randomCall 65538 2)]
    (anyAnswers Demo.env Demo.fresh cs).map AnyResp.rv = [.cryptokiNotInitialized] ++ List.replicate 7 .ok ++
      [.mechanismInvalid, .operationNotInitialized, .ok, .ok, .ok] := by decide

/-! ## C92 -/

theorem random_answer {l : Lib} {h n : Nat} (hok : (answer e l (randomCall h n)).rv = .ok) :
    n % 2 ^ 32 ≤ 65536 ∧ (answer e l (randomCall h n)).out = some { rv := .ok, wr := e.store.rand l.rng (n % 2 ^ 32) } ∧
      (step e l (randomCall h n)).1.rng = l.rng + 1 := by
  obtain ⟨_, _, s, _, hst⟩ := sess_step (c := .random true n) hok
  have hst : step e l (randomCall h n) = cRandom e l true n := hst
  unfold answer at hok ⊢
  rw [hst] at hok ⊢
  unfold cRandom at hok ⊢
  rw [if_neg (by simp)] at hok ⊢
  by_cases hl : rngMaxBlock < n % 2 ^ 32
  · rw [if_pos hl] at hok; cases hok
  · rw [if_neg hl]
    exact ⟨Nat.not_lt.mp hl, rfl, rfl⟩

/-- **C92**: `C_GenerateRandom` that succeeds has written as many bytes as it was asked for.
Missing: lengths of 2^32 and more (`c92_violated`). -/
theorem c92_length_partial (hr : RandLen e) (l : Lib) (h n : Nat) (hn : n < 2 ^ 32)
    (hok : (answer e l (randomCall h n)).rv = .ok) :
    ∃ b, (answer e l (randomCall h n)).out = some { rv := .ok, wr := b } ∧ b.length = n := by
  obtain ⟨_, h1, _⟩ := random_answer hok
  rw [Nat.mod_eq_of_lt hn] at h1
  exact ⟨_, h1, hr _ _⟩

/-- **C92**: on an open session up to 65536 bytes are delivered. -/
theorem c92_delivers {l : Lib} (h n : Nat) (ho : IsOpen e l h) (hn : n ≤ 65536) :
    (answer e l (randomCall h n)).rv = .ok := by
  obtain ⟨hb, hpos, s, hs, _⟩ := sess_step (c := .info true) ho
  have hc : callBody e l (randomCall h n) = cRandom e l true n := by
    simp only [callBody, randomCall]
    rw [if_neg (by omega), hs]
    rfl
  have hr : (cRandom e l true n).2.rv = .ok := by
    unfold cRandom
    rw [if_neg (by simp), if_neg (by have := Nat.mod_eq_of_lt (show n < 2 ^ 32 by omega); rw [this]; unfold rngMaxBlock; omega)]
  unfold answer
  rw [step_eq hb (by rw [hc, hr]; simp), hc, hr]

set_option maxRecDepth 20000 in
/-- **C92 violated**: asked for 2^32 + 2 bytes, `C_GenerateRandom` answers `CKR_OK` and has
written two. -/
theorem c92_violated :
    answer Demo.env (run Demo.env Demo.fresh Demo.setup) (randomCall 65538 (2 ^ 32 + 2)) =
      { rv := .ok, out := some { rv := .ok, wr := [4, 4] } } := by decide

/-! ## C93 -/

/-- What a key generation that succeeds does. -/
theorem genKey_answer {l : Lib} {h : Nat} {m : Mech} {p : MechParam} {t : List Entry}
    (hok : (answer e l (genKeyCall h m p t)).rv = .ok) :
    m = .aesKeyGen ∧ 0 < l.count ∧ ∃ s o on l' k, getSession l h = some s ∧ newObject e s CKK_AES CKO_SECRET_KEY t = (.ok, o) ∧
      tokenByte t 0 = .ok on ∧
      sessAddObject e { l with rng := l.rng + 1 } s on { o with data := .symm (e.store.rand l.rng o.symm.length) } = (l', some k) ∧
      step e l (genKeyCall h m p t) = (l', { rv := .ok, handle := some k }) := by
  obtain ⟨_, hpos, s, hs, hst⟩ := sess_step (c := .genKey (some (m, p)) (some t) true) hok
  have hst : step e l (genKeyCall h m p t) = cGenKey e l s (some (m, p)) (some t) true := hst
  unfold answer at hok
  rw [hst] at hok ⊢
  unfold cGenKey at hok ⊢
  dsimp only at hok ⊢
  rw [if_neg (by simp)] at hok ⊢
  by_cases hm : m = .aesKeyGen
  · rw [if_neg (by simpa using hm)] at hok ⊢
    by_cases hp : (!p.isNone) = true
    · rw [if_pos hp] at hok; cases hok
    · rw [if_neg hp] at hok ⊢
      split at hok
      · rename_i o hn
        obtain ⟨on, l', k, t1, a4, a5⟩ := addObject_ok hok
        exact ⟨hm, hpos, s, o, on, l', k, hs, hn, t1, a4, a5⟩
      · rename_i hne _
        exact absurd hok hne
  · rw [if_pos hm] at hok; cases hok

theorem keyAttr_asks {t : List Entry} {n : Nat} (ha : AsksLen t n) :
    keyVals t .valueLen = some (ulong n) ∧ keyVals t .value = none := by
  obtain ⟨⟨en, hm, ht⟩, h2, h3⟩ := ha
  constructor
  · unfold keyVals keyAttr
    cases hf : t.find? (fun e => e.typ == .valueLen) with
    | none =>
      have := List.find?_eq_none.mp hf en hm
      simp [ht] at this
    | some en' =>
      have h4 := List.mem_of_find?_eq_some hf
      have h5 := List.find?_some hf
      simp only [Option.map_some]
      rw [h2 en' h4 (by simpa using h5)]
  · unfold keyVals keyAttr
    cases hf : t.find? (fun e => e.typ == .value) with
    | none => rfl
    | some en' =>
      have h4 := List.mem_of_find?_eq_some hf
      have h5 := List.find?_some hf
      exact absurd (by simpa using h5) (h3 en' h4)

/-- The length of a new key. -/
theorem newObject_len {s : Session} {t : List Entry} {o : Obj} {n : Nat} (hn : n < 2 ^ 64)
    (h : newObject e s CKK_AES CKO_SECRET_KEY t = (.ok, o)) (ha : AsksLen t n) :
    o.symm.length = n ∧ (n = 16 ∨ n = 24 ∨ n = 32) := by
  unfold newObject at h
  cases hrw : (s.use == .rw) with
  | false => rw [hrw] at h; simp [setAttributeValue] at h
  | true =>
    rw [hrw] at h
    obtain ⟨h1, h2, h3⟩ := setAttributeValue_data h
    obtain ⟨v1, v2⟩ := keyAttr_asks ha
    have hk : setKey e.key { newObj 0 CKK_AES with cls := CKO_SECRET_KEY } (keyVals t) =
        setSecretKey { newObj 0 CKK_AES with cls := CKO_SECRET_KEY } (keyVals t) := rfl
    rw [hk] at h1 h2
    unfold setSecretKey at h1 h2
    have hl : (ulong n).length = 8 := length_leBytes _ _
    have hu : leNat (ulong n) = n := by
      unfold ulong
      rw [leNat_leBytes]
      exact Nat.mod_eq_of_lt hn
    rw [v1, v2] at h1 h2
    have ht : ({ newObj 0 CKK_AES with cls := CKO_SECRET_KEY } : Obj).typ = CKK_AES := rfl
    by_cases hs : n ≠ 16 ∧ n ≠ 24 ∧ n ≠ 32
    · have hsl : secretLen ({ newObj 0 CKK_AES with cls := CKO_SECRET_KEY } : Obj).typ (some (ulong n)) none = .error .badArg := by
        unfold secretLen
        dsimp only
        rw [if_neg (by simp [hl]), hu, if_pos ⟨ht, hs⟩]
      rw [hsl] at h1
      cases h1
    · have hsl : secretLen ({ newObj 0 CKK_AES with cls := CKO_SECRET_KEY } : Obj).typ (some (ulong n)) none = .ok (n % 2 ^ 32) := by
        unfold secretLen
        dsimp only
        rw [if_neg (by simp [hl]), hu, if_neg (fun h => hs h.2)]
      have hn' : n = 16 ∨ n = 24 ∨ n = 32 := by omega
      rw [hsl] at h2
      refine ⟨?_, hn'⟩
      unfold Obj.symm
      rw [h2]
      simp only [List.length_replicate]
      omega

/-- **C93**: after any history, `C_GenerateKey` that succeeds has made a new AES key, under a
handle that named nothing before; its value is what the random generator gives at this moment,
as many bytes as the template asks for, 16, 24 or 32.  Missing: templates that do not ask for
a length (`c93_violated`). -/
theorem c93_partial (hh : HashLen e) (hr : RandLen e) {l₀ : Lib} (h₀ : Start l₀) (hd : NoToken l₀)
    (cs : List Call) (h : Nat) (m : Mech) (p : MechParam) (t : List Entry)
    (hb : BoolToken (cs ++ [genKeyCall h m p t])) (hn : 2 * (cs.length + 1) < 2 ^ 28)
    (hok : (answer e (run e l₀ cs) (genKeyCall h m p t)).rv = .ok) :
    m = .aesKeyGen ∧ ∃ k q v, (answer e (run e l₀ cs) (genKeyCall h m p t)).handle = some k ∧
      (∀ o, ¬ Addressed (run e l₀ cs) h k o) ∧ Addressed (run e l₀ (cs ++ [genKeyCall h m p t])) h k q ∧
      q.typ = CKK_AES ∧ q.data = .symm v ∧ v = e.store.rand (run e l₀ cs).rng v.length ∧
      ∀ n, n < 2 ^ 64 → AsksLen t n → v.length = n ∧ (n = 16 ∨ n = 24 ∨ n = 32) := by
  have hb1 : BoolToken cs := fun d hd => hb d (List.mem_append_left _ hd)
  obtain ⟨hi, hc, hv⟩ := reach_inv hh hr h₀ hd cs hb1 (by omega)
  have hrun : run e l₀ (cs ++ [genKeyCall h m p t]) = (step e (run e l₀ cs) (genKeyCall h m p t)).1 := by
    rw [run_append]; rfl
  rw [hrun]
  generalize run e l₀ cs = l at *
  obtain ⟨hm, hpos, s, o, on, l', k, hs, hno, t1, a4, hst⟩ := genKey_answer hok
  unfold answer
  rw [hst]
  unfold HandleInv at hv
  rw [if_pos hpos] at hv
  have htok := boolToken_tokOk (c := .genKey (some (m, p)) (some t) true) hb
  obtain ⟨g0, _, g3⟩ := getSession_handle hs
  have hv' : HInv (2 * cs.length) { l with rng := l.rng + 1 } := ⟨hv.tok, hv.sess, hv.ivs, hv.disk⟩
  obtain ⟨q1, q2, _⟩ := look_add a4 hv' (by omega) (htok t (by simp [SessCall.creates]) _ t1) (h := h) hs g3 g0 rfl
  obtain ⟨q, hq, hview⟩ := look_addressed q2
  refine ⟨hm, k, q, e.store.rand l.rng o.symm.length, rfl, ?_, hq, ?_, ?_, by rw [hr], ?_⟩
  · intro p hp
    have hp' : Addressed { l with rng := l.rng + 1 } h k p := hp
    have := addressed_find hv' (by omega) (h := h) hs hp'
    unfold look at q1
    have hs' : getSession { l with rng := l.rng + 1 } h = some s := hs
    rw [hs'] at q1
    simp only [Option.map_some, Option.some.injEq, this] at q1
    cases q1
  · have h1 : q.typ = o.typ := by have := congrArg (fun o : Obj => o.typ) hview; exact this
    rw [h1]; exact newObject_typ hno
  · have := congrArg (fun o : Obj => o.data) hview; exact this
  · intro n hn ha
    rw [hr]
    exact newObject_len hn hno ha

/-- The random bytes a call hands out are those of one draw made in it. -/
theorem emits_draw (hh : HashLen e) (hr : RandLen e) {l₀ : Lib} (h₀ : Start l₀) (hd : NoToken l₀)
    (cs : List Call) (c : Call) (b : Bytes) (hb : BoolToken (cs ++ [c])) (hn : 2 * (cs.length + 1) < 2 ^ 28)
    (hem : Emits e (run e l₀ cs) c b) :
    b = e.store.rand (run e l₀ cs).rng b.length ∧ (run e l₀ cs).rng < (run e l₀ (cs ++ [c])).rng := by
  have hrun : run e l₀ (cs ++ [c]) = (step e (run e l₀ cs) c).1 := by rw [run_append]; rfl
  rw [hrun]
  obtain ⟨hok, ⟨h, n, rfl, hout⟩ | ⟨h, m, p, t, k, q, rfl, hk, hq, hdat⟩⟩ := hem
  · obtain ⟨_, h1, h2⟩ := random_answer hok
    rw [hout] at h1
    simp only [Option.some.injEq, Out.mk.injEq] at h1
    have h1 := h1.2.1
    rw [h2]
    refine ⟨?_, Nat.lt_succ_self _⟩
    rw [h1, hr]
  · obtain ⟨_, k', q', v, c1, c2, c3, c4, c5, c6, c7⟩ := c93_partial hh hr h₀ hd cs h m p t hb hn hok
    rw [hk] at c1
    cases c1
    rw [hrun] at c3
    obtain ⟨hi, hc, hv⟩ := reach_inv hh hr h₀ hd (cs ++ [genKeyCall h m p t]) hb (by simpa using hn)
    rw [hrun] at hv
    obtain ⟨_, hpos, s, o, on, l', k', hs, hno, t1, a4, hst⟩ := genKey_answer hok
    have hlt : (run e l₀ cs).rng + 1 ≤ l'.rng := by
      have := sessAddObject_rng (e := e) { run e l₀ cs with rng := (run e l₀ cs).rng + 1 } s on
        { o with data := .symm (e.store.rand (run e l₀ cs).rng o.symm.length) }
      rw [a4] at this
      exact this
    obtain ⟨-, -, hv0⟩ := reach_inv hh hr h₀ hd cs (fun d hd => hb d (List.mem_append_left _ hd)) (by omega)
    unfold HandleInv at hv hv0
    rw [if_pos hpos] at hv0
    have hv1 : HInv (2 * cs.length) { run e l₀ cs with rng := (run e l₀ cs).rng + 1 } :=
      ⟨hv0.tok, hv0.sess, hv0.ivs, hv0.disk⟩
    have htok := boolToken_tokOk (c := .genKey (some (m, p)) (some t) true) hb
    obtain ⟨g0, _, g3⟩ := getSession_handle hs
    obtain ⟨_, q2, _⟩ := look_add a4 hv1 (by omega) (htok t (by simp [SessCall.creates]) _ t1) (h := h) hs g3 g0 rfl
    obtain ⟨⟨_, hcnt, _⟩, _⟩ := sessAdd_some a4
    rw [hst] at hv hq c3
    rw [if_pos (by rw [hcnt]; exact hpos)] at hv
    have hq2 : q = q' := by
      unfold look at q2
      cases hs' : getSession l' h with
      | none => rw [hs'] at q2; cases q2
      | some s' => exact addressed_unique hv (by simp only [List.length_append, List.length_singleton]; omega) hs' hq c3
    subst hq2
    rw [hdat] at c5
    cases c5
    refine ⟨c6, ?_⟩
    rw [hst]
    exact hlt

/-- **C92**, **C93**: nothing random is handed out twice: two calls of a history that hand out
random bytes or keys hand out different ones, unless the generator itself has repeated an
output of that length. -/
theorem c92_fresh (hh : HashLen e) (hr : RandLen e) {l₀ : Lib} (h₀ : Start l₀) (hd : NoToken l₀)
    (cs cs' : List Call) (c c' : Call) (b b' : Bytes) (hb : BoolToken (cs ++ c :: cs' ++ [c']))
    (hn : 2 * (cs.length + cs'.length + 2) < 2 ^ 28)
    (h1 : Emits e (run e l₀ cs) c b) (h2 : Emits e (run e l₀ (cs ++ c :: cs')) c' b')
    (hu : Unrepeated e (run e l₀ (cs ++ c :: cs' ++ [c'])) b.length) : b ≠ b' := by
  intro heq
  subst heq
  have hb1 : BoolToken (cs ++ [c]) := fun d hd => hb d (by
    rcases List.mem_append.mp hd with h | h
    · exact List.mem_append_left _ (List.mem_append_left _ h)
    · exact List.mem_append_left _ (List.mem_append_right _ (by
        rw [List.mem_singleton.mp h]; exact List.mem_cons_self)))
  obtain ⟨d1, e1⟩ := emits_draw hh hr h₀ hd cs c b hb1 (by omega) h1
  obtain ⟨d2, e2⟩ := emits_draw hh hr h₀ hd (cs ++ c :: cs') c' b hb (by simp; omega) h2
  have hle : (run e l₀ (cs ++ [c])).rng ≤ (run e l₀ (cs ++ c :: cs')).rng := by
    have : cs ++ c :: cs' = (cs ++ [c]) ++ cs' := by simp
    rw [this, run_append e l₀ (cs ++ [c]) cs']
    exact run_rng _ _
  exact hu _ _ (Nat.lt_of_lt_of_le e1 hle) e2 (d1.symm.trans d2)

set_option maxRecDepth 20000 in
/-- **C93 violated**: `C_GenerateKey` with an empty template answers `CKR_OK`; the AES key has
no bytes. -/
theorem c93_violated :
    answer Demo.env (run Demo.env Demo.fresh Demo.setup) (genKeyCall 65538 .aesKeyGen (.null 0) []) =
      { rv := .ok, handle := some 1 } ∧
    ((run Demo.env Demo.fresh (Demo.setup ++ [genKeyCall 65538 .aesKeyGen (.null 0) []])).sessions.map
      fun s => s.objs.map fun o => (o.typ, o.data)) = [[(CKK_AES, .symm [])], []] := by decide

/-- A template for a key of 16 bytes. -/
def Demo.aes16 : List Entry := [.of .valueLen (ulong 16), .of .token [0]]

/-- Two keys are generated, in between random bytes are asked for. -/
def Demo.twoMade : List Call :=
  Demo.setup ++ genKeyCall 65538 .aesKeyGen (.null 0) Demo.aes16 :: [randomCall 65538 16] ++
    [genKeyCall 65538 .aesKeyGen (.null 0) Demo.aes16]

theorem Demo.aes16_asks : AsksLen Demo.aes16 16 :=
  ⟨⟨_, List.mem_cons_self, rfl⟩, by decide, by decide⟩

set_option maxRecDepth 20000 in
theorem Demo.twoMade_ok :
    BoolToken Demo.twoMade ∧ (run Demo.env Demo.fresh Demo.twoMade).rng = 6 ∧
    (replies Demo.env Demo.fresh Demo.twoMade).map (·.rv) = List.replicate 10 .ok :=
  ⟨by unfold BoolToken; decide, by decide, by decide⟩

theorem Demo.unrepeated (l : Lib) (hl : l.rng ≤ 100) (n : Nat) (hn : 0 < n) : Unrepeated Demo.env l n := by
  intro i j hij hj heq
  have h1 : List.replicate n (UInt8.ofNat (i + 1)) = List.replicate n (UInt8.ofNat (j + 1)) := heq
  have h2 := congrArg List.head? h1
  rw [List.head?_replicate, List.head?_replicate, if_neg (by omega), if_neg (by omega)] at h2
  have h3 := congrArg UInt8.toNat (Option.some.inj h2)
  simp only [UInt8.toNat_ofNat'] at h3
  omega

/-- A generated key is handed out. -/
theorem genKey_emits (hh : HashLen e) (hr : RandLen e) {l₀ : Lib} (h₀ : Start l₀) (hd : NoToken l₀)
    (cs : List Call) (h : Nat) (m : Mech) (p : MechParam) (t : List Entry)
    (hb : BoolToken (cs ++ [genKeyCall h m p t])) (hn : 2 * (cs.length + 1) < 2 ^ 28)
    (hok : (answer e (run e l₀ cs) (genKeyCall h m p t)).rv = .ok) :
    ∃ b, Emits e (run e l₀ cs) (genKeyCall h m p t) b ∧ ∀ n, n < 2 ^ 64 → AsksLen t n → b.length = n := by
  obtain ⟨_, k, q, v, c1, c2, c3, c4, c5, c6, c7⟩ := c93_partial hh hr h₀ hd cs h m p t hb hn hok
  have hrun : run e l₀ (cs ++ [genKeyCall h m p t]) = (step e (run e l₀ cs) (genKeyCall h m p t)).1 := by
    rw [run_append]; rfl
  rw [hrun] at c3
  exact ⟨v, ⟨hok, .inr ⟨h, m, p, t, k, q, rfl, c1, c3, c5⟩⟩, fun n hn ha => (c7 n hn ha).1⟩

set_option maxRecDepth 20000 in
/-- Non-vacuity of `c93_partial` and `c92_fresh`: two AES keys of 16 bytes, which differ. -/
example : ∃ b b', b.length = 16 ∧ b'.length = 16 ∧ b ≠ b' ∧
    Emits Demo.env (run Demo.env Demo.fresh Demo.setup) (genKeyCall 65538 .aesKeyGen (.null 0) Demo.aes16) b ∧
    Emits Demo.env (run Demo.env Demo.fresh
      (Demo.setup ++ genKeyCall 65538 .aesKeyGen (.null 0) Demo.aes16 :: [randomCall 65538 16]))
      (genKeyCall 65538 .aesKeyGen (.null 0) Demo.aes16) b' := by
  obtain ⟨b, h1, l1⟩ := genKey_emits (e := Demo.env) Demo.hashLen Demo.randLen Demo.fresh_start Demo.noToken
    Demo.setup 65538 .aesKeyGen (.null 0) Demo.aes16 (by unfold BoolToken; decide) (by decide) (by decide)
  obtain ⟨b', h2, l2⟩ := genKey_emits (e := Demo.env) Demo.hashLen Demo.randLen Demo.fresh_start Demo.noToken
    (Demo.setup ++ genKeyCall 65538 .aesKeyGen (.null 0) Demo.aes16 :: [randomCall 65538 16])
    65538 .aesKeyGen (.null 0) Demo.aes16 (by unfold BoolToken; decide) (by decide) (by decide)
  have e1 := l1 16 (by decide) Demo.aes16_asks
  have e2 := l2 16 (by decide) Demo.aes16_asks
  refine ⟨b, b', e1, e2, ?_, h1, h2⟩
  exact c92_fresh Demo.hashLen Demo.randLen Demo.fresh_start Demo.noToken Demo.setup [randomCall 65538 16] _ _ b b'
    Demo.twoMade_ok.1 (by decide) h1 h2 (Demo.unrepeated _ (Nat.le_trans (Nat.le_of_eq Demo.twoMade_ok.2.1) (by omega)) _ (by omega))

end Verif
