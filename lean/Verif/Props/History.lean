import Verif.Props.Isolated
import Verif.Props.Pair
import Verif.Props.Gcm
import Verif.Props.Hmac

/-!
# Objects and keys over whole histories (C81, C77, C78)
-/

namespace Verif

variable {e : Env}

/-- Session `h` is open and its handle `ov.handle` belongs to an object that looks like `ov`. -/
def Stays (l : Lib) (h : Nat) (ov : Obj) : Prop :=
  ∃ s, getSession l h = some s ∧ Has ov (if handleOnToken ov.handle then l.token.objs else s.objs)

theorem Stays.run (hh : HashLen e) (hr : RandLen e) {h : Nat} {ov : Obj} (cs : List Call) (hcs : ∀ c ∈ cs, Spares h ov.handle c) :
    ∀ {l : Lib}, CapInv l → SInv l → 0 < l.count → (run e l cs).bad = false → Stays l h ov →
      Stays (run e l cs) h ov ∧ 0 < (run e l cs).count := by
  induction cs with
  | nil => intro l _ _ hc _ hw; exact ⟨hw, hc⟩
  | cons c cs ih =>
    intro l hcap hi hcnt hgood hw
    have hg1 : (step e l c).1.bad = false := run_good hgood
    have hbad := (step_good hg1).1
    obtain ⟨s, h1, h2⟩ := hw
    obtain ⟨hk, hc⟩ := keeps_step (e := e) (q := false) (ov := ov) hcap.pop hi hbad hcnt (hcs c (List.mem_cons_self ..))
      (fun h => by cases h) h1
    obtain ⟨s', g1, _, g4⟩ := hk.ses s h1
    refine ih (fun d hd => hcs d (List.mem_cons_of_mem _ hd)) (hcap.step hh hr hi c) (hi.step e c) hc hgood ⟨s', g1, ?_⟩
    cases hon : handleOnToken ov.handle with
    | true => rw [hon] at h2; exact hk.tok hon h2
    | false => rw [hon] at h2; exact g4 hon h2

theorem stays_iff {l : Lib} {h : Nat} {ov : Obj} :
    Stays l h ov ↔ ∃ s, getSession l h = some s ∧ ∃ o ∈ (if handleOnToken ov.handle then l.token.objs else s.objs), o.view = ov := by
  unfold Stays Has
  simp only [List.mem_map]

theorem stays_addressed {l : Lib} {h : Nat} {ov : Obj} (hs : Stays l h ov) :
    ∃ o, Addressed l h ov.handle o ∧ o.view = ov := by
  obtain ⟨s, h1, o, h2, rfl⟩ := stays_iff.mp hs
  refine ⟨o, ⟨?_, rfl⟩, rfl⟩
  have : sessObjs l h = s.objs := by unfold sessObjs; rw [h1]; rfl
  rw [this]
  split at h2
  · exact List.mem_append_right _ h2
  · exact List.mem_append_left _ h2

/-- An object found by its handle is in the list that belongs to the handle. -/
theorem addressed_stays {n : Nat} {l : Lib} (hi : HInv n l) (hn : n < 2 ^ 28) {h k : Nat} {s : Session} {o : Obj}
    (hs : getSession l h = some s) (ha : Addressed l h k o) : Stays l h o.view := by
  obtain ⟨p1, p2, p3⟩ := findObj_parts (addressed_find hi hn hs ha)
  refine ⟨s, hs, ?_⟩
  show Has o.view (if handleOnToken o.handle then _ else _)
  rw [p1]
  cases hon : handleOnToken k with
  | true => exact List.mem_map_of_mem (p2 hon)
  | false => exact List.mem_map_of_mem (p3 hon)

/-- A handle addresses one object. -/
theorem addressed_unique {n : Nat} {l : Lib} (hi : HInv n l) (hn : n < 2 ^ 28) {h k : Nat} {s : Session} {o o' : Obj}
    (hs : getSession l h = some s) (ha : Addressed l h k o) (ha' : Addressed l h k o') : o = o' :=
  Option.some.inj ((addressed_find hi hn hs ha).symm.trans (addressed_find hi hn hs ha'))

/-- **C81**: an object stays as it is: whatever calls are made that do not close its
session, change or destroy it, or (if it is on the token) log in or out or initialise the
token, its handle names it and every attribute reads as before. -/
theorem c81_kept (hh : HashLen e) (hr : RandLen e) {l₀ : Lib} (h₀ : Start l₀) (hd : NoToken l₀) (cs cs' : List Call)
    (h k : Nat) (hb : BoolToken (cs ++ cs')) (hn : 2 * (cs ++ cs').length < 2 ^ 28)
    (hk : Names e (run e l₀ cs) h k) (hcs : ∀ c ∈ cs', Spares h k c) (hgood : (run e l₀ (cs ++ cs')).bad = false)
    (t : List Entry) :
    Names e (run e l₀ (cs ++ cs')) h k ∧
    answer e (run e l₀ (cs ++ cs')) (readCall h k t) = answer e (run e l₀ cs) (readCall h k t) := by
  have hb1 : BoolToken cs := fun d hd => hb d (List.mem_append_left _ hd)
  rw [List.length_append] at hn
  obtain ⟨hi, hc, _⟩ := reach_inv hh hr h₀ hd cs hb1 (by omega)
  obtain ⟨_, _, hx'⟩ := reach_inv hh hr h₀ hd (cs ++ cs') hb (by rw [List.length_append]; omega)
  rw [List.length_append] at hx'
  rw [run_append] at hgood hx' ⊢
  generalize run e l₀ cs = l at *
  obtain ⟨hbad, hcnt, ov, hl⟩ := names_iff.mp hk
  obtain ⟨s, hs⟩ : ∃ s, getSession l h = some s := by
    cases hg : getSession l h with
    | none => unfold look at hl; rw [hg] at hl; cases hl
    | some s => exact ⟨s, rfl⟩
  have hf : ∃ o, findObj l s k = some o ∧ o.view = ov := by
    unfold look at hl
    rw [hs] at hl
    exact Option.map_eq_some_iff.mp (Option.some.inj hl)
  obtain ⟨o, hf, rfl⟩ := hf
  obtain ⟨p1, p2, p3⟩ := findObj_parts hf
  have hst : Stays l h o.view := by
    refine ⟨s, hs, ?_⟩
    show Has o.view (if handleOnToken o.handle then _ else _)
    rw [p1]
    cases hon : handleOnToken k with
    | true => exact List.mem_map_of_mem (p2 hon)
    | false => exact List.mem_map_of_mem (p3 hon)
  obtain ⟨hst', hcnt'⟩ := hst.run hh hr cs' (by rw [show o.view.handle = k from p1]; exact hcs) hc hi hcnt hgood
  obtain ⟨o', ha, hv⟩ := stays_addressed hst'
  rw [show o.view.handle = k from p1] at ha
  obtain ⟨s', hs', _⟩ := hst'
  unfold HandleInv at hx'
  rw [if_pos hcnt'] at hx'
  have hf' := addressed_find hx' (by omega) hs' ha
  have hl' : look (run e l cs') h k = some (some o.view) := by
    unfold look
    rw [hs', Option.map_some, hf', Option.map_some, hv]
  refine ⟨names_iff.mpr ⟨hgood, hcnt', _, hl'⟩, ?_⟩
  unfold readCall
  rw [getAttr_answer, getAttr_answer, hl', hl, hbad, hgood]
  simp only [Bool.false_eq_true, if_false]
  rw [if_neg (by omega), if_neg (by omega)]

/-- Calls that do not concern an operation hand nothing over to it. -/
theorem bystanders_no_data {h k : Nat} {cs' : List Call} (hcs : ∀ c ∈ cs', Bystander h k c) : dataCalls h cs' = [] := by
  induction cs' with
  | nil => rfl
  | cons c cs' ih =>
    have hb := (hcs c (List.mem_cons_self ..)).2
    have ih := ih (fun d hd => hcs d (List.mem_cons_of_mem _ hd))
    cases c with
    | sess j c =>
      cases c with
      | crypt d =>
        have hne : j ≠ h := hb
        simp only [dataCalls, if_neg hne]
        exact ih
      | _ => exact ih
    | _ => exact ih

/-- A data call after an Init and calls that do not concern it. -/
theorem one_shot (hh : HashLen e) (hr : RandLen e) {l₀ : Lib} (h₀ : Start l₀) (hd : NoToken l₀) (cs cs' : List Call)
    (h k : Nat) (kd : Kind) (m : Mech) (p : MechParam)
    (hok : (answer e (run e l₀ cs) (.sess h (.cryptInit kd (some (m, p)) k))).rv = .ok)
    (hcs : ∀ c ∈ cs', Bystander h k c)
    (hgood : (run e l₀ (cs ++ .sess h (.cryptInit kd (some (m, p)) k) :: cs')).bad = false) :
    ∃ st₀ o st, Addressed (run e l₀ cs) h k o ∧ initCall e.crypto kd st₀ o m p = (st, .ok) ∧
      ∀ d, answer e (run e l₀ (cs ++ .sess h (.cryptInit kd (some (m, p)) k) :: cs')) (.sess h (.crypt d)) =
        { rv := (d.run e.crypto st (some o)).2.rv, out := some (d.run e.crypto st (some o)).2 } := by
  have hnil := bystanders_no_data hcs
  obtain ⟨st₀, o, st, h1, h2, h3⟩ := c80_isolated hh hr h₀ hd cs cs' h k kd m p hok (fun c hc => .inl (hcs c hc)) hgood
  rw [hnil] at h3
  exact ⟨st₀, o, st, h1, h2, h3⟩

/-- **C77** over whole histories: a signature made with one handle verifies with another
if the objects the handles address when the operations start are a pair.
Between each Init and its data call any calls may be made that do not concern the operation,
and any calls at all between signing and verifying.
Missing: plain RSA with data shorter than the key (`c77_x509_block`). -/
theorem c77_history_partial (hh : HashLen e) (hr : RandLen e) (hx : e.crypto.rsa.Lawful) {l₀ : Lib} (h₀ : Start l₀)
    (hd : NoToken l₀) (cs cs₁ cs₂ cs₃ : List Call) (h k h' k' : Nat) (m : Mech) (p : MechParam) (d : Bytes) (n rnd : Nat)
    (w : Out)
    (hk : ∀ o o', Addressed (run e l₀ cs) h k o →
      Addressed (run e l₀ (cs ++ .sess h (.cryptInit .sign (some (m, p)) k) :: cs₁ ++ cs₂)) h' k' o' →
      KeyPair e.crypto m o o' ∧ (m = .rsaX509 → d.length = o.rsa.keyLen ∧ d.length < 2 ^ 31))
    (h1 : (answer e (run e l₀ cs) (.sess h (.cryptInit .sign (some (m, p)) k))).rv = .ok)
    (hcs₁ : ∀ c ∈ cs₁, Bystander h k c)
    (h2 : answer e (run e l₀ (cs ++ .sess h (.cryptInit .sign (some (m, p)) k) :: cs₁))
      (.sess h (.crypt (.sign (some d) (.buf n) rnd))) = { rv := .ok, out := some w })
    (h3 : (answer e (run e l₀ (cs ++ .sess h (.cryptInit .sign (some (m, p)) k) :: cs₁ ++ cs₂))
      (.sess h' (.cryptInit .verify (some (m, p)) k'))).rv = .ok)
    (hcs₃ : ∀ c ∈ cs₃, Bystander h' k' c)
    (hgood : (run e l₀ (cs ++ .sess h (.cryptInit .sign (some (m, p)) k) :: cs₁ ++ cs₂ ++
      .sess h' (.cryptInit .verify (some (m, p)) k') :: cs₃)).bad = false) :
    (answer e (run e l₀ (cs ++ .sess h (.cryptInit .sign (some (m, p)) k) :: cs₁ ++ cs₂ ++
      .sess h' (.cryptInit .verify (some (m, p)) k') :: cs₃)) (.sess h' (.crypt (.verify (some d) (some w.wr))))).rv = .ok := by
  have hgood1 : (run e l₀ (cs ++ .sess h (.cryptInit .sign (some (m, p)) k) :: cs₁)).bad = false := by
    rw [run_append, run_append] at hgood
    exact run_good (run_good hgood)
  obtain ⟨s, o, s1, a1, a2, a3⟩ := one_shot hh hr h₀ hd cs cs₁ h k .sign m p h1 hcs₁ hgood1
  obtain ⟨t, o', t1, b1, b2, b3⟩ := one_shot hh hr h₀ hd _ cs₃ h' k' .verify m p h3 hcs₃ hgood
  obtain ⟨hkp, hl⟩ := hk o o' a1 b1
  rw [a3] at h2
  injection h2 with g1 _ _ _ _ g2
  have g2 := Option.some.inj g2
  rw [b3, ← g2]
  exact c77_partial e.crypto hx s t s1 t1 o o' m p d n rnd hkp hl a2 b2 g1

/-- **C78** over whole histories: what is encrypted under one handle decrypts under another,
if the objects the handles address when the operations start are an RSA pair. -/
theorem c78_history (hh : HashLen e) (hr : RandLen e) {l₀ : Lib} (h₀ : Start l₀)
    (hd : NoToken l₀) (cs cs₁ cs₂ cs₃ : List Call) (h k h' k' : Nat) (m : Mech) (p : MechParam) (d : Bytes)
    (n n' rnd rnd' : Nat) (w : Out)
    (hk : ∀ o o', Addressed (run e l₀ cs) h k o →
      Addressed (run e l₀ (cs ++ .sess h (.cryptInit .encrypt (some (m, p)) k) :: cs₁ ++ cs₂)) h' k' o' →
      RsaPair e.crypto.rsa o'.rsa o.rsa ∧ o'.rsa.keyLen ≤ n' ∧
      (m = .rsaX509 ∧ d.length = o'.rsa.keyLen ∨ m = .rsaPkcs ∨ m = .rsaOaep))
    (h1 : (answer e (run e l₀ cs) (.sess h (.cryptInit .encrypt (some (m, p)) k))).rv = .ok)
    (hcs₁ : ∀ c ∈ cs₁, Bystander h k c)
    (h2 : answer e (run e l₀ (cs ++ .sess h (.cryptInit .encrypt (some (m, p)) k) :: cs₁))
      (.sess h (.crypt (.encrypt (some d) (.buf n) rnd))) = { rv := .ok, out := some w })
    (h3 : (answer e (run e l₀ (cs ++ .sess h (.cryptInit .encrypt (some (m, p)) k) :: cs₁ ++ cs₂))
      (.sess h' (.cryptInit .decrypt (some (m, p)) k'))).rv = .ok)
    (hcs₃ : ∀ c ∈ cs₃, Bystander h' k' c)
    (hgood : (run e l₀ (cs ++ .sess h (.cryptInit .encrypt (some (m, p)) k) :: cs₁ ++ cs₂ ++
      .sess h' (.cryptInit .decrypt (some (m, p)) k') :: cs₃)).bad = false) :
    answer e (run e l₀ (cs ++ .sess h (.cryptInit .encrypt (some (m, p)) k) :: cs₁ ++ cs₂ ++
      .sess h' (.cryptInit .decrypt (some (m, p)) k') :: cs₃))
      (.sess h' (.crypt (.decrypt (some w.wr) (.buf n') rnd'))) =
      { rv := .ok, out := some { rv := .ok, wr := d, len := some d.length } } := by
  have hgood1 : (run e l₀ (cs ++ .sess h (.cryptInit .encrypt (some (m, p)) k) :: cs₁)).bad = false := by
    rw [run_append, run_append] at hgood
    exact run_good (run_good hgood)
  obtain ⟨s, o, s1, a1, a2, a3⟩ := one_shot hh hr h₀ hd cs cs₁ h k .encrypt m p h1 hcs₁ hgood1
  obtain ⟨t, o', t1, b1, b2, b3⟩ := one_shot hh hr h₀ hd _ cs₃ h' k' .decrypt m p h3 hcs₃ hgood
  obtain ⟨hkp, hl, hm⟩ := hk o o' a1 b1
  rw [a3] at h2
  injection h2 with g1 _ _ _ _ g2
  have g2 := Option.some.inj g2
  have key := c78_rsa_round_trip e.crypto s t s1 t1 o' o m p d n n' rnd rnd' hkp hm a2 b2 g1 hl
  rw [b3, ← g2]
  show Resp.mk _ _ _ _ _ _ _ _ = _
  simp only [DataCall.run]
  rw [key]

/-- What the handle of an object addresses after calls that spare it. -/
theorem addressed_later (hh : HashLen e) (hr : RandLen e) {l₀ : Lib} (h₀ : Start l₀) (hd : NoToken l₀) (cs cs' : List Call)
    (h k : Nat) (hb : BoolToken (cs ++ cs')) (hn : 2 * (cs ++ cs').length < 2 ^ 28) {s : Session} {o o' : Obj}
    (hcnt : 0 < (run e l₀ cs).count) (hs : getSession (run e l₀ cs) h = some s)
    (ha : Addressed (run e l₀ cs) h k o) (hcs : ∀ c ∈ cs', Spares h k c) (hgood : (run e l₀ (cs ++ cs')).bad = false)
    (ha' : Addressed (run e l₀ (cs ++ cs')) h k o') : o'.data = o.data := by
  have hb1 : BoolToken cs := fun d hd => hb d (List.mem_append_left _ hd)
  rw [List.length_append] at hn
  obtain ⟨hi, hc, hx⟩ := reach_inv hh hr h₀ hd cs hb1 (by omega)
  obtain ⟨_, _, hx'⟩ := reach_inv hh hr h₀ hd (cs ++ cs') hb (by rw [List.length_append]; omega)
  rw [List.length_append] at hx'
  rw [run_append] at hgood hx' ha'
  generalize run e l₀ cs = l at *
  unfold HandleInv at hx
  rw [if_pos hcnt] at hx
  have hst := addressed_stays hx (by omega) hs ha
  have hok : o.view.handle = k := ha.2
  obtain ⟨hst', hcnt'⟩ := hst.run hh hr cs' (by rw [hok]; exact hcs) hc hi hcnt hgood
  obtain ⟨q, hq, hv⟩ := stays_addressed hst'
  rw [hok] at hq
  obtain ⟨s', hs', _⟩ := hst'
  unfold HandleInv at hx'
  rw [if_pos hcnt'] at hx'
  rw [addressed_unique hx' (by omega) hs' ha' hq]
  have := congrArg (fun o : Obj => o.data) hv
  exact this

/-! ### Non-vacuity -/

namespace Demo

/-- Generate an RSA pair in the session. -/
def genCall : Call := Verif.pairCall 65538 .rsaKeyPairGen (.null 0) (.of .verify [1] :: rsaPub) [.of .sign [1]]

/-- Between two calls: another session is opened, a search is made in this one, another
object is created, the PIN is changed. -/
def meanwhile : List Call :=
  [openCall true, .sess 65538 (.findInit (some [])), .sess 65538 (.findNext true 4), .sess 65538 .findFinal,
   createCall 65538 (aesTmpl true 3), .sess 65538 (.setPin (some userPin) (some [9, 9, 9, 9]))]

def signInitCall (k : Nat) : Call := .sess 65538 (.cryptInit .sign (some (.rsaPkcs, .null 0)) k)

end Demo

set_option maxRecDepth 20000 in
/-- Non-vacuity of `c77_history_partial`, `c81_kept` and
`c80_isolated`: a pair is generated, another session searches and creates, a signature is made. -/
example :
    GenLawful Demo.pairEnv ∧ Demo.pairEnv.crypto.rsa.Lawful ∧
    answer Demo.pairEnv (run Demo.pairEnv Demo.fresh Demo.setup) Demo.genCall =
      { rv := .ok, handle := some 1, priv := some 2 } ∧
    Names Demo.pairEnv (run Demo.pairEnv Demo.fresh (Demo.setup ++ [Demo.genCall])) 65538 2 ∧
    (∀ c ∈ Demo.meanwhile, Spares 65538 1 c ∧ Bystander 65538 2 c) ∧
    BoolToken (Demo.setup ++ [Demo.genCall] ++ Demo.meanwhile ++ Demo.signInitCall 2 :: Demo.meanwhile ++ Demo.meanwhile) ∧
    (answer Demo.pairEnv (run Demo.pairEnv Demo.fresh (Demo.setup ++ [Demo.genCall] ++ Demo.meanwhile)) (Demo.signInitCall 2)).rv = .ok ∧
    answer Demo.pairEnv (run Demo.pairEnv Demo.fresh (Demo.setup ++ [Demo.genCall] ++ Demo.meanwhile ++ Demo.signInitCall 2 :: Demo.meanwhile))
      (.sess 65538 (.crypt (.sign (some [1, 2]) (.buf 2) 0))) = { rv := .ok, out := some { rv := .ok, wr := [1, 2], len := some 2 } } ∧
    (answer Demo.pairEnv (run Demo.pairEnv Demo.fresh
      (Demo.setup ++ [Demo.genCall] ++ Demo.meanwhile ++ Demo.signInitCall 2 :: Demo.meanwhile ++ []))
      (.sess 65538 (.cryptInit .verify (some (.rsaPkcs, .null 0)) 1))).rv = .ok ∧
    (run Demo.pairEnv Demo.fresh
      (Demo.setup ++ [Demo.genCall] ++ Demo.meanwhile ++ Demo.signInitCall 2 :: Demo.meanwhile ++ [] ++
        .sess 65538 (.cryptInit .verify (some (.rsaPkcs, .null 0)) 1) :: [])).bad = false :=
  ⟨Demo.pair_gen, Demo.blockRsa_lawful, by decide, by unfold Names; decide,
    by unfold Demo.meanwhile Bystander; intro c hc; simp only [List.mem_cons, List.not_mem_nil, or_false] at hc; rcases hc with rfl | rfl | rfl | rfl | rfl | rfl <;> exact ⟨trivial, trivial, fun h => h⟩, by unfold BoolToken; decide, by decide, by decide, by decide, by decide⟩

set_option maxRecDepth 20000 in
/-- Non-vacuity of `c78_history`: encryption under the public key of a generated pair. -/
example :
    let gen := pairCall 65538 .rsaKeyPairGen (.null 0) (.of .encrypt [1] :: Demo.rsaPub) [.of .decrypt [1]]
    let start := Call.sess 65538 (.cryptInit .encrypt (some (.rsaPkcs, .null 0)) 1)
    let start' := Call.sess 65538 (.cryptInit .decrypt (some (.rsaPkcs, .null 0)) 2)
    (answer Demo.pairEnv (run Demo.pairEnv Demo.fresh (Demo.setup ++ [gen])) start).rv = .ok ∧
    answer Demo.pairEnv (run Demo.pairEnv Demo.fresh (Demo.setup ++ [gen] ++ start :: Demo.meanwhile))
      (.sess 65538 (.crypt (.encrypt (some [1, 2]) (.buf 2) 0))) = { rv := .ok, out := some { rv := .ok, wr := [1, 2], len := some 2 } } ∧
    (answer Demo.pairEnv (run Demo.pairEnv Demo.fresh (Demo.setup ++ [gen] ++ start :: Demo.meanwhile ++ [])) start').rv = .ok ∧
    (run Demo.pairEnv Demo.fresh (Demo.setup ++ [gen] ++ start :: Demo.meanwhile ++ [] ++ start' :: Demo.meanwhile)).bad = false := by
  decide

end Verif
