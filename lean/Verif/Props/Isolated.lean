import Verif.Proofs.Isolated
import Verif.Proofs.OpNorm
import Verif.Props.Objs

/-!
# C80: a running operation depends only on its own calls
-/

namespace Verif

variable {e : Env}

/-- Operations look at the key only. -/
theorem run_view (x : Crypto) (st : OpSt) (o : Obj) (d : DataCall) :
    d.run x st (some o.view) = d.run x st (some o) := by
  cases d <;> rfl

theorem afterData_view (x : Crypto) (o : Obj) (st : OpSt) (ds : List DataCall) :
    afterData x o.view st ds = afterData x o st ds := by
  induction ds generalizing st with
  | nil => rfl
  | cons d ds ih => simp only [afterData, run_view]; exact ih _

/-- The operation of session `h` is in the state `st` and has a key that looks like `ov`. -/
def Works (l : Lib) (h : Nat) (st : OpSt) (ov : Obj) : Prop :=
  ∃ s, getSession l h = some s ∧ s.op = st ∧ s.curr = some ov.uid ∧
    Has ov (if handleOnToken ov.handle then l.token.objs else s.objs)

theorem Works.bystander {l : Lib} (hp : l.PopA) (hi : SInv l) (hbad : l.bad = false) (hcnt : 0 < l.count) {h : Nat} {st : OpSt}
    {ov : Obj} (hw : Works l h st ov) {c : Call} (hb : Bystander h ov.handle c) :
    Works (step e l c).1 h st ov ∧ 0 < (step e l c).1.count := by
  obtain ⟨s, h1, h2, h3, h4⟩ := hw
  obtain ⟨hk, hc⟩ := keeps_step (e := e) (q := true) (ov := ov) hp hi hbad hcnt hb.1 (fun _ => hb.2) h1
  obtain ⟨s', g1, g2, g4⟩ := hk.ses s h1
  refine ⟨⟨s', g1, (g2 rfl).1.trans h2, (g2 rfl).2.trans h3, ?_⟩, hc⟩
  cases hon : handleOnToken ov.handle with
  | true => rw [hon] at h4; exact hk.tok hon h4
  | false => rw [hon] at h4; exact g4 hon h4

theorem Works.running {l : Lib} (hp : l.PopA) (hbad : l.bad = false) (hcnt : 0 < l.count) {h : Nat} {st : OpSt}
    {ov : Obj} (hw : Works l h st ov) : ∃ s o, Running l h s o ∧ s.op = st ∧ o.view = ov := by
  obtain ⟨s, h1, h2, h3, h4⟩ := hw
  obtain ⟨o, ho, rfl⟩ := List.mem_map.mp h4
  refine ⟨s, o, ⟨hbad, hcnt, h1, ?_⟩, h2, rfl⟩
  have hm : o ∈ s.objs ++ l.token.objs := by
    split at ho
    · exact List.mem_append_right _ ho
    · exact List.mem_append_left _ ho
  have hf := uid_find hp (getSession_handle h1).2.2 hm
  unfold currKey
  rw [h3]
  dsimp only
  rw [show o.view.uid = o.uid from rfl, hf]

/-- A data call of the session. -/
theorem Works.data {l : Lib} (hp : l.PopA) (hbad : l.bad = false) (hcnt : 0 < l.count) {h : Nat} {st : OpSt}
    {ov : Obj} (hw : Works l h st ov) (d : DataCall) :
    answer e l (.sess h (.crypt d)) =
      { rv := (d.run e.crypto st (some ov)).2.rv, out := some (d.run e.crypto st (some ov)).2 } ∧
    Works (step e l (.sess h (.crypt d))).1 h (d.run e.crypto st (some ov)).1 ov ∧
    0 < (step e l (.sess h (.crypt d))).1.count := by
  obtain ⟨s, o, hr, rfl, rfl⟩ := hw.running hp hbad hcnt
  rw [run_view]
  refine ⟨(data_running hr d).1, ?_⟩
  obtain ⟨_, _, hs, hk⟩ := hr
  obtain ⟨t, h1, h2, h3, h4⟩ := hw
  rw [hs] at h1
  obtain rfl := Option.some.inj h1
  have hsh := (getSession_handle hs).1
  obtain ⟨e1, e2, e3, _⟩ := step_sessions (e := e) hbad (.sess h (.crypt d))
  have hbody : (callBody e l (.sess h (.crypt d))).1 =
      l.upd s.handle fun u => { u with op := (d.run e.crypto s.op (some o)).1 } := by
    simp only [callBody]
    rw [if_neg (by omega), hs]
    simp only [sessCall, cCrypt, hk]
  rw [hbody] at e1 e2 e3
  refine ⟨⟨{ s with op := (d.run e.crypto s.op (some o)).1 }, ?_, rfl, h3, ?_⟩, by rw [e2]; exact hcnt⟩
  · subst hsh
    rw [getSession_congr e1, getSession_upd_eq (by intro _; exact ⟨rfl, rfl⟩), hs]
    rfl
  · rw [e3]; exact h4

/-- A history of bystanders and data calls of the session. -/
theorem Works.run (hh : HashLen e) (hr : RandLen e) {h : Nat} {ov : Obj} (cs : List Call)
    (hcs : ∀ c ∈ cs, Bystander h ov.handle c ∨ ∃ d, c = .sess h (.crypt d)) :
    ∀ {l : Lib} {st : OpSt}, CapInv l → SInv l → 0 < l.count → (run e l cs).bad = false → Works l h st ov →
      Works (run e l cs) h (afterData e.crypto ov st (dataCalls h cs)) ov ∧ 0 < (run e l cs).count := by
  induction cs with
  | nil => intro l st _ _ hc _ hw; exact ⟨hw, hc⟩
  | cons c cs ih =>
    intro l st hcap hi hcnt hgood hw
    have hg1 : (step e l c).1.bad = false := by
      cases hb : (step e l c).1.bad with
      | false => rfl
      | true =>
        have : Verif.run e l (c :: cs) = (step e l c).1 := run_bad hb cs
        rw [this, hb] at hgood; cases hgood
    have hbad := (step_good hg1).1
    have ih' := @ih (fun d hd => hcs d (List.mem_cons_of_mem _ hd)) (step e l c).1
    have hcap' : CapInv (step e l c).1 := hcap.run hh hr hi [c]
    rcases hcs c (List.mem_cons_self ..) with hb | ⟨d, rfl⟩
    · obtain ⟨h1, h2⟩ := hw.bystander (e := e) hcap.pop hi hbad hcnt hb
      have hd : dataCalls h (c :: cs) = dataCalls h cs := by
        cases c with
        | sess j c =>
          cases c with
          | crypt d =>
            have hne : j ≠ h := hb.2
            simp only [dataCalls, if_neg hne]
          | _ => rfl
        | _ => rfl
      rw [hd]
      exact ih' hcap' (hi.step e c) h2 hgood h1
    · obtain ⟨_, h1, h2⟩ := hw.data (e := e) hcap.pop hbad hcnt d
      have hd : dataCalls h (.sess h (.crypt d) :: cs) = d :: dataCalls h cs := by simp only [dataCalls, if_true]
      rw [hd]
      exact ih' hcap' (hi.step e _) h2 hgood h1

/-- A successful Init. -/
theorem init_works {l : Lib} (hp : l.PopA) {h k : Nat} {kd : Kind} {m : Mech} {p : MechParam}
    (hok : (answer e l (.sess h (.cryptInit kd (some (m, p)) k))).rv = .ok) :
    ∃ s o st, getSession l h = some s ∧ Addressed l h k o ∧ initCall e.crypto kd s.op o m p = (st, .ok) ∧ 0 < l.count ∧
      Works (step e l (.sess h (.cryptInit kd (some (m, p)) k))).1 h st o.view ∧
      0 < (step e l (.sess h (.cryptInit kd (some (m, p)) k))).1.count := by
  obtain ⟨hk, s, o, s', h1, h2, h3, hr⟩ := init_running hp hok
  obtain ⟨p1, p2, p3⟩ := findObj_parts h2
  refine ⟨s, o, s'.op, h1, ⟨?_, p1⟩, h3, by rw [← hk.count]; exact hr.on, ⟨s', hr.sess, rfl, ?_, ?_⟩, hr.on⟩
  · have : sessObjs l h = s.objs := by unfold sessObjs; rw [h1]; rfl
    rw [this]; exact findObj_memAll h2
  · have := hr.key
    unfold currKey at this
    split at this
    · cases this
    · rename_i u hu
      split at this
      · cases this
      · rename_i q hq
        obtain rfl := CurrKey.obj.inj this
        have : q.uid = u := by simpa using List.find?_some hq
        rw [hu, ← this]; rfl
  · obtain ⟨t, g1, g2⟩ := hk.getSession h1
    rw [hr.sess] at g1
    obtain rfl := Option.some.inj g1
    show Has o.view (if handleOnToken o.handle then _ else _)
    rw [p1]
    cases hon : handleOnToken k with
    | true => rw [hk.tok]; exact List.mem_map_of_mem (p2 hon)
    | false => rw [g2]; exact List.mem_map_of_mem (p3 hon)

/-- **C80**: after a successful Init with a key, the answers of the operation's data calls
depend only on the parameters of the Init, the key and the data calls of that session:
whatever other calls are made in between (on other sessions, with other keys, searches,
creation and destruction of other objects, changes of PINs, ...), each data call answers as
if the operation were alone. -/
theorem c80_isolated (hh : HashLen e) (hr : RandLen e) {l₀ : Lib} (h₀ : Start l₀) (hd : NoToken l₀) (cs cs' : List Call)
    (h k : Nat) (kd : Kind) (m : Mech) (p : MechParam)
    (hok : (answer e (run e l₀ cs) (.sess h (.cryptInit kd (some (m, p)) k))).rv = .ok)
    (hcs : ∀ c ∈ cs', Bystander h k c ∨ ∃ d, c = .sess h (.crypt d))
    (hgood : (run e l₀ (cs ++ .sess h (.cryptInit kd (some (m, p)) k) :: cs')).bad = false) :
    ∃ st₀ o st, Addressed (run e l₀ cs) h k o ∧ initCall e.crypto kd st₀ o m p = (st, .ok) ∧
      ∀ d, answer e (run e l₀ (cs ++ .sess h (.cryptInit kd (some (m, p)) k) :: cs')) (.sess h (.crypt d)) =
        { rv := (d.run e.crypto (afterData e.crypto o st (dataCalls h cs')) (some o)).2.rv,
          out := some (d.run e.crypto (afterData e.crypto o st (dataCalls h cs')) (some o)).2 } := by
  have hcap := (Start.capInv h₀ hd).run hh hr h₀.sinv cs
  have hi := h₀.sinv.run e cs
  rw [run_append] at hgood ⊢
  generalize run e l₀ cs = l at *
  obtain ⟨s, o, st, h1, h2, h3, _, hw, hc⟩ := init_works hcap.pop hok
  refine ⟨s.op, o, st, h2, h3, fun d => ?_⟩
  obtain ⟨hw', hc'⟩ := hw.run hh hr cs' (by rw [show o.view.handle = k from h2.2]; exact hcs)
    (hcap.run hh hr hi [_]) (hi.step e _) hc hgood
  rw [afterData_view] at hw'
  have hcap' := (hcap.run hh hr hi [.sess h (.cryptInit kd (some (m, p)) k)]).run hh hr (hi.step e _) cs'
  have := (hw'.data (e := e) hcap'.pop hgood hc' d).1
  rw [run_view] at this
  exact this

/-- **C80**: the answers are those the operation gives in a session in which nothing was
done before, whatever was done before in this one and in others (not with AES-CBC, of which
C63 is not true). -/
theorem c80_fresh (hh : HashLen e) (hr : RandLen e) {l₀ : Lib} (h₀ : Start l₀) (hd : NoToken l₀) (cs cs' : List Call)
    (h k : Nat) (kd : Kind) (m : Mech) (p : MechParam) (hm : m ≠ .aesCbc ∧ m ≠ .aesCbcPad)
    (hok : (answer e (run e l₀ cs) (.sess h (.cryptInit kd (some (m, p)) k))).rv = .ok)
    (hcs : ∀ c ∈ cs', Bystander h k c ∨ ∃ d, c = .sess h (.crypt d))
    (hgood : (run e l₀ (cs ++ .sess h (.cryptInit kd (some (m, p)) k) :: cs')).bad = false) :
    ∃ o st, Addressed (run e l₀ cs) h k o ∧ initCall e.crypto kd {} o m p = (st, .ok) ∧
      ∀ d, answer e (run e l₀ (cs ++ .sess h (.cryptInit kd (some (m, p)) k) :: cs')) (.sess h (.crypt d)) =
        { rv := (d.run e.crypto (afterData e.crypto o st (dataCalls h cs')) (some o)).2.rv,
          out := some (d.run e.crypto (afterData e.crypto o st (dataCalls h cs')) (some o)).2 } := by
  obtain ⟨st₀, o, st, h1, h2, h3⟩ := c80_isolated hh hr h₀ hd cs cs' h k kd m p hok hcs hgood
  obtain ⟨g1, g2⟩ := norm_initCall e.crypto kd hm h2
  refine ⟨o, _, h1, Prod.ext rfl g1, fun d => ?_⟩
  rw [h3 d, norm_answers e.crypto o g2]

set_option maxRecDepth 20000 in
/-- Non-vacuity of `c80_isolated` and `c80_fresh`: an HMAC in three parts with calls in
between: another session, a search, a new object, a changed PIN. -/
example :
    let key := createCall 65538 [.of .cls (ulong CKO_SECRET_KEY), .of .keyType (ulong CKK_GENERIC_SECRET), .of .sign [1],
      .of .value [1, 2, 3]]
    let start := Call.sess 65538 (.cryptInit .sign (some (.hmac .sha256, .null 0)) 1)
    let between : List Call := [openCall true, .sess 65538 (.findInit (some [])), createCall 65538 (Demo.aesTmpl true 3),
      .sess 65538 (.crypt (.signUpdate (some [5]))), .sess 65538 (.setPin (some Demo.userPin) (some [9, 9, 9, 9])),
      .sess 65538 (.crypt (.signUpdate (some [6])))]
    (answer Demo.env (run Demo.env Demo.fresh (Demo.setup ++ [key])) start).rv = .ok ∧
    dataCalls 65538 between = [.signUpdate (some [5]), .signUpdate (some [6])] ∧
    (run Demo.env Demo.fresh (Demo.setup ++ [key] ++ start :: between)).bad = false ∧
    (answer Demo.env (run Demo.env Demo.fresh (Demo.setup ++ [key] ++ start :: between))
      (.sess 65538 (.crypt (.signFinal (.buf 32))))).rv = .ok := by
  decide

end Verif
