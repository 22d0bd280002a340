import Verif.Proofs.LastSet
import Verif.Props.Orderly
import Verif.Props.Rest

/-!
# C136: an object's descriptive attributes stay as they were last set
-/

namespace Verif

variable {e : Env}

/-- An object that is named is shown. -/
theorem names_shown {l : Lib} {h k : Nat} (hk : Names e l h k) (a : CKA) :
    ∃ o, look l h k = some (some o) ∧ ShownIn e a (getAttr e.key o a) l h k := by
  obtain ⟨_, _, ov, hl⟩ := names_iff.mp hk
  refine ⟨ov, hl, ?_⟩
  unfold look at hl
  cases hs : getSession l h with
  | none => rw [hs] at hl; cases hl
  | some s =>
    rw [hs] at hl
    obtain ⟨o, hf, rfl⟩ := Option.map_eq_some_iff.mp (Option.some.inj hl)
    obtain ⟨p1, p2, p3⟩ := findObj_parts hf
    refine ⟨s, hs, o, ?_, p1, rfl⟩
    cases hon : handleOnToken k with
    | true => exact p2 hon
    | false => exact p3 hon

/-- The answer to reading one attribute. -/
theorem shown_answer {n : Nat} {l : Lib} (hi : HandleInv n l) (hn : n < 2 ^ 28) (hb : l.bad = false) (hc : 0 < l.count) {a : CKA}
    {g : Bool → Nat → GRet} {h k : Nat} (hs : ShownIn e a g l h k) :
    ∃ o, getAttr e.key o a = g ∧ Names e l h k ∧ ∀ m j, answer e l (readCall h k [⟨a, m, j⟩]) =
      { rv := (getAttributeValue e.key o [⟨a, m, j⟩]).1, tmpl := some (getAttributeValue e.key o [⟨a, m, j⟩]).2 } := by
  obtain ⟨o, h1, h2⟩ := hs.look hi hn hc
  refine ⟨o, h2, names_iff.mpr ⟨hb, hc, o, h1⟩, fun m j => ?_⟩
  unfold readCall
  rw [getAttr_answer, h1, hb]
  simp only [Bool.false_eq_true, if_false]
  rw [if_neg (by omega)]

/-- **C136** (partial: `CKA_WRAP` follows `CKA_UNWRAP` and `CKA_TRUSTED` follows `CKA_ENCRYPT`,
see `tied`): an attribute that is not key material reads the same after any calls that do not
set it and leave the object, its session and the library alone: logging in and out, PIN changes
and changes to other attributes of the object, whether they succeed or not, do not matter. -/
theorem c136_kept_partial (hh : HashLen e) (hr : RandLen e) {l₀ : Lib} (h₀ : Start l₀) (hd : NoToken l₀) (cs cs' : List Call)
    (h k : Nat) (a : CKA) (ha : a.NotKeyMaterial) (hb : BoolToken (cs ++ cs')) (hn : 2 * (cs ++ cs').length < 2 ^ 28)
    (hk : Names e (run e l₀ cs) h k) (hcs : ∀ c ∈ cs', Retains (tied a) h k c) (hgood : (run e l₀ (cs ++ cs')).bad = false)
    (m : Option Bytes) (n : Nat) :
    Names e (run e l₀ (cs ++ cs')) h k ∧
    answer e (run e l₀ (cs ++ cs')) (readCall h k [⟨a, m, n⟩]) = answer e (run e l₀ cs) (readCall h k [⟨a, m, n⟩]) := by
  have hb1 : BoolToken cs := fun d hd => hb d (List.mem_append_left _ hd)
  rw [List.length_append] at hn
  obtain ⟨hi, hc, hx⟩ := reach_inv hh hr h₀ hd cs hb1 (by omega)
  obtain ⟨_, _, hx'⟩ := reach_inv hh hr h₀ hd (cs ++ cs') hb (by rw [List.length_append]; omega)
  rw [List.length_append] at hx'
  rw [run_append] at hgood hx' ⊢
  generalize run e l₀ cs = l at *
  obtain ⟨hbad, hcnt, _⟩ := names_iff.mp hk
  obtain ⟨o, _, hs⟩ := names_shown hk a
  obtain ⟨hs', hcnt'⟩ := hs.run hh hr ha cs' hcs hc hi hcnt hgood
  obtain ⟨o1, q1, _, q3⟩ := shown_answer hx (by omega) hbad hcnt hs
  obtain ⟨o2, r1, r2, r3⟩ := shown_answer hx' (by omega) hgood hcnt' hs'
  refine ⟨r2, ?_⟩
  rw [q3, r3, read_one (r1.trans q1.symm)]

/-- After a change that succeeded. -/
theorem set_shown {l : Lib} (hp : l.PopA) {h k : Nat} {t : List Entry} (hok : (answer e l (setCall h k t)).rv = .ok) {a : CKA}
    {v w : Bytes} (hl : LastIn t a v) (hw : reading a v = some w) :
    (step e l (setCall h k t)).1.bad = false ∧ 0 < (step e l (setCall h k t)).1.count ∧
    ShownIn e a (getData w) (step e l (setCall h k t)).1 h k := by
  cases hb : l.bad with
  | true => unfold answer at hok; rw [step_bad hb] at hok; cases hok
  | false =>
    unfold answer at hok
    rw [step_resp hb] at hok
    have hst : step e l (setCall h k t) = callBody e l (setCall h k t) := step_eq hb (by rw [hok]; exact RV.noConfusion)
    rw [hst]
    clear hst
    unfold setCall at hok ⊢
    simp only [callBody] at hok ⊢
    split at hok
    · cases hok
    rename_i hc
    rw [if_neg hc]
    cases hs : getSession l h with
    | none => rw [hs] at hok; cases hok
    | some s =>
      rw [hs] at hok
      simp only [sessCall, cSetAttr] at hok ⊢
      split at hok
      · cases hok
      rename_i hu
      rw [if_neg hu]
      cases hf : findObj l s k with
      | none => rw [hf] at hok; cases hok
      | some o =>
        rw [hf] at hok
        have hok : (setAttributeValue e.key true o t).1 = .ok := hok
        obtain ⟨p1, p2, p3⟩ := findObj_parts hf
        have hset : getAttr e.key (setAttributeValue e.key true o t).2 a = getData w :=
          reading_set (Prod.ext hok rfl) hl hw
        have hkey := (setAttributeValue_key e.key true o t).1
        have hu : (setAttributeValue e.key true o t).2.uid = o.uid := congrArg (fun k : OKey => k.2.1) hkey
        have hh : (setAttributeValue e.key true o t).2.handle = k := (congrArg (·.1) hkey :).trans p1
        have hin : ∀ os : List Obj, o ∈ os → Exhibits e a (getData w) k (replObj (setAttributeValue e.key true o t).2 os) :=
          fun os ho => ⟨_, List.mem_map.mpr ⟨o, ho, by rw [hu, if_pos rfl]⟩, hh, hset⟩
        dsimp only
        unfold putObj
        cases hon : handleOnToken k with
        | true =>
          simp only [if_true]
          refine ⟨hb, by omega, s, hs, ?_⟩
          rw [hon, if_pos rfl]
          exact hin _ (p2 hon)
        | false =>
          simp only [Bool.false_eq_true, if_false]
          refine ⟨hb, by show 0 < l.count; omega, _,
            by rw [(getSession_handle hs).1, getSession_upd_eq (by intro _; exact ⟨rfl, rfl⟩), hs]; rfl, ?_⟩
          rw [hon]
          exact hin _ (p3 hon)

/-- After an object was made. -/
theorem added_shown {l l' : Lib} {h k : Nat} {s : Session} {o : Obj} {on n : Nat} (hx : HandleInv n l') (hn : n < 2 ^ 28) (hc : 0 < l.count)
    (hb : l.bad = false) (hs : getSession l h = some s) (hadd : sessAddObject e l s on o = (l', some k)) {a : CKA} {v w : Bytes}
    (hw : reading a v = some w) (hnew : getAttr e.key o a = getData w) :
    l'.bad = false ∧ 0 < l'.count ∧ ShownIn e a (getData w) l' h k := by
  have hadded : ∀ u, getAttr e.key (o.added u on k) a = getData w := by
    intro u
    rw [← hnew]
    cases a <;> first | (simp only [reading, reduceCtorEq] at hw; done) | rfl
  obtain ⟨⟨a1, a2, a3⟩, hcase⟩ := sessAdd_some hadd
  refine ⟨a1.trans hb, by omega, ?_⟩
  have hca : 0 < l'.count := by omega
  unfold HandleInv at hx
  rw [if_pos hca] at hx
  rcases hcase with ⟨b1, b2, b3, b4, b5⟩ | ⟨b1, b2, b3, b4⟩
  · have : (o.added l.uid on k).view ∈ l'.token.objs.map Obj.view := by rw [b4]; exact List.mem_cons_self
    obtain ⟨p, hp, hv⟩ := List.mem_map.mp this
    have hs' : getSession l' h = some s := (getSession_congr b5 h).trans hs
    have hk : p.handle = k := (congrArg Obj.handle hv :)
    have hg : getAttr e.key p a = getData w := by
      rw [← hadded l.uid]
      funext b n
      rw [← view_getAttr, ← view_getAttr e.key (o.added l.uid on k), hv]
    have hst := addressed_stays hx hn hs' (k := k) ⟨List.mem_append_right _ hp, hk⟩
    obtain ⟨s2, t1, t2⟩ := hst
    obtain ⟨p', hp', hv'⟩ := List.mem_map.mp t2
    refine ⟨s2, t1, p', ?_, (congrArg Obj.handle hv' :).trans hk, ?_⟩
    · rw [show p.view.handle = k from hk] at hp'; exact hp'
    · rw [← hg]
      funext b n
      rw [← view_getAttr, ← view_getAttr e.key p, hv']
  · have hs' : getSession l' h = some { s with objs := o.added l.uid on k :: s.objs } := by
      rw [b4, (getSession_handle hs).1, getSession_upd_eq (by intro _; exact ⟨rfl, rfl⟩)]
      show (getSession l h).map _ = _
      rw [hs]
      simp [(getSession_handle hs).1]
    have hso : sessObjs l' h = o.added l.uid on k :: s.objs := by unfold sessObjs; rw [hs']; rfl
    have hst := addressed_stays hx hn hs' (k := k) (o := o.added l.uid on k)
      ⟨List.mem_append_left _ (by rw [hso]; exact List.mem_cons_self), rfl⟩
    obtain ⟨s2, t1, t2⟩ := hst
    obtain ⟨p', hp', hv'⟩ := List.mem_map.mp t2
    refine ⟨s2, t1, p', hp', (congrArg Obj.handle hv' :), ?_⟩
    rw [← hadded l.uid]
    funext b n
    rw [← view_getAttr, ← view_getAttr e.key (o.added l.uid on k), hv']

/-- After a creation that succeeded. -/
theorem create_shown {l : Lib} {h k : Nat} {t : List Entry} {n : Nat} (hx : HandleInv n (step e l (createCall h t)).1) (hn : n < 2 ^ 28)
    (hok : answer e l (createCall h t) = { rv := .ok, handle := some k }) {a : CKA}
    {v w : Bytes} (hl : LastIn t a v) (hw : reading a v = some w) :
    (step e l (createCall h t)).1.bad = false ∧ 0 < (step e l (createCall h t)).1.count ∧
    ShownIn e a (getData w) (step e l (createCall h t)).1 h k := by
  obtain ⟨s, o, on, k', l', hb, hc, hs, hu, ho, hon, hadd, hst⟩ := create_answer (e := e) (l := l) (h := h) (t := t) (by rw [hok])
  obtain rfl : k' = k := by
    unfold answer at hok
    rw [hst] at hok
    exact Option.some.inj (congrArg Resp.handle hok)
  have hnew : getAttr e.key o a = getData w := by
    have key : ∀ typ cls, newObject e s typ cls t = (.ok, o) → getAttr e.key o a = getData w := by
      intro typ cls hx
      unfold newObject at hx
      rw [hu] at hx
      exact reading_set hx hl hw
    unfold createObject at ho
    split at ho
    · rename_i hr
      exact absurd (congrArg Prod.fst ho) (templClass_error hr)
    repeat' split at ho
    all_goals first
      | exact key _ _ ho
      | (rename_i hr; exact absurd (congrArg Prod.fst ho) (templUlong_error hr))
      | (exact absurd (congrArg Prod.fst ho) RV.noConfusion)
  rw [hst] at hx ⊢
  exact added_shown hx hn hc hb hs hadd hw hnew

/-- After a key was generated. -/
theorem generate_shown {l : Lib} {h k : Nat} {m : Mech} {p : MechParam} {t : List Entry} {n : Nat}
    (hx : HandleInv n (step e l (genKeyCall h m p t)).1) (hn : n < 2 ^ 28) (hb : l.bad = false)
    (hok : answer e l (genKeyCall h m p t) = { rv := .ok, handle := some k }) {a : CKA}
    {v w : Bytes} (hl : LastIn t a v) (hw : reading a v = some w) :
    (step e l (genKeyCall h m p t)).1.bad = false ∧ 0 < (step e l (genKeyCall h m p t)).1.count ∧
    ShownIn e a (getData w) (step e l (genKeyCall h m p t)).1 h k := by
  obtain ⟨_, hc, s, o, on, l', k', hs, ho, hon, hadd, hst⟩ := genKey_answer (e := e) (l := l) (h := h) (m := m) (p := p) (t := t) (by rw [hok])
  obtain rfl : k' = k := by
    unfold answer at hok
    rw [hst] at hok
    exact Option.some.inj (congrArg Resp.handle hok)
  have hnew : getAttr e.key o a = getData w := by
    unfold newObject at ho
    have hwr : (s.use == .rw) = true := by
      cases h : s.use == .rw with
      | true => rfl
      | false => rw [h] at ho; exact absurd (congrArg Prod.fst ho) RV.noConfusion
    rw [hwr] at ho
    exact reading_set ho hl hw
  rw [hst] at hx ⊢
  refine added_shown (l := { l with rng := l.rng + 1 }) hx hn hc hb hs hadd hw ?_
  rw [← hnew]
  cases a <;> first | (simp only [reading, reduceCtorEq] at hw; done) | rfl

/-- From a state in which an attribute is shown. -/
theorem shown_read (hh : HashLen e) (hr : RandLen e) {l₀ : Lib} (h₀ : Start l₀) (hd : NoToken l₀) (cs cs' : List Call)
    (h k : Nat) (a : CKA) (ha : a.NotKeyMaterial) (w : Bytes) (hb : BoolToken (cs ++ cs')) (hn : 2 * (cs ++ cs').length < 2 ^ 28)
    (hcnt : 0 < (run e l₀ cs).count) (hs : ShownIn e a (getData w) (run e l₀ cs) h k)
    (hcs : ∀ c ∈ cs', Retains (tied a) h k c) (hgood : (run e l₀ (cs ++ cs')).bad = false)
    (m : Bytes) (n : Nat) (hz : SizeFor a n) (hwn : w.length ≤ n) :
    answer e (run e l₀ (cs ++ cs')) (readCall h k [⟨a, some m, n⟩]) =
      { rv := .ok, tmpl := some [⟨a, some (w ++ m.drop w.length), w.length⟩] } := by
  have hb1 : BoolToken cs := fun d hd => hb d (List.mem_append_left _ hd)
  obtain ⟨_, _, hx'⟩ := reach_inv hh hr h₀ hd (cs ++ cs') hb (by omega)
  have hn1 : 2 * cs.length < 2 ^ 28 := by rw [List.length_append] at hn; omega
  obtain ⟨hi, hc, _⟩ := reach_inv hh hr h₀ hd cs hb1 (by omega)
  rw [run_append] at hgood hx' ⊢
  generalize run e l₀ cs = l at *
  obtain ⟨hs', hcnt'⟩ := hs.run hh hr ha cs' hcs hc hi hcnt hgood
  obtain ⟨o2, r1, _, r3⟩ := shown_answer hx' (by omega) hgood hcnt' hs'
  rw [r3, read_data r1 m hz hwn]

/-- **C136**: what a successful `C_SetAttributeValue` sets an attribute to (the last entry for
it in the template counts) is what any later read returns, until a call sets the attribute
again or ends the object, its session or the library. -/
theorem c136_set (hh : HashLen e) (hr : RandLen e) {l₀ : Lib} (h₀ : Start l₀) (hd : NoToken l₀) (cs cs' : List Call)
    (h k : Nat) (t : List Entry) (a : CKA) (v w : Bytes) (hb : BoolToken (cs ++ setCall h k t :: cs'))
    (hn : 2 * (cs ++ setCall h k t :: cs').length < 2 ^ 28)
    (hok : (answer e (run e l₀ cs) (setCall h k t)).rv = .ok) (hl : LastIn t a v) (hw : reading a v = some w)
    (hcs : ∀ c ∈ cs', Retains (tied a) h k c) (hgood : (run e l₀ (cs ++ setCall h k t :: cs')).bad = false)
    (m : Bytes) (n : Nat) (hz : SizeFor a n) (hwn : w.length ≤ n) :
    answer e (run e l₀ (cs ++ setCall h k t :: cs')) (readCall h k [⟨a, some m, n⟩]) =
      { rv := .ok, tmpl := some [⟨a, some (w ++ m.drop w.length), w.length⟩] } := by
  have hn1 : 2 * cs.length < 2 ^ 28 := by rw [List.length_append] at hn; omega
  obtain ⟨_, hc, _⟩ := reach_inv hh hr h₀ hd cs (fun d hd => hb d (List.mem_append_left _ hd)) (by omega)
  obtain ⟨_, q2, q3⟩ := set_shown hc.pop hok hl hw
  have hrun : run e l₀ (cs ++ [setCall h k t]) = (step e (run e l₀ cs) (setCall h k t)).1 := by rw [run_append]; rfl
  rw [← hrun] at q2 q3
  have he : cs ++ setCall h k t :: cs' = (cs ++ [setCall h k t]) ++ cs' := by simp
  rw [he] at hb hn hgood ⊢
  exact shown_read hh hr h₀ hd _ cs' h k a (reading_plain hw) w hb hn q2 q3 hcs hgood m n hz hwn

/-- **C136** from the creation of the object on. -/
theorem c136_created (hh : HashLen e) (hr : RandLen e) {l₀ : Lib} (h₀ : Start l₀) (hd : NoToken l₀) (cs cs' : List Call)
    (h k : Nat) (t : List Entry) (a : CKA) (v w : Bytes) (hb : BoolToken (cs ++ createCall h t :: cs'))
    (hn : 2 * (cs ++ createCall h t :: cs').length < 2 ^ 28)
    (hok : answer e (run e l₀ cs) (createCall h t) = { rv := .ok, handle := some k }) (hl : LastIn t a v) (hw : reading a v = some w)
    (hcs : ∀ c ∈ cs', Retains (tied a) h k c) (hgood : (run e l₀ (cs ++ createCall h t :: cs')).bad = false)
    (m : Bytes) (n : Nat) (hz : SizeFor a n) (hwn : w.length ≤ n) :
    answer e (run e l₀ (cs ++ createCall h t :: cs')) (readCall h k [⟨a, some m, n⟩]) =
      { rv := .ok, tmpl := some [⟨a, some (w ++ m.drop w.length), w.length⟩] } := by
  have hrun : run e l₀ (cs ++ [createCall h t]) = (step e (run e l₀ cs) (createCall h t)).1 := by rw [run_append]; rfl
  have he : cs ++ createCall h t :: cs' = (cs ++ [createCall h t]) ++ cs' := by simp
  rw [he] at hb hn hgood ⊢
  have hn1 : 2 * (cs ++ [createCall h t]).length < 2 ^ 28 := by rw [List.length_append (as := cs ++ _)] at hn; omega
  obtain ⟨_, _, hx⟩ := reach_inv hh hr h₀ hd (cs ++ [createCall h t]) (fun d hd => hb d (List.mem_append_left _ hd)) (by omega)
  rw [hrun] at hx
  obtain ⟨_, q2, q3⟩ := create_shown hx (by omega) hok hl hw
  rw [← hrun] at q2 q3
  exact shown_read hh hr h₀ hd _ cs' h k a (reading_plain hw) w hb hn q2 q3 hcs hgood m n hz hwn

/-- From the call that makes an object of the token on, across ends and starts of the library. -/
theorem shown_restart (hx : StoreLaws e.store) (hse : SealLen e) (hh : HashLen e) (hr : RandLen e) {l₀ : Lib} (h₀ : Start l₀) (hd : NoToken l₀)
    (cs cs' : List Call) (h h' k : Nat) (c : Call) (a : CKA) (v w : Bytes) (hb : BoolToken (cs ++ c :: cs'))
    (hn : 2 * (cs ++ c :: cs').length < 2 ^ 28)
    (hclock : ClockWithin (2 ^ 62) ((cs ++ c :: cs').map .call)) (ho : Ordered e l₀ (cs ++ c :: cs'))
    (hc : ∀ n, n < 2 ^ 28 → HandleInv n (step e (run e l₀ cs) c).1 → (step e (run e l₀ cs) c).1.bad = false ∧
      0 < (step e (run e l₀ cs) c).1.count ∧ ShownIn e a (getData w) (step e (run e l₀ cs) c).1 h k) (hk : handleOnToken k = true)
    (hw : reading a v = some w) (hu : UserIn e (run e l₀ (cs ++ [c])) h)
    (hs : NotDestroyed k cs') (hgood : (run e l₀ (cs ++ c :: cs')).bad = false)
    (hu' : UserIn e (run e l₀ (cs ++ c :: cs')) h')
    (m : Bytes) (n : Nat) (hz : SizeFor a n) (hwn : w.length ≤ n) :
    answer e (run e l₀ (cs ++ c :: cs')) (readCall h' k [⟨a, some m, n⟩]) =
      { rv := .ok, tmpl := some [⟨a, some (w ++ m.drop w.length), w.length⟩] } := by
  have hrun : run e l₀ (cs ++ [c]) = (step e (run e l₀ cs) (c)).1 := by rw [run_append]; rfl
  have he : cs ++ c :: cs' = (cs ++ [c]) ++ cs' := by simp
  rw [he] at hb hn hgood hclock ho hu' ⊢
  have hn1 : 2 * (cs ++ [c]).length < 2 ^ 28 := by rw [List.length_append (as := cs ++ _)] at hn; omega
  have hb1 : BoolToken (cs ++ [c]) := fun d hd => hb d (List.mem_append_left _ hd)
  obtain ⟨_, _, hx1⟩ := reach_inv hh hr h₀ hd (cs ++ [c]) hb1 (by omega)
  rw [hrun] at hx1
  obtain ⟨q1, q2, q3⟩ := hc _ (by omega) hx1
  rw [← hrun] at q1 q2 q3
  obtain ⟨s, g1, o, g2, g3, g4⟩ := id q3
  rw [if_pos hk] at g2
  have hre := (c125_kept hx hse hh hr h₀ hd (cs ++ [c]) cs' h h' k o hb hn hclock ho hu
    ⟨List.mem_append_right _ g2, g3⟩ hk hs hgood hu').2.2 [⟨a, some m, n⟩]
  rw [hre]
  have := shown_read hh hr h₀ hd (cs ++ [c]) [] h k a (reading_plain hw) w (by rw [List.append_nil]; exact hb1)
    (by rw [List.append_nil]; exact hn1) q2 q3 (by intro d hd; cases hd) (by rw [List.append_nil]; exact q1) m n hz hwn
  rw [List.append_nil] at this
  exact this

/-- **C136** for an object of the token, across ends and starts of the library: with an
application that obeys the rules of C125, what was given at creation is what is read whenever
the user is logged in. -/
theorem c136_restart (hx : StoreLaws e.store) (hse : SealLen e) (hh : HashLen e) (hr : RandLen e) {l₀ : Lib} (h₀ : Start l₀) (hd : NoToken l₀)
    (cs cs' : List Call) (h h' k : Nat) (t : List Entry) (a : CKA) (v w : Bytes) (hb : BoolToken (cs ++ createCall h t :: cs'))
    (hn : 2 * (cs ++ createCall h t :: cs').length < 2 ^ 28)
    (hclock : ClockWithin (2 ^ 62) ((cs ++ createCall h t :: cs').map .call)) (ho : Ordered e l₀ (cs ++ createCall h t :: cs'))
    (hok : answer e (run e l₀ cs) (createCall h t) = { rv := .ok, handle := some k }) (hk : handleOnToken k = true)
    (hl : LastIn t a v) (hw : reading a v = some w) (hu : UserIn e (run e l₀ (cs ++ [createCall h t])) h)
    (hs : NotDestroyed k cs') (hgood : (run e l₀ (cs ++ createCall h t :: cs')).bad = false)
    (hu' : UserIn e (run e l₀ (cs ++ createCall h t :: cs')) h')
    (m : Bytes) (n : Nat) (hz : SizeFor a n) (hwn : w.length ≤ n) :
    answer e (run e l₀ (cs ++ createCall h t :: cs')) (readCall h' k [⟨a, some m, n⟩]) =
      { rv := .ok, tmpl := some [⟨a, some (w ++ m.drop w.length), w.length⟩] } := by
  exact shown_restart hx hse hh hr h₀ hd cs cs' h h' k _ a v w hb hn hclock ho (fun n hn hx => create_shown hx hn hok hl hw) hk hw hu hs hgood hu'
    m n hz hwn

/-- The same for a key that `C_GenerateKey` made. -/
theorem c136_generated (hx : StoreLaws e.store) (hse : SealLen e) (hh : HashLen e) (hr : RandLen e) {l₀ : Lib} (h₀ : Start l₀) (hd : NoToken l₀)
    (cs cs' : List Call) (h h' k : Nat) (m' : Mech) (p' : MechParam) (t : List Entry) (a : CKA) (v w : Bytes)
    (hb : BoolToken (cs ++ genKeyCall h m' p' t :: cs'))
    (hn : 2 * (cs ++ genKeyCall h m' p' t :: cs').length < 2 ^ 28)
    (hclock : ClockWithin (2 ^ 62) ((cs ++ genKeyCall h m' p' t :: cs').map .call)) (ho : Ordered e l₀ (cs ++ genKeyCall h m' p' t :: cs'))
    (hok : answer e (run e l₀ cs) (genKeyCall h m' p' t) = { rv := .ok, handle := some k }) (hk : handleOnToken k = true)
    (hl : LastIn t a v) (hw : reading a v = some w) (hu : UserIn e (run e l₀ (cs ++ [genKeyCall h m' p' t])) h)
    (hs : NotDestroyed k cs') (hgood : (run e l₀ (cs ++ genKeyCall h m' p' t :: cs')).bad = false)
    (hu' : UserIn e (run e l₀ (cs ++ genKeyCall h m' p' t :: cs')) h')
    (m : Bytes) (n : Nat) (hz : SizeFor a n) (hwn : w.length ≤ n) :
    answer e (run e l₀ (cs ++ genKeyCall h m' p' t :: cs')) (readCall h' k [⟨a, some m, n⟩]) =
      { rv := .ok, tmpl := some [⟨a, some (w ++ m.drop w.length), w.length⟩] } := by
  have hbad : (run e l₀ cs).bad = false := by rw [run_append] at hgood; exact run_good hgood
  exact shown_restart hx hse hh hr h₀ hd cs cs' h h' k _ a v w hb hn hclock ho (fun n hn hx => generate_shown hx hn hbad hok hl hw) hk hw hu hs
    hgood hu' m n hz hwn

namespace Demo

/-- An AES key on the token is created. -/
def tagged : List Call := setup ++ [createCall 65538 (aesTmpl true 1 ++ [.of .label [1, 2]])]

/-- Label and usage are set, the label twice. -/
def newTags : List Entry := [.of .label [7], .of .sign [1], .of .label [65, 66]]

/-- What follows: logging out and in, other attributes, a call that fails half-way, the
destruction of another key. -/
def afterwards : List Call :=
  [.sess 65538 .logout, setCall 65538 tok1 [.of .id [9]], .sess 65538 (.login .user (some userPin) 0),
   setCall 65538 tok1 [.of .endDate (List.replicate 8 50), .of .modulus [1]],
   createCall 65538 (aesTmpl true 2), .sess 65538 (.destroy (tok1 + 1)), .sess 65538 (.setPin (some userPin) (some soPin))]

/-- The attribute of the key that is read. -/
def seen (a : CKA) (n : Nat) (cs : List Call) : Option (List Entry) :=
  (answer env (run env fresh cs) (readCall 65538 tok1 [⟨a, some (List.replicate n 0), n⟩])).tmpl

set_option maxRecDepth 100000 in
/-- The hypotheses of `c136_set` are met for the label and for a usage flag, although one of the
calls that follow fails half-way. -/
example : BoolToken (tagged ++ setCall 65538 tok1 newTags :: afterwards) ∧
    (answer env (run env fresh tagged) (setCall 65538 tok1 newTags)).rv = .ok ∧
    LastIn newTags .label [65, 66] ∧ LastIn newTags .sign [1] ∧ reading .label [65, 66] = some [65, 66] ∧ reading .sign [1] = some [1] ∧
    (∀ c ∈ afterwards, Retains (tied .label) 65538 tok1 c ∧ Retains (tied .sign) 65538 tok1 c) ∧
    (run env fresh (tagged ++ setCall 65538 tok1 newTags :: afterwards)).bad = false ∧
    rvs env (run env fresh (tagged ++ [setCall 65538 tok1 newTags])) afterwards =
      [.ok, .ok, .ok, .attributeValueInvalid, .ok, .ok, .ok] ∧
    seen .label 3 (tagged ++ setCall 65538 tok1 newTags :: afterwards) = some [⟨.label, some [65, 66, 0], 2⟩] := by
  refine ⟨by unfold BoolToken; decide +kernel, by decide +kernel, ⟨[_, _], [], rfl, by decide⟩, ⟨[_], [_], rfl, by decide⟩, rfl, rfl,
    ?_, by decide +kernel, by decide +kernel, by decide +kernel⟩
  intro c hc
  simp only [afterwards, List.mem_cons, List.not_mem_nil, or_false] at hc
  rcases hc with rfl | rfl | rfl | rfl | rfl | rfl | rfl <;>
    first | exact ⟨trivial, trivial⟩ | exact ⟨by unfold setCall Retains; decide, by unfold setCall Retains; decide⟩ | exact ⟨by simp only [Retains]; decide, by simp only [Retains]; decide⟩

set_option maxRecDepth 100000 in
/-- The hypotheses of `c136_created` are met. -/
example : answer env (run env fresh setup) (createCall 65538 (aesTmpl true 1 ++ [.of .label [1, 2]])) = { rv := .ok, handle := some tok1 } ∧
    LastIn (aesTmpl true 1 ++ [.of .label [1, 2]]) .label [1, 2] ∧
    seen .label 2 (tagged ++ afterwards) = some [⟨.label, some [1, 2], 2⟩] :=
  ⟨by decide +kernel, ⟨aesTmpl true 1, [], rfl, by decide⟩, by decide +kernel⟩

set_option maxRecDepth 100000 in
/-- The hypotheses of `c136_restart` are met by the long way of C125, with two restarts. -/
example : Ordered env fresh (tagged ++ longerWay) ∧ BoolToken (tagged ++ longerWay) ∧
    ClockWithin (2 ^ 62) ((tagged ++ longerWay).map .call) ∧ stateOf env (run env fresh tagged) 65538 = some .rwUser ∧
    handleOnToken tok1 = true ∧ NotDestroyed tok1 longerWay ∧ (run env fresh (tagged ++ longerWay)).bad = false ∧
    stateOf env (run env fresh (tagged ++ longerWay)) 65538 = some .rwUser ∧
    seen .label 2 (tagged ++ longerWay) = some [⟨.label, some [1, 2], 2⟩] := by
  refine ⟨ordered_of (by decide +kernel), by unfold BoolToken; decide +kernel, clockWithin_of (by decide), by decide +kernel, by decide, ?_,
    by decide +kernel, by decide +kernel, by decide +kernel⟩
  intro h hm
  simp [longerWay, longWay, openCall, createCall, loginCall, tok1] at hm

set_option maxRecDepth 100000 in
/-- **C136 is violated** for `CKA_WRAP` and `CKA_TRUSTED`, which nobody set: the one becomes true
when `CKA_UNWRAP` is set, the other when `CKA_ENCRYPT` is. -/
theorem _root_.Verif.c136_violated :
    rvs env fresh (tagged ++ [setCall 65538 tok1 [.of .unwrap [1]]]) = List.replicate 9 .ok ∧
    seen .wrap 1 tagged = some [⟨.wrap, some [0], 1⟩] ∧
    seen .wrap 1 (tagged ++ [setCall 65538 tok1 [.of .unwrap [1]]]) = some [⟨.wrap, some [1], 1⟩] ∧
    rvs env fresh (tagged ++ [setCall 65538 tok1 [.of .encrypt [1]]]) = List.replicate 9 .ok ∧
    seen .trusted 1 tagged = some [⟨.trusted, some [0], 1⟩] ∧
    seen .trusted 1 (tagged ++ [setCall 65538 tok1 [.of .encrypt [1]]]) = some [⟨.trusted, some [1], 1⟩] :=
  ⟨by decide +kernel, by decide +kernel, by decide +kernel, by decide +kernel, by decide +kernel, by decide +kernel⟩

end Demo

end Verif
