import Verif.Props.Sought
import Verif.Props.TokenPair

/-!
# C136 and C137 for key pairs: what describes the keys stays, and finds them
-/

namespace Verif

variable {e : Env}

/-- What a handle leads to, as an attribute that is shown. -/
theorem look_shown {l : Lib} {h k : Nat} {q : Obj} (hl : look l h k = some (some q.view)) (a : CKA) :
    ShownIn e a (getAttr e.key q a) l h k := by
  unfold look at hl
  cases hg : getSession l h with
  | none => rw [hg] at hl; cases hl
  | some s =>
    rw [hg] at hl
    obtain ⟨o, ho, hv⟩ := Option.map_eq_some_iff.mp (Option.some.inj hl)
    obtain ⟨p1, p2, p3⟩ := findObj_parts ho
    refine ⟨s, hg, o, ?_, p1, ?_⟩
    · cases hon : handleOnToken k with
      | true => exact p2 hon
      | false => exact p3 hon
    · funext b n
      rw [← view_getAttr, ← view_getAttr e.key q, hv]

/-- The generators leave what describes the keys. -/
theorem pairGen_reading {rng : Nat} {m : Mech} {typ : Nat} {gen : Obj → Obj → IRet × Obj × Obj}
    (h : pairGen e rng m = some (typ, gen)) {p q p' q' : Obj} {r : IRet} (hg : gen p q = (r, p', q')) {a : CKA} {v w : Bytes}
    (hw : reading a v = some w) : getAttr e.key p' a = getAttr e.key p a ∧ getAttr e.key q' a = getAttr e.key q a := by
  have key : ∀ {o : Obj} {d : KeyData} {z : Nat} {x : Bool} {y : Nat},
      getAttr e.key { o with data := d, size := z, local' := x, keyGenMech := y } a = getAttr e.key o a := by
    intro o d z x y
    cases a <;> first | (simp only [reading, reduceCtorEq] at hw; done) | rfl
  unfold pairGen at h
  split at h
  · obtain ⟨_, rfl⟩ := Prod.mk.inj (Option.some.inj h)
    unfold rsaGenerate at hg
    dsimp only at hg
    repeat' split at hg
    all_goals obtain ⟨_, hh⟩ := Prod.mk.inj hg; obtain ⟨rfl, rfl⟩ := Prod.mk.inj hh; exact ⟨key, key⟩
  · obtain ⟨_, rfl⟩ := Prod.mk.inj (Option.some.inj h)
    unfold ecGenerate at hg
    repeat' split at hg
    all_goals obtain ⟨_, hh⟩ := Prod.mk.inj hg; obtain ⟨rfl, rfl⟩ := Prod.mk.inj hh; exact ⟨key, key⟩
  · obtain ⟨_, rfl⟩ := Prod.mk.inj (Option.some.inj h)
    unfold dhGenerate at hg
    dsimp only at hg
    repeat' split at hg
    all_goals obtain ⟨_, hh⟩ := Prod.mk.inj hg; obtain ⟨rfl, rfl⟩ := Prod.mk.inj hh; exact ⟨key, key⟩
  · cases h

/-- After a pair was generated. -/
theorem pair_shown (hh : HashLen e) (hr : RandLen e) {l₀ : Lib} (h₀ : Start l₀) (hd : NoToken l₀)
    (cs : List Call) {h k₁ k₂ : Nat} {g : Mech} {pg : MechParam} {tp tq : List Entry}
    (hb : BoolToken (cs ++ [pairCall h g pg tp tq])) (hn : 2 * (cs.length + 1) < 2 ^ 28)
    (hok : answer e (run e l₀ cs) (pairCall h g pg tp tq) = { rv := .ok, handle := some k₁, priv := some k₂ })
    {k : Nat} {t : List Entry} (hk : k = k₁ ∧ t = tp ∨ k = k₂ ∧ t = tq) {a : CKA} {v w : Bytes} (hl : LastIn t a v) (hw : reading a v = some w) :
    (step e (run e l₀ cs) (pairCall h g pg tp tq)).1.bad = false ∧ 0 < (step e (run e l₀ cs) (pairCall h g pg tp tq)).1.count ∧
    ShownIn e a (getData w) (step e (run e l₀ cs) (pairCall h g pg tp tq)).1 h k := by
  have hb1 : BoolToken cs := fun d hd => hb d (List.mem_append_left _ hd)
  obtain ⟨hi, hc, hx⟩ := reach_inv hh hr h₀ hd cs hb1 (by omega)
  generalize run e l₀ cs = l at *
  obtain ⟨hbad, hpos, s, hs, hstep⟩ := sess_step (c := .genPair (some (g, pg)) (some tp) (some tq) true) (h := h)
    (by rw [show answer e l (Call.sess h _) = _ from hok])
  have hstep : step e l (pairCall h g pg tp tq) = cGenPair e l s (some (g, pg)) (some tp) (some tq) true := hstep
  unfold answer at hok
  rw [hstep] at hok ⊢
  unfold HandleInv at hx
  rw [if_pos hpos] at hx
  have htok := boolToken_tokOk (c := .genPair (some (g, pg)) (some tp) (some tq) true) hb
  obtain ⟨typ, gen, pub₀, priv₀, pub, priv, hgn, hp1, hp2, hgen, on₁, on₂, l₁, l', s₁, j₁, j₂, t1, t2, a1, hf, a2, heq⟩ :=
    pair_answer (p := pg) (by rw [hok])
  rw [heq] at hok ⊢
  cases hok
  obtain ⟨i1, i2⟩ := pairGen_iv hgn hgen
  obtain ⟨_, _, _, ⟨u, d⟩, ⟨u', f⟩, _, hb', hc'⟩ := two_look hr (l := l) (l₀ := { l with rng := l.rng + 1 }) ⟨rfl, rfl, rfl, rfl, rfl, rfl⟩ a1
    (htok tp (by simp [SessCall.creates]) _ t1) (by rw [i1]; exact newObject_iv' hp1) hf a2
    (htok tq (by simp [SessCall.creates]) _ t2) hx hi hc.pop (by omega) hs
  refine ⟨hb'.trans hbad, by rw [hc']; exact hpos, ?_⟩
  obtain ⟨w1, w2⟩ := pairGen_reading hgn hgen hw
  have hadded : ∀ (o : Obj) u on k, getAttr e.key (o.added u on k) a = getAttr e.key o a := by
    intro o u on k
    cases a <;> first | (simp only [reading, reduceCtorEq] at hw; done) | rfl
  have hnew : ∀ {cls : Nat} {o : Obj}, newObject e s typ cls t = (.ok, o) → getAttr e.key o a = getData w := by
    intro cls o ho
    unfold newObject at ho
    have hwr : (s.use == .rw) = true := by
      cases h : s.use == .rw with
      | true => rfl
      | false => rw [h] at ho; exact absurd (congrArg Prod.fst ho) RV.noConfusion
    rw [hwr] at ho
    exact reading_set ho hl hw
  rcases hk with ⟨rfl, rfl⟩ | ⟨rfl, rfl⟩
  · have := look_shown (e := e) d a
    rw [hadded, w1, hnew hp1] at this
    exact this
  · have := look_shown (e := e) f a
    rw [hadded, w2, hnew hp2] at this
    exact this

/-- **C136** for the two keys of a pair, on the token or of a session: what the template of a key
gave is what any later read returns, until a call sets the attribute again or ends the object, its
session or the library. -/
theorem c136_pair (hh : HashLen e) (hr : RandLen e) {l₀ : Lib} (h₀ : Start l₀) (hd : NoToken l₀) (cs cs' : List Call)
    (h k₁ k₂ : Nat) (g : Mech) (pg : MechParam) (tp tq : List Entry) (made : Call) (hmade : made = pairCall h g pg tp tq)
    (hb : BoolToken (cs ++ made :: cs')) (hn : 2 * (cs ++ made :: cs').length < 2 ^ 28)
    (hok : answer e (run e l₀ cs) made = { rv := .ok, handle := some k₁, priv := some k₂ })
    (k : Nat) (t : List Entry) (hk : k = k₁ ∧ t = tp ∨ k = k₂ ∧ t = tq) (a : CKA) (v w : Bytes) (hl : LastIn t a v) (hw : reading a v = some w)
    (hcs : ∀ c ∈ cs', Retains (tied a) h k c) (hgood : (run e l₀ (cs ++ made :: cs')).bad = false)
    (m : Bytes) (n : Nat) (hz : SizeFor a n) (hwn : w.length ≤ n) :
    answer e (run e l₀ (cs ++ made :: cs')) (readCall h k [⟨a, some m, n⟩]) =
      { rv := .ok, tmpl := some [⟨a, some (w ++ m.drop w.length), w.length⟩] } := by
  subst hmade
  have hrun : run e l₀ (cs ++ [pairCall h g pg tp tq]) = (step e (run e l₀ cs) (pairCall h g pg tp tq)).1 := by rw [run_append]; rfl
  have he : cs ++ pairCall h g pg tp tq :: cs' = (cs ++ [pairCall h g pg tp tq]) ++ cs' := by simp
  rw [he] at hb hn hgood ⊢
  have hn1 : 2 * (cs.length + 1) < 2 ^ 28 := by simp only [List.length_append, List.length_cons, List.length_nil] at hn; omega
  obtain ⟨_, q2, q3⟩ := pair_shown hh hr h₀ hd cs (fun d hd => hb d (List.mem_append_left _ hd)) hn1 hok hk hl hw
  rw [← hrun] at q2 q3
  exact shown_read hh hr h₀ hd _ cs' h k a (reading_plain hw) w hb hn q2 q3 hcs hgood m n hz hwn

/-- **C136** for a pair of the token, across ends and starts of the library: with an application
that obeys the rules of C125, what the template of either key gave is what is read whenever the
user is logged in. -/
theorem c136_pair_restart (hx : StoreLaws e.store) (hse : SealLen e) (hh : HashLen e) (hr : RandLen e) {l₀ : Lib} (h₀ : Start l₀)
    (hd : NoToken l₀) (cs cs' : List Call) (h h' k₁ k₂ : Nat) (g : Mech) (pg : MechParam) (tp tq : List Entry)
    (made : Call) (hmade : made = pairCall h g pg tp tq)
    (hb : BoolToken (cs ++ made :: cs')) (hn : 2 * (cs ++ made :: cs').length < 2 ^ 28)
    (hclock : ClockWithin (2 ^ 62) ((cs ++ made :: cs').map .call)) (ho : Ordered e l₀ (cs ++ made :: cs'))
    (hok : answer e (run e l₀ cs) made = { rv := .ok, handle := some k₁, priv := some k₂ })
    (k : Nat) (t : List Entry) (hkt : k = k₁ ∧ t = tp ∨ k = k₂ ∧ t = tq) (hk : handleOnToken k = true)
    (a : CKA) (v w : Bytes) (hl : LastIn t a v) (hw : reading a v = some w) (hu : UserIn e (run e l₀ (cs ++ [made])) h)
    (hs : NotDestroyed k cs') (hgood : (run e l₀ (cs ++ made :: cs')).bad = false)
    (hu' : UserIn e (run e l₀ (cs ++ made :: cs')) h')
    (m : Bytes) (n : Nat) (hz : SizeFor a n) (hwn : w.length ≤ n) :
    answer e (run e l₀ (cs ++ made :: cs')) (readCall h' k [⟨a, some m, n⟩]) =
      { rv := .ok, tmpl := some [⟨a, some (w ++ m.drop w.length), w.length⟩] } := by
  subst hmade
  have hn1 : 2 * (cs.length + 1) < 2 ^ 28 := by simp only [List.length_append, List.length_cons] at hn; omega
  have hb1 : BoolToken (cs ++ [pairCall h g pg tp tq]) := fun d hd => hb d (by
    rcases List.mem_append.mp hd with h | h
    · exact List.mem_append_left _ h
    · exact List.mem_append_right _ (by rw [List.mem_singleton.mp h]; exact List.mem_cons_self))
  exact shown_restart hx hse hh hr h₀ hd cs cs' h h' k _ a v w hb hn hclock ho
    (fun _ _ _ => pair_shown hh hr h₀ hd cs hb1 hn1 hok hkt hl hw) hk hw hu hs hgood hu' m n hz hwn

/-- **C137** for the two keys of a pair: each is found by attributes that its template gave. -/
theorem c137_pair (hke : e.key.Lawful) (hx : StoreLaws e.store) (hse : SealLen e) (hh : HashLen e) (hr : RandLen e) {l₀ : Lib}
    (h₀ : Start l₀) (hd : NoToken l₀) (cs cs' : List Call) (h h' k₁ k₂ : Nat) (g : Mech) (pg : MechParam) (tp tq : List Entry)
    (made : Call) (hmade : made = pairCall h g pg tp tq)
    (hb : BoolToken (cs ++ made :: cs')) (hn : 2 * (cs ++ made :: cs').length < 2 ^ 28)
    (hclock : ClockWithin (2 ^ 62) ((cs ++ made :: cs').map .call)) (ho : Ordered e l₀ (cs ++ made :: cs'))
    (hok : answer e (run e l₀ cs) made = { rv := .ok, handle := some k₁, priv := some k₂ })
    (k : Nat) (t : List Entry) (hkt : k = k₁ ∧ t = tp ∨ k = k₂ ∧ t = tq) (hk : handleOnToken k = true)
    (w : Wanted) (hw : GivenIn t w) (hw0 : w ≠ []) (hu : UserIn e (run e l₀ (cs ++ [made])) h)
    (hs : NotDestroyed k cs') (hgood : (run e l₀ (cs ++ made :: cs')).bad = false)
    (hu' : UserIn e (run e l₀ (cs ++ made :: cs')) h')
    (hq : searchOn true e h' l₀ (cs ++ made :: cs') false = false) :
    (answer e (run e l₀ (cs ++ made :: cs')) (.sess h' (.findInit (some w.tmpl)))).rv = .ok ∧
    ((foundBy e (run e l₀ (cs ++ made :: cs')) h' w).length < 10 → k ∈ foundBy e (run e l₀ (cs ++ made :: cs')) h' w) ∧
    (∀ i ∈ foundBy e (run e l₀ (cs ++ made :: cs')) h' w, ∀ p ∈ w, ∃ n rest,
      answer e (run e l₀ (cs ++ made :: cs')) (readCall h' i [⟨p.1, some (List.replicate n 0), n⟩]) =
        { rv := .ok, tmpl := some [⟨p.1, some (p.2 ++ rest), p.2.length⟩] }) := by
  have hread := fun p hp => c136_pair_restart hx hse hh hr h₀ hd cs cs' h h' k₁ k₂ g pg tp tq made hmade hb hn hclock ho hok k t hkt hk
    p.1 p.2 p.2 (hw p hp).1 (hw p hp).2.1 hu hs hgood hu' (List.replicate p.2.length 0) p.2.length (hw p hp).2.2.1 (Nat.le_refl _)
  have hopen : IsOpen e (run e l₀ (cs ++ made :: cs')) h' := by
    obtain ⟨s, q1, q2, _⟩ := user_of_state (h₀.sinv.run e _) hu'
    exact (isOpen_iff (h₀.sinv.run e _)).mpr ⟨q2, s, q1⟩
  have hf := search_accepted hh hr h₀ hd _ hb hn h' w (fun p hp => (hw p hp).2.1) hgood hopen hq
  exact ⟨hf, found_core hke hx hse hh hr h₀ hd _ h' k w hb hn hclock ho hk (fun p hp => (hw p hp).2.2.2) hw0 hgood hu' hf hread⟩

namespace Demo

/-- The pair of C140, with a label on each key. -/
def namedPub : List Entry := .of .token [1] :: .of .verify [1] :: .of .label [5] :: rsaPub
def namedPriv : List Entry := [.of .token [1], .of .sign [1], .of .label [6]]
def namedGen : Call := Verif.pairCall 65538 .rsaKeyPairGen (.null 0) namedPub namedPriv

/-- It is generated; then the PIN is changed, and the library restarted. -/
def namedWay : List Call := setup ++ namedGen :: longWay

set_option maxRecDepth 100000 in
/-- The hypotheses of `c136_pair_restart` and `c137_pair` are met, and each key is found by its label. -/
example : Ordered keepEnv fresh namedWay ∧ BoolToken namedWay ∧ ClockWithin (2 ^ 62) (namedWay.map .call) ∧
    answer keepEnv (run keepEnv fresh setup) namedGen = { rv := .ok, handle := some tok1, priv := some (tok1 + 1) } ∧
    UserIn keepEnv (run keepEnv fresh (setup ++ [namedGen])) 65538 ∧ GivenIn namedPriv [(.label, [6])] ∧
    (∀ k, NotDestroyed k longWay) ∧
    (run keepEnv fresh namedWay).bad = false ∧ UserIn keepEnv (run keepEnv fresh namedWay) 65538 ∧
    searchOn true keepEnv 65538 fresh namedWay false = false ∧
    foundBy keepEnv (run keepEnv fresh namedWay) 65538 [(.label, [6])] = [tok1 + 1] ∧
    foundBy keepEnv (run keepEnv fresh namedWay) 65538 [(.label, [5])] = [tok1] := by
  refine ⟨keepOrdered_of (by decide +kernel), by unfold BoolToken; decide +kernel, clockWithin_of (by decide), by decide +kernel,
    by unfold UserIn; decide +kernel, ?_, ?_, by decide +kernel, by unfold UserIn; decide +kernel, by decide +kernel, by decide +kernel,
    by decide +kernel⟩
  · intro p hp
    obtain rfl := List.mem_singleton.mp hp
    exact ⟨⟨[_, _], [], rfl, by decide⟩, rfl, by decide, by decide⟩
  · intro k h hm
    simp [longWay, openCall, loginCall] at hm

set_option maxRecDepth 100000 in
/-- The hypotheses of `c136_pair` are met after a logout and a login. -/
example : (∀ c ∈ again 65538, Retains (tied .label) 65538 (tok1 + 1) c) ∧ LastIn namedPriv .label [6] ∧
    (run keepEnv fresh (setup ++ namedGen :: again 65538)).bad = false :=
  ⟨by intro c hc
      rcases List.mem_cons.mp hc with rfl | hc
      · simp [Retains]
      · rw [List.mem_singleton.mp hc]; simp [Retains, loginCall],
    ⟨[_, _], [], rfl, by decide⟩, by decide +kernel⟩

end Demo

end Verif
