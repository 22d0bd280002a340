import Verif.Spec.Sought
import Verif.Props.LastSet
import Verif.Props.Listing
import Verif.Props.Search

/-!
# C137: a key of the token is found by the attributes it was given
-/

namespace Verif

variable {e : Env}

/-- What is found is among the hits, and the hits are all there if fewer than ten are found. -/
theorem foundBy_hits (hx : e.key.Lawful) (hh : HashLen e) (hr : RandLen e) {l₀ : Lib} (h₀ : Start l₀) (hd : NoToken l₀)
    (cs : List Call) (hb : BoolToken cs) (hn : 2 * cs.length < 2 ^ 28) (h : Nat) (w : Wanted)
    (hw : ∀ p ∈ w, p.2.length < 2 ^ 64 - 1)
    (hok : (answer e (run e l₀ cs) (.sess h (.findInit (some w.tmpl)))).rv = .ok)
    (hg : (step e (run e l₀ cs) (.sess h (.findInit (some w.tmpl)))).1.bad = false) :
    foundBy e (run e l₀ cs) h w = (hits e (run e l₀ cs) h w).take 10 := by
  have := (c22_search hx hh hr h₀ hd cs hb hn h w hw hok [] (by intro c hc; cases hc) hg 10).1
  unfold foundBy
  rw [show run e (step e (run e l₀ cs) (.sess h (.findInit (some w.tmpl)))).1 [] =
    (step e (run e l₀ cs) (.sess h (.findInit (some w.tmpl)))).1 from rfl] at this
  rw [this]
  simp only [show asked h [] = 0 from rfl, List.drop_zero, show (toCInt 10).toNat = 10 by decide]
  exact List.take_of_length_le (by rw [List.length_take]; omega)

/-- A search that is accepted does no harm. -/
theorem findInit_good {l : Lib} {h : Nat} {t : Option (List Entry)} (hok : (answer e l (.sess h (.findInit t))).rv = .ok) :
    (step e l (.sess h (.findInit t))).1.bad = false := by
  unfold answer at hok
  cases hb : l.bad with
  | true => rw [step_bad hb] at hok; cases hok
  | false =>
    rw [step_resp hb] at hok
    rw [step_eq hb (by rw [hok]; exact RV.noConfusion)]
    simp only [callBody] at hok ⊢
    split at hok
    · cases hok
    rename_i hc
    rw [if_neg hc]
    cases hs : getSession l h with
    | none => exact hb
    | some s =>
      simp only [sessCall, cFindInit]
      repeat' split
      all_goals first | exact hb | rfl

/-- Comparing an attribute that is given back does no harm. -/
theorem match_plain {x : KeyExt} {o : Obj} {a : CKA} {v w : Bytes} (h : reading a v = some w) (u : Bytes) :
    matchAttr x o (Entry.of a u) ≠ none := by
  have key : ∀ b : Bytes, getAttr x o a = getData b → matchAttr x o (Entry.of a u) ≠ none := by
    intro b hg
    unfold matchAttr
    simp only [Entry.of, hg, getData]
    repeat' split
    all_goals simp_all
    all_goals omega
  cases a <;> first | (simp only [reading, reduceCtorEq] at h; done) | skip
  case startDate =>
    by_cases hz : o.startDate.headD 0 = 0
    · have hg : getAttr x o .startDate true u.length = { ret := .ok, len := 0 } := if_pos hz
      unfold matchAttr
      simp only [Entry.of, hg]
      repeat' split
      all_goals simp_all
    · exact key o.startDate (by funext b n; exact if_neg hz)
  case endDate =>
    by_cases hz : o.endDate.headD 0 = 0
    · have hg : getAttr x o .endDate true u.length = { ret := .ok, len := 0 } := if_pos hz
      unfold matchAttr
      simp only [Entry.of, hg]
      repeat' split
      all_goals simp_all
    · exact key o.endDate (by funext b n; exact if_neg hz)
  all_goals exact key _ rfl

theorem findLoop_plain {x : KeyExt} {login : Login} {t : List Entry} (ht : ∀ o, matchAll x o t ≠ none) (os : List Obj) (acc : List Nat) :
    findLoop x login t os acc ≠ none := by
  induction os generalizing acc with
  | nil => simp [findLoop]
  | cons o os ih =>
    unfold findLoop
    split
    · exact ih _
    split
    · rename_i hm; exact absurd hm (ht o)
    · exact ih _
    · split
      · simp
      · exact ih _

theorem matchAll_plain {x : KeyExt} {o : Obj} {t : List Entry} (ht : ∀ en ∈ t, matchAttr x o en ≠ none) : matchAll x o t ≠ none := by
  induction t with
  | nil => simp [matchAll]
  | cons en t ih =>
    unfold matchAll
    split
    · rename_i hm; exact absurd hm (ht en List.mem_cons_self)
    · simp
    · exact ih fun en hen => ht en (List.mem_cons_of_mem _ hen)

/-- A search for attributes that the library gives back is accepted if none is in progress. -/
theorem search_accepted (hh : HashLen e) (hr : RandLen e) {l₀ : Lib} (h₀ : Start l₀) (hd : NoToken l₀)
    (cs : List Call) (hb : BoolToken cs) (hn : 2 * cs.length < 2 ^ 28) (h : Nat) (w : Wanted)
    (hw : ∀ p ∈ w, reading p.1 p.2 = some p.2) (hgood : (run e l₀ cs).bad = false) (ho : IsOpen e (run e l₀ cs) h)
    (hs : searchOn true e h l₀ cs false = false) :
    (answer e (run e l₀ cs) (.sess h (.findInit (some w.tmpl)))).rv = .ok := by
  have hact := (c117_exact h₀ cs h ho w.tmpl).1
  rw [hs] at hact
  obtain ⟨hi, _, hx'⟩ := reach_inv hh hr h₀ hd cs hb hn
  obtain ⟨_, s, hses⟩ := (isOpen_iff hi).mp ho
  have hcnt := count_pos_of_open hi hses
  unfold HandleInv at hx'
  rw [if_pos hcnt] at hx'
  have htok : tokenByte w.tmpl 1 = .ok 1 := by
    unfold tokenByte
    have : findAttr w.tmpl .token = none := by
      unfold findAttr
      rw [List.find?_eq_none]
      intro en hen
      obtain ⟨p, hp, rfl⟩ := List.mem_map.mp (List.mem_reverse.mp hen)
      have := hw p hp
      intro hx
      have hx : p.1 = .token := by simpa [Entry.of] using hx
      rw [hx] at this
      cases this
    rw [this]
  have hcyc : findCycles (run e l₀ cs).token.objs = false := by
    unfold findCycles
    cases hx : (run e l₀ cs).token.objs.getLast? with
    | none => rfl
    | some o =>
      have : o.onToken = true := hx'.tok.bit o.hb (List.mem_map_of_mem (List.mem_of_getLast? hx))
      simp [this]
  have hfl : ∀ os acc, findLoop e.key (run e l₀ cs).token.login w.tmpl os acc ≠ none :=
    findLoop_plain fun o => matchAll_plain fun en hen => by
      obtain ⟨p, hp, rfl⟩ := List.mem_map.mp hen
      exact match_plain (hw p hp) p.2
  unfold answer at hact ⊢
  rw [step_resp hgood] at hact ⊢
  simp only [callBody, if_neg (show ¬ (run e l₀ cs).count ≤ 0 by omega), hses, sessCall, cFindInit, htok, hcyc] at hact ⊢
  split
  · rename_i ha; rw [if_pos ha] at hact; simp at hact
  simp only [Bool.false_eq_true, and_false, if_false]
  split
  · rename_i hf; exact absurd hf (hfl _ _)
  · rfl

/-- From what the key reads to what the search finds. -/
theorem found_core (hke : e.key.Lawful) (hx : StoreLaws e.store) (hse : SealLen e) (hh : HashLen e) (hr : RandLen e) {l₀ : Lib}
    (h₀ : Start l₀) (hd : NoToken l₀) (cs : List Call) (h' k : Nat) (w : Wanted) (hb : BoolToken cs)
    (hn : 2 * cs.length < 2 ^ 28) (hclock : ClockWithin (2 ^ 62) (cs.map .call)) (ho : Ordered e l₀ cs) (hk : handleOnToken k = true)
    (hw : ∀ p ∈ w, p.2.length < 2 ^ 64 - 1) (hw0 : w ≠ []) (hgood : (run e l₀ cs).bad = false) (hu' : UserIn e (run e l₀ cs) h')
    (hf : (answer e (run e l₀ cs) (.sess h' (.findInit (some w.tmpl)))).rv = .ok)
    (hread : ∀ p ∈ w, answer e (run e l₀ cs) (readCall h' k [⟨p.1, some (List.replicate p.2.length 0), p.2.length⟩]) =
      { rv := .ok, tmpl := some [⟨p.1, some (p.2 ++ (List.replicate p.2.length 0).drop p.2.length), p.2.length⟩] }) :
    ((foundBy e (run e l₀ (cs)) h' w).length < 10 →
      k ∈ foundBy e (run e l₀ (cs)) h' w) ∧
    (∀ i ∈ foundBy e (run e l₀ (cs)) h' w, ∀ p ∈ w, ∃ n rest,
      answer e (run e l₀ (cs)) (readCall h' i [⟨p.1, some (List.replicate n 0), n⟩]) =
        { rv := .ok, tmpl := some [⟨p.1, some (p.2 ++ rest), p.2.length⟩] }) := by
  have hhits := foundBy_hits hke hh hr h₀ hd _ hb hn h' w hw hf (findInit_good hf)
  obtain ⟨hi, _, hx'⟩ := reach_inv hh hr h₀ hd _ hb hn
  obtain ⟨s', hses', hbad', hcnt', hlog'⟩ := user_of_state hi hu'
  unfold HandleInv at hx'
  rw [if_pos hcnt'] at hx'
  -- reading an addressed object
  have hans : ∀ i o, Addressed (run e l₀ cs) h' i o → ∀ u,
      answer e (run e l₀ cs) (readCall h' i u) =
        { rv := (getAttributeValue e.key o u).1, tmpl := some (getAttributeValue e.key o u).2 } := by
    intro i o hao u
    have hfind := addressed_find hx' hn hses' hao
    unfold readCall answer
    rw [step_resp hbad']
    simp only [callBody, hses', if_neg (show ¬ (run e l₀ cs).count ≤ 0 by omega), sessCall, cGetAttr, hfind]
  -- the key itself
  have hmem : k ∈ hits e (run e l₀ cs) h' w := by
    have hin := ((h₀.inOrder hd).run_from hx hse hh hr h₀ hd _ [] hb hn hclock hgood ho).1
    rw [List.nil_append] at hin
    have hopen := (InOrder.user hcnt' hlog').mp hin
    obtain ⟨p0, hp0⟩ := List.exists_mem_of_ne_nil w hw0
    have h0 := hread p0 hp0
    -- some object answers to the handle
    have hlook : ∃ o', findObj (run e l₀ cs) s' k = some o' := by
      unfold readCall answer at h0
      rw [step_resp hbad'] at h0
      simp only [callBody, hses', if_neg (show ¬ (run e l₀ cs).count ≤ 0 by omega), sessCall, cGetAttr] at h0
      cases hf : findObj (run e l₀ cs) s' k with
      | some o => exact ⟨o, rfl⟩
      | none => rw [hf] at h0; exact absurd (congrArg Resp.rv h0) RV.noConfusion
    obtain ⟨o', hfo⟩ := hlook
    obtain ⟨q1, q2, _⟩ := findObj_parts hfo
    have hao : Addressed (run e l₀ cs) h' k o' := ⟨List.mem_append_right _ (q2 hk), q1⟩
    unfold hits
    refine List.mem_map.mpr ⟨o', List.mem_filter.mpr ⟨hao.1, ?_⟩, q1⟩
    simp only [decide_eq_true_eq]
    refine ⟨⟨(hopen o' (q2 hk)).2.1, fun hpub => by rw [hlog'] at hpub; cases hpub⟩, fun p hp => ?_⟩
    have := hread p hp
    rw [hans k o' hao] at this
    exact ⟨p.2.length, _, Prod.ext (congrArg Resp.rv this) (Option.some.inj (congrArg Resp.tmpl this))⟩
  rw [hhits]
  constructor
  · intro hlt
    rw [List.length_take] at hlt
    rw [List.take_of_length_le (by omega)]
    exact hmem
  · intro i hmi p hp
    have hmi := List.mem_of_mem_take hmi
    unfold hits at hmi
    obtain ⟨o, hof, rfl⟩ := List.mem_map.mp hmi
    obtain ⟨ho1, ho2⟩ := List.mem_filter.mp hof
    simp only [decide_eq_true_eq] at ho2
    obtain ⟨n, rest, hre⟩ := ho2.2 p hp
    exact ⟨n, rest, by rw [hans _ o ⟨ho1, rfl⟩, hre]⟩

/-- **C137**: a key of the token is found by attributes that it was given when it was created.
For an application that obeys the rules of C125, after any history, with any number of restarts:
whenever the user is logged in, in whatever session in which no search is in progress, a search
for some of the attributes given at creation is accepted and returns the handle of the key, if it
returns fewer than ten; and all handles returned are of objects that read as asked for. -/
theorem c137_found (hke : e.key.Lawful) (hx : StoreLaws e.store) (hse : SealLen e) (hh : HashLen e) (hr : RandLen e) {l₀ : Lib}
    (h₀ : Start l₀) (hd : NoToken l₀)
    (cs cs' : List Call) (h h' k : Nat) (t : List Entry) (w : Wanted) (hb : BoolToken (cs ++ createCall h t :: cs'))
    (hn : 2 * (cs ++ createCall h t :: cs').length < 2 ^ 28)
    (hclock : ClockWithin (2 ^ 62) ((cs ++ createCall h t :: cs').map .call)) (ho : Ordered e l₀ (cs ++ createCall h t :: cs'))
    (hok : answer e (run e l₀ cs) (createCall h t) = { rv := .ok, handle := some k }) (hk : handleOnToken k = true)
    (hw : GivenIn t w) (hw0 : w ≠ []) (hu : UserIn e (run e l₀ (cs ++ [createCall h t])) h)
    (hs : NotDestroyed k cs') (hgood : (run e l₀ (cs ++ createCall h t :: cs')).bad = false)
    (hu' : UserIn e (run e l₀ (cs ++ createCall h t :: cs')) h')
    (hq : searchOn true e h' l₀ (cs ++ createCall h t :: cs') false = false) :
    (answer e (run e l₀ (cs ++ createCall h t :: cs')) (.sess h' (.findInit (some w.tmpl)))).rv = .ok ∧
    ((foundBy e (run e l₀ (cs ++ createCall h t :: cs')) h' w).length < 10 →
      k ∈ foundBy e (run e l₀ (cs ++ createCall h t :: cs')) h' w) ∧
    (∀ i ∈ foundBy e (run e l₀ (cs ++ createCall h t :: cs')) h' w, ∀ p ∈ w, ∃ n rest,
      answer e (run e l₀ (cs ++ createCall h t :: cs')) (readCall h' i [⟨p.1, some (List.replicate n 0), n⟩]) =
        { rv := .ok, tmpl := some [⟨p.1, some (p.2 ++ rest), p.2.length⟩] }) := by
  have hread := fun p hp => c136_restart hx hse hh hr h₀ hd cs cs' h h' k t p.1 p.2 p.2 hb hn hclock ho hok hk (hw p hp).1 (hw p hp).2.1 hu hs
    hgood hu' (List.replicate p.2.length 0) p.2.length (hw p hp).2.2.1 (Nat.le_refl _)
  have hopen : IsOpen e (run e l₀ (cs ++ createCall h t :: cs')) h' := by
    obtain ⟨s, q1, q2, _⟩ := user_of_state (h₀.sinv.run e _) hu'
    exact (isOpen_iff (h₀.sinv.run e _)).mpr ⟨q2, s, q1⟩
  have hf := search_accepted hh hr h₀ hd _ hb hn h' w (fun p hp => (hw p hp).2.1) hgood hopen hq
  exact ⟨hf, found_core hke hx hse hh hr h₀ hd _ h' k w hb hn hclock ho hk (fun p hp => (hw p hp).2.2.2) hw0 hgood hu' hf hread⟩

/-- **C137** for keys that `C_GenerateKey` made. -/
theorem c137_generated (hke : e.key.Lawful) (hx : StoreLaws e.store) (hse : SealLen e) (hh : HashLen e) (hr : RandLen e) {l₀ : Lib}
    (h₀ : Start l₀) (hd : NoToken l₀)
    (cs cs' : List Call) (h h' k : Nat) (m : Mech) (p : MechParam) (t : List Entry) (w : Wanted)
    (hb : BoolToken (cs ++ genKeyCall h m p t :: cs'))
    (hn : 2 * (cs ++ genKeyCall h m p t :: cs').length < 2 ^ 28)
    (hclock : ClockWithin (2 ^ 62) ((cs ++ genKeyCall h m p t :: cs').map .call)) (ho : Ordered e l₀ (cs ++ genKeyCall h m p t :: cs'))
    (hok : answer e (run e l₀ cs) (genKeyCall h m p t) = { rv := .ok, handle := some k }) (hk : handleOnToken k = true)
    (hw : GivenIn t w) (hw0 : w ≠ []) (hu : UserIn e (run e l₀ (cs ++ [genKeyCall h m p t])) h)
    (hs : NotDestroyed k cs') (hgood : (run e l₀ (cs ++ genKeyCall h m p t :: cs')).bad = false)
    (hu' : UserIn e (run e l₀ (cs ++ genKeyCall h m p t :: cs')) h')
    (hq : searchOn true e h' l₀ (cs ++ genKeyCall h m p t :: cs') false = false) :
    (answer e (run e l₀ (cs ++ genKeyCall h m p t :: cs')) (.sess h' (.findInit (some w.tmpl)))).rv = .ok ∧
    ((foundBy e (run e l₀ (cs ++ genKeyCall h m p t :: cs')) h' w).length < 10 →
      k ∈ foundBy e (run e l₀ (cs ++ genKeyCall h m p t :: cs')) h' w) ∧
    (∀ i ∈ foundBy e (run e l₀ (cs ++ genKeyCall h m p t :: cs')) h' w, ∀ q ∈ w, ∃ n rest,
      answer e (run e l₀ (cs ++ genKeyCall h m p t :: cs')) (readCall h' i [⟨q.1, some (List.replicate n 0), n⟩]) =
        { rv := .ok, tmpl := some [⟨q.1, some (q.2 ++ rest), q.2.length⟩] }) := by
  have hread := fun q hq => c136_generated hx hse hh hr h₀ hd cs cs' h h' k m p t q.1 q.2 q.2 hb hn hclock ho hok hk (hw q hq).1 (hw q hq).2.1 hu hs
    hgood hu' (List.replicate q.2.length 0) q.2.length (hw q hq).2.2.1 (Nat.le_refl _)
  have hopen : IsOpen e (run e l₀ (cs ++ genKeyCall h m p t :: cs')) h' := by
    obtain ⟨s, q1, q2, _⟩ := user_of_state (h₀.sinv.run e _) hu'
    exact (isOpen_iff (h₀.sinv.run e _)).mpr ⟨q2, s, q1⟩
  have hf := search_accepted hh hr h₀ hd _ hb hn h' w (fun p hp => (hw p hp).2.1) hgood hopen hq
  exact ⟨hf, found_core hke hx hse hh hr h₀ hd _ h' k w hb hn hclock ho hk (fun p hp => (hw p hp).2.2.2) hw0 hgood hu' hf hread⟩

namespace Demo

/-- The label of the key of C136. -/
def byLabel : Wanted := [(.label, [1, 2])]

set_option maxRecDepth 100000 in
/-- The hypotheses of `c137_found` are met by the key of C136 with its label, through two restarts;
another key that was made on the way is not found. -/
example : GivenIn (aesTmpl true 1 ++ [.of .label [1, 2]]) byLabel ∧
    searchOn true env 65538 fresh (tagged ++ longerWay) false = false ∧
    foundBy env (run env fresh (tagged ++ longerWay)) 65538 byLabel = [tok1] ∧
    foundBy env (run env fresh (tagged ++ longerWay ++ [createCall 65538 (openTmpl true 5)])) 65538 byLabel = [tok1] ∧
    (foundBy env (run env fresh (tagged ++ longerWay ++ [createCall 65538 (openTmpl true 5)])) 65538 onTheToken) = [tok1 + 1, tok1] := by
  refine ⟨?_, by decide +kernel, by decide +kernel, by decide +kernel, by decide +kernel⟩
  intro p hp
  rcases List.mem_cons.mp hp with rfl | hp
  · exact ⟨⟨aesTmpl true 1, [], rfl, by decide⟩, rfl, by decide, by decide⟩
  · cases hp

/-- A generated key with a label. -/
def genTmpl : List Entry := [.of .token [1], .of .valueLen (ulong 16), .of .label [3], .of .encrypt [1]]

/-- Its label and that it may encrypt. -/
def byBoth : Wanted := [(.label, [3]), (.encrypt, [1])]

/-- It is generated, and then come the restarts of C125. -/
def genWay : List Call := setup ++ genKeyCall 65538 .aesKeyGen (.null 0) genTmpl :: longerWay

set_option maxRecDepth 100000 in
/-- The hypotheses of `c137_generated` are met. -/
example : Ordered env fresh genWay ∧ BoolToken genWay ∧ ClockWithin (2 ^ 62) (genWay.map .call) ∧
    answer env (run env fresh setup) (genKeyCall 65538 .aesKeyGen (.null 0) genTmpl) = { rv := .ok, handle := some tok1 } ∧
    UserIn env (run env fresh (setup ++ [genKeyCall 65538 .aesKeyGen (.null 0) genTmpl])) 65538 ∧ GivenIn genTmpl byBoth ∧
    (run env fresh genWay).bad = false ∧ UserIn env (run env fresh genWay) 65538 ∧ searchOn true env 65538 fresh genWay false = false ∧
    foundBy env (run env fresh genWay) 65538 byBoth = [tok1] := by
  refine ⟨ordered_of (by decide +kernel), by unfold BoolToken; decide +kernel, clockWithin_of (by decide), by decide +kernel,
    by unfold UserIn; decide +kernel, ?_, by decide +kernel, by unfold UserIn; decide +kernel, by decide +kernel, by decide +kernel⟩
  intro p hp
  simp only [byBoth, List.mem_cons, List.not_mem_nil, or_false] at hp
  rcases hp with rfl | rfl
  · exact ⟨⟨[_, _], [_], rfl, by decide⟩, rfl, by decide, by decide⟩
  · exact ⟨⟨[_, _, _], [], rfl, by decide⟩, rfl, by decide, by decide⟩

/-- The labelled key, and ten more with its label. -/
def sameLabel : List Call := tagged ++ List.replicate 10 (createCall 65538 (aesTmpl true 1 ++ [.of .label [1, 2]]))

set_option maxRecDepth 100000 in
/-- The condition on the number is needed: of eleven keys with one label the first is not found
(the limit of C22 and C128). -/
theorem _root_.Verif.c137_ten : rvs env fresh sameLabel = List.replicate 18 .ok ∧
    (foundBy env (run env fresh sameLabel) 65538 byLabel).length = 10 ∧
    tok1 ∉ foundBy env (run env fresh sameLabel) 65538 byLabel :=
  ⟨by decide +kernel, by decide +kernel, by decide +kernel⟩

end Demo

end Verif
