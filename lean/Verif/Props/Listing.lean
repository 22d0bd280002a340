import Verif.Props.LedgerRestart
import Verif.Props.Find
import Verif.Proofs.SessClear

/-!
# A search lists the books (C128)
-/

namespace Verif

variable {e : Env}

theorem reads_token {x : KeyExt} (hx : x.Lawful) {o : Obj} (hd : DatesOk o) (b : Bool) (ho : o.onToken = b) :
    Reads x o .token [1] ↔ b = true := by
  have h : matchAttr x o (Entry.of .token [1]) = some b := by
    unfold matchAttr
    have h1 : getAttr x o .token true 1 = { ret := .ok, len := 1, wr := [if b then 1 else 0] } := by
      show getData (cbool o.onToken) true 1 = _
      rw [ho]; cases b <;> rfl
    simp only [Entry.of, List.length_cons, List.length_nil, Nat.zero_add, h1]
    cases b <;> decide
  exact (matchAttr_reads hx hd (by decide) h).symm

/-- The template that asks for the objects of the token. -/
def onTheToken : Wanted := [(.token, [1])]

open Classical in
/-- What it hits when the user is logged in and all keys of the token are there in clear. -/
theorem hits_token (hx : e.key.Lawful) {l : Lib} (hd : AllObj DatesOk (fun _ => True) (fun _ => True) l) {n : Nat} (hv : HInv n l)
    (hu : l.token.login = .user) (hc : ∀ o ∈ l.token.objs, o.encoded = false) (h : Nat) :
    hits e l h onTheToken = l.token.objs.map (·.handle) := by
  unfold hits
  rw [List.filter_append]
  have h1 : (sessObjs l h).filter (fun o => decide (Shown l.token.login o ∧ Matching e.key o onTheToken)) = [] := by
    rw [List.filter_eq_nil_iff]
    intro o ho
    simp only [decide_eq_true_eq]
    intro ⟨_, hm⟩
    unfold sessObjs at ho
    cases hs : getSession l h with
    | none => rw [hs] at ho; cases ho
    | some s =>
      rw [hs] at ho
      have hmem := (getSession_handle hs).2.2
      have hbit : o.onToken = false := (hv.sess s hmem).bit o.hb (List.mem_map_of_mem ho)
      have := (reads_token hx (hd.sess s hmem o ho) false hbit).mp (hm _ List.mem_cons_self)
      cases this
  rw [h1, List.nil_append, show tokenObjs l = l.token.objs from rfl]
  congr 1
  rw [List.filter_eq_self]
  intro o ho
  simp only [decide_eq_true_eq]
  refine ⟨⟨hc o ho, fun h => ?_⟩, fun p hp => ?_⟩
  · rw [hu] at h; cases h
  · rcases List.mem_cons.mp hp with rfl | hp
    · exact (reads_token hx (hd.objs o ho) true (hv.tok.bit o.hb (List.mem_map_of_mem ho))).mpr rfl
    · cases hp

/-- **C128**, for an application that obeys the rules of `Orderly` (C125), after any history, with any
number of restarts: while the user is logged in, a search for the objects of the token hands out the
handles that the application has in its books, the newest first, in whatever portions they are asked
for; no others, and none is left out, as long as there are not more than ten.  Missing: the search
ends after ten objects. -/
theorem c128_partial (hk : e.key.Lawful) (hx : StoreLaws e.store) (hl : SealLen e) (hh : HashLen e) (hr : RandLen e)
    {l₀ : Lib} (h₀ : Start l₀) (hd : NoToken l₀) (cs : List Call) (hb : BoolToken cs) (hn : 2 * cs.length < 2 ^ 28)
    (hv : ClockWithin (2 ^ 62) (cs.map .call)) (ho : Ordered e l₀ cs)
    (ha : ∀ pre id post, cs = pre ++ .slot id .closeAll :: post → ¬ IsOpen e (run e l₀ pre) 65537) (h : Nat)
    (hu : UserIn e (run e l₀ cs) h)
    (hok : (answer e (run e l₀ cs) (.sess h (.findInit (some onTheToken.tmpl)))).rv = .ok)
    (cs' : List Call) (hks : ∀ c ∈ cs', c.KeepsSearch h)
    (hg : (run e (step e (run e l₀ cs) (.sess h (.findInit (some onTheToken.tmpl)))).1 cs').bad = false) (max : Nat) :
    answer e (run e (step e (run e l₀ cs) (.sess h (.findInit (some onTheToken.tmpl)))).1 cs') (.sess h (.findNext true max)) =
      { rv := .ok
        found := ((((ledger e l₀ {} cs).tok.take 10).drop (asked h cs')).take (toCInt max).toNat) } := by
  have hi := h₀.sinv.run e cs
  obtain ⟨s, hses, hbad, hcnt, hlog⟩ := user_of_state hi hu
  have hin := ((h₀.inOrder hd).run_from hx hl hh hr h₀ hd cs [] hb hn hv hbad ho).1
  rw [List.nil_append] at hin
  have hopen := (InOrder.user hcnt hlog).mp hin
  obtain ⟨_, _, hx'⟩ := reach_inv hh hr h₀ hd cs hb hn
  unfold HandleInv at hx'
  rw [if_pos hcnt] at hx'
  have hhit := hits_token hk (dates_run e h₀ cs) hx' hlog (fun o ho => (hopen o ho).2.1) h
  rw [(c22_search hk hh hr h₀ hd cs hb hn h onTheToken (by
    intro p hp
    rcases List.mem_cons.mp hp with rfl | hp
    · decide
    · cases hp) hok cs' hks hg max).1, hhit, (books_restart hx hl hh hr h₀ hd cs hb hn hv ho ha hbad hcnt).tok]

open Classical in
/-- What a search without conditions hits when the user is logged in and nothing is encrypted. -/
theorem hits_all {l : Lib} (hu : l.token.login = .user) (hc : ∀ o ∈ l.token.objs, o.encoded = false) (hs : SessClear l) (h : Nat) :
    hits e l h [] = (sessObjs l h).map (·.handle) ++ l.token.objs.map (·.handle) := by
  unfold hits
  rw [show tokenObjs l = l.token.objs from rfl, ← List.map_append]
  congr 1
  rw [List.filter_eq_self]
  intro o ho
  simp only [decide_eq_true_eq]
  refine ⟨⟨?_, fun h => ?_⟩, fun p hp => by cases hp⟩
  · rcases List.mem_append.mp ho with ho | ho
    · unfold sessObjs at ho
      cases hg : getSession l h with
      | none => rw [hg] at ho; cases ho
      | some s => rw [hg] at ho; exact hs s (getSession_handle hg).2.2 o ho
    · exact hc o ho
  · rw [hu] at h; cases h

/-- **C128**, for a search without conditions: it hands out the handles of the objects of the session, the
newest first, and then those of the token, as they are in the books of the application; no others, none
twice, and none is left out, as long as there are not more than ten.  Missing: the search ends after ten
objects. -/
theorem c128_all_partial (hk : e.key.Lawful) (hx : StoreLaws e.store) (hl : SealLen e) (hh : HashLen e) (hr : RandLen e)
    {l₀ : Lib} (h₀ : Start l₀) (hd : NoToken l₀) (cs : List Call) (hb : BoolToken cs) (hn : 2 * cs.length < 2 ^ 28)
    (hv : ClockWithin (2 ^ 62) (cs.map .call)) (ho : Ordered e l₀ cs)
    (ha : ∀ pre id post, cs = pre ++ .slot id .closeAll :: post → ¬ IsOpen e (run e l₀ pre) 65537) (h : Nat)
    (hu : UserIn e (run e l₀ cs) h)
    (hok : (answer e (run e l₀ cs) (.sess h (.findInit (some [])))).rv = .ok)
    (cs' : List Call) (hks : ∀ c ∈ cs', c.KeepsSearch h)
    (hg : (run e (step e (run e l₀ cs) (.sess h (.findInit (some [])))).1 cs').bad = false) (max : Nat) :
    answer e (run e (step e (run e l₀ cs) (.sess h (.findInit (some [])))).1 cs') (.sess h (.findNext true max)) =
      { rv := .ok
        found := (((((ledger e l₀ {} cs).loc h ++ (ledger e l₀ {} cs).tok).take 10).drop (asked h cs')).take (toCInt max).toNat) } ∧
    ((ledger e l₀ {} cs).loc h ++ (ledger e l₀ {} cs).tok).Nodup := by
  have hi := h₀.sinv.run e cs
  obtain ⟨s, hses, hbad, hcnt, hlog⟩ := user_of_state hi hu
  have hin := ((h₀.inOrder hd).run_from hx hl hh hr h₀ hd cs [] hb hn hv hbad ho).1
  rw [List.nil_append] at hin
  have hopen := (InOrder.user hcnt hlog).mp hin
  have hbook := books_restart hx hl hh hr h₀ hd cs hb hn hv ho ha hbad hcnt
  have hses' : (sessObjs (run e l₀ cs) h).map (·.handle) = (ledger e l₀ {} cs).loc h := by
    unfold sessObjs
    rw [hses]
    obtain ⟨h1, _, h2⟩ := getSession_handle hses
    have := hbook.sess s.book (List.mem_map_of_mem h2)
    simp only [Session.book, h1] at this
    exact this
  have hhit := hits_all (e := e) hlog (fun o ho => (hopen o ho).2.1) (sessClear h₀ cs) h
  rw [hses', hbook.tok] at hhit
  have := c22_search hk hh hr h₀ hd cs hb hn h [] (by intro p hp; cases hp) hok cs' hks hg max
  rw [hhit] at this
  exact this

namespace Demo

/-- The history of C125, through two restarts, and one more key. -/
def listed : List Call := withKey ++ longerWay ++ [createCall 65538 (openTmpl true 5)]

set_option maxRecDepth 100000 in
/-- The hypotheses of `c128_partial` are met: two keys are in the books, and the search hands them out
one by one, while another key is made. -/
example : Ordered env fresh listed ∧ BoolToken listed ∧ ClockWithin (2 ^ 62) (listed.map .call) ∧
    (∀ id, .slot id .closeAll ∉ listed) ∧ UserIn env (run env fresh listed) 65538 ∧
    (answer env (run env fresh listed) (.sess 65538 (.findInit (some onTheToken.tmpl)))).rv = .ok ∧
    (ledger env fresh {} listed).tok = [tok1 + 1, tok1] ∧
    (answers env (run env fresh listed) [.sess 65538 (.findInit (some onTheToken.tmpl)), .sess 65538 (.findNext true 1),
      createCall 65538 (openTmpl true 6), .sess 65538 (.findNext true 5)]).map (·.found) = [[], [tok1 + 1], [], [tok1]] := by
  refine ⟨ordered_of (by decide +kernel), by unfold BoolToken; decide, clockWithin_of (by decide), fun id h => ?_,
    by unfold UserIn; decide +kernel, by decide +kernel, by decide +kernel, by decide +kernel⟩
  simp [listed, withKey, setup, longerWay, longWay, openCall, createCall, loginCall] at h

/-- The same history and two more keys, for the session only. -/
def listedAll : List Call := listed ++ [createCall 65538 (openTmpl false 5), createCall 65538 (openTmpl false 6)]

set_option maxRecDepth 100000 in
/-- The hypotheses of `c128_all_partial` are met: two keys of the session and two of the token are in the
books, and the search hands them out in portions, while one more key is made. -/
example : Ordered env fresh listedAll ∧ BoolToken listedAll ∧ ClockWithin (2 ^ 62) (listedAll.map .call) ∧
    (∀ id, .slot id .closeAll ∉ listedAll) ∧ UserIn env (run env fresh listedAll) 65538 ∧
    (answer env (run env fresh listedAll) (.sess 65538 (.findInit (some [])))).rv = .ok ∧
    (ledger env fresh {} listedAll).tok = [tok1 + 1, tok1] ∧ ((ledger env fresh {} listedAll).loc 65538).length = 2 ∧
    (answers env (run env fresh listedAll) [.sess 65538 (.findInit (some [])), .sess 65538 (.findNext true 3),
      createCall 65538 (openTmpl true 6), .sess 65538 (.findNext true 5)]).map (·.found) =
      [[], (ledger env fresh {} listedAll).loc 65538 ++ [tok1 + 1], [], [tok1]] := by
  refine ⟨ordered_of (by decide +kernel), by unfold BoolToken; decide, clockWithin_of (by decide), fun id h => ?_,
    by unfold UserIn; decide +kernel, by decide +kernel, by decide +kernel, by decide +kernel, by decide +kernel⟩
  simp [listedAll, listed, withKey, setup, longerWay, longWay, openCall, createCall, loginCall] at h

/-- Eleven keys on the token. -/
def eleven : List Call := setup ++ List.replicate 11 (createCall 65538 (openTmpl true 7))

set_option maxRecDepth 100000 in
/-- **C128 is violated**: the application has eleven keys in its books and the search hands out ten; that is
no error to be seen, and asking again gives nothing. -/
theorem c128_violated : (ledger env fresh {} eleven).tok.length = 11 ∧
    (answers env (run env fresh eleven) [.sess 65538 (.findInit (some onTheToken.tmpl)), .sess 65538 (.findNext true 20),
      .sess 65538 (.findNext true 20), .sess 65538 .findFinal]).map (fun r => (r.rv, r.found.length)) =
      [(.ok, 0), (.ok, 10), (.ok, 0), (.ok, 0)] := by
  exact ⟨by decide +kernel, by decide +kernel⟩

end Demo

end Verif
