import Verif.Proofs.Find
import Verif.Props.Private
/-!
# Searching

C22: a search returns exactly the matching objects.
-/
namespace Verif

variable {e : Env}

/-- What matters for a search. -/
def Session.fnd (s : Session) : Nat × Use × FindSt := (s.handle, s.use, s.find)

theorem getSession_proj {l l' : Lib} (h : SameAt Session.fnd l l') (k : Nat) :
    (getSession l' k).map Session.fnd = (getSession l k).map Session.fnd := by
  unfold SameAt at h
  unfold getSession
  split
  · rfl
  · generalize l'.sessions = ss' at h
    generalize l.sessions = ss at h
    induction ss generalizing ss' with
    | nil =>
      cases ss' with
      | nil => rfl
      | cons _ _ => simp at h
    | cons s ss ih =>
      cases ss' with
      | nil => simp at h
      | cons s' ss' =>
        obtain ⟨h1, h2⟩ := List.cons.inj h
        have hh : s'.handle = s.handle := congrArg (·.1) h1
        have hu : s'.use = s.use := congrArg (·.2.1) h1
        simp only [List.find?_cons, hh]
        cases s.handle == k with
        | true =>
          simp only [Option.bind_some, hu]
          split
          · rfl
          · simp [h1]
        | false => exact ih ss' h2

theorem find_of_same {l l' : Lib} (h : SameAt Session.fnd l l') {k : Nat} {s : Session} (hs : getSession l k = some s) :
    ∃ s', getSession l' k = some s' ∧ s'.find = s.find := by
  have := getSession_proj h k
  rw [hs] at this
  obtain ⟨s', h1, h2⟩ := Option.map_eq_some_iff.mp this
  exact ⟨s', h1, congrArg (·.2.2) h2⟩

/-- The search of session `h` has found `f`, of which the first `n` (or all) have been
handed out. -/
def Searching (l : Lib) (h : Nat) (f : List Nat) (n : Nat) : Prop :=
  ∃ s, getSession l h = some s ∧ s.find.found = f ∧ s.find.curr = min n f.length ∧ s.find.active = true

theorem searching_upd {l : Lib} {h : Nat} {s : Session} (hs : getSession l h = some s) {f : Session → Session}
    (hf : ∀ t, (f t).handle = t.handle ∧ (f t).use = t.use) : getSession (l.upd h f) h = some (f s) := by
  have hh := (getSession_handle hs).1
  unfold getSession at *
  split at hs
  · cases hs
  · rename_i hd
    rw [if_neg hd]
    obtain ⟨t, h1, h2⟩ := Option.bind_eq_some_iff.mp hs
    unfold Lib.upd
    rw [List.find?_map]
    have : (fun s : Session => s.handle == h) ∘ (fun t => if t.handle = h then f t else t) = fun s : Session => s.handle == h := by
      funext t
      simp only [Function.comp]
      split
      · rw [(hf t).1]
      · rfl
    rw [this, h1]
    split at h2
    · cases h2
    · rename_i hu
      cases h2
      simp only [Option.map_some, Option.bind_some, hh, if_true, (hf _).2, if_neg hu]

/-- A call that does not end the search advances it by what it hands out. -/
theorem searching_step {l : Lib} (hi : SInv l) {h n : Nat} {f : List Nat} (hs : Searching l h f n) {c : Call}
    (hk : c.KeepsSearch h) (hg : (step e l c).1.bad = false) :
    Searching (step e l c).1 h f (n + c.asks h) := by
  obtain ⟨s, hs, hf, hc, ha⟩ := hs
  obtain ⟨hb, hub, heq⟩ := step_good hg
  have hcnt := count_pos_of_open hi hs
  have same : SameAt Session.fnd l (step e l c).1 → c.asks h = 0 → Searching (step e l c).1 h f (n + c.asks h) := by
    intro h1 h2
    obtain ⟨s', h3, h4⟩ := find_of_same h1 hs
    exact ⟨s', h3, by rw [h4]; exact hf, by rw [h4, h2]; exact hc, by rw [h4]; exact ha⟩
  cases c with
  | cInit =>
    refine same ?_ rfl
    rw [heq]
    simp only [callBody, cInitialize]
    rw [if_neg (by omega)]
    exact .of rfl
  | cFinal => exact hk.elim
  | slot id c =>
    refine ?_
    have hask : (Call.slot id c).asks h = 0 := rfl
    cases c with
    | tokenInfo p m =>
      refine same ?_ hask
      rw [heq]; simp only [callBody, slotCall]
      repeat' split
      all_goals exact .of rfl
    | initToken p lab =>
      refine same ?_ hask
      rw [heq]; simp only [callBody, slotCall]
      repeat' split
      all_goals first | exact .of rfl | exact .of (initToken_sessions ..).1
    | closeAll => exact hk.elim
    | openSession rw' serial ptr =>
      have key : getSession (step e l (.slot id (.openSession rw' serial ptr))).1 h = getSession l h := by
        by_cases hcase : id = 1 ∧ serial = true ∧ ptr = true
        · obtain ⟨rfl, rfl, rfl⟩ := hcase
          obtain ⟨_, hh⟩ := openSession_spec (e := e) hi hb hcnt rw'
          unfold openCall at hh
          rcases hh with ⟨_, _, h1⟩ | ⟨_, _, _, h1⟩ | ⟨_, _, k, _, h2, _, h3, _⟩
          · rw [h1]
          · rw [h1]
          · exact h3 h (fun hhk => by rw [← hhk, hs] at h2; cases h2)
        · refine getSession_congr ?_ h
          rw [heq]
          simp only [callBody, slotCall]
          repeat' split
          all_goals first
            | rfl
            | (exfalso; apply hcase; simp_all)
      exact ⟨s, by rw [key]; exact hs, hf, by rw [hask]; exact hc, ha⟩
  | sess k c =>
    by_cases hkh : k = h
    rotate_left
    · have h1 := other_session (e := e) hi k h (fun h2 => hkh h2.symm) c
      refine ⟨s, by rw [h1]; exact hs, hf, ?_, ha⟩
      have : (Call.sess k c).asks h = 0 := by
        unfold Call.asks
        split
        · rename_i h2; cases h2; rw [if_neg hkh]
        · rfl
      rw [this]; exact hc
    · subst hkh
      obtain ⟨k1, k2⟩ := hk rfl
      have hbody : step e l (.sess k c) = sessCall e l s c := by
        rw [heq]; simp only [callBody]
        rw [if_neg (by omega), hs]
      by_cases hn : ∃ p m, c = .findNext p m
      · obtain ⟨p, m, rfl⟩ := hn
        rw [hbody]
        simp only [sessCall, cFindNext]
        cases p with
        | false =>
          exact ⟨s, hs, hf, hc, ha⟩
        | true =>
          simp only [Bool.not_true, Bool.false_eq_true, if_false]
          rw [(getSession_handle hs).1]
          have hu := searching_upd (l := l) hs (f := fun u =>
            { u with find := { u.find with curr := u.find.curr +
              ((s.find.found.drop s.find.curr).take (toCInt m).toNat).length } }) (fun _ => ⟨rfl, rfl⟩)
          refine ⟨_, hu, hf, ?_, ha⟩
          have hask : (Call.sess k (.findNext true m)).asks k = (toCInt m).toNat := by simp [Call.asks]
          rw [hask]
          show s.find.curr + ((s.find.found.drop s.find.curr).take (toCInt m).toNat).length = _
          rw [List.length_take, List.length_drop, hf, hc]
          omega
      · have hask : (Call.sess k c).asks k = 0 := by
          unfold Call.asks
          split
          · rename_i h2; cases h2; exact absurd ⟨_, _, rfl⟩ hn
          · rfl
        refine same ?_ hask
        rw [hbody]
        have no : NoObjs Session.fnd := fun _ _ => rfl
        have nc : NoCrypt Session.fnd := fun _ _ _ => rfl
        cases c with
        | cryptInit a b d => exact same_cryptInit nc ..
        | crypt d => exact same_crypt nc ..
        | wrap a b d f => exact same_wrap nc ..
        | unwrap a b d f g => exact same_unwrap nc no ..
        | findNext p m => exact absurd ⟨p, m, rfl⟩ hn
        | findInit t =>
          simp only [sessCall, cFindInit]
          cases t with
          | none => exact .of rfl
          | some t => simp only [ha, if_true]; exact .of rfl
        | findFinal => exact absurd rfl k2
        | close => exact absurd rfl k1
        | _ => exact same_objs no _ _ (by simp) (by simp) (by simp) (by simp) (by simp) (by simp) (by simp) (by simp)

theorem searching_run {l : Lib} (hi : SInv l) {h n : Nat} {f : List Nat} (hs : Searching l h f n) {cs : List Call}
    (hk : ∀ c ∈ cs, c.KeepsSearch h) (hg : (run e l cs).bad = false) :
    Searching (run e l cs) h f (n + asked h cs) := by
  induction cs generalizing l n with
  | nil => exact hs
  | cons c cs ih =>
    have hg1 : (step e l c).1.bad = false := run_good (cs := cs) hg
    have h1 := searching_step (e := e) hi hs (hk c List.mem_cons_self) hg1
    have := ih (hi.step e c) h1 (fun d hd => hk d (List.mem_cons_of_mem _ hd)) hg
    have ha : asked h (c :: cs) = c.asks h + asked h cs := by simp [asked]
    rw [ha, ← Nat.add_assoc]
    exact this

/-- The value of `CKA_TOKEN` in a search template. -/
theorem tokenByte_false {w : Wanted} (h : tokenByte w.tmpl 1 = .ok 0) : (.token, [0]) ∈ w := by
  unfold tokenByte at h
  split at h
  · cases h
  rename_i en hf
  split at h; · cases h
  split at h; · cases h
  rename_i hl
  unfold findAttr at hf
  have hm : en ∈ w.tmpl := List.mem_reverse.mp (List.mem_of_find?_eq_some hf)
  have ht : en.typ = .token := by simpa using List.find?_some hf
  obtain ⟨⟨a, v⟩, hp, rfl⟩ := List.mem_map.mp hm
  have ht : a = .token := ht
  subst ht
  have hl : v.length = 1 := by simpa [Entry.of] using hl
  obtain ⟨b, rfl⟩ : ∃ b, v = [b] := List.length_eq_one_iff.mp hl
  have h0 : b.toNat = 0 := by
    have := Except.ok.inj h
    simpa [Entry.of, Entry.val] using this
  have : b = 0 := UInt8.toNat.inj (by rw [h0]; rfl)
  rw [← this]; exact hp

theorem not_reads_token {x : KeyExt} (hx : x.Lawful) {o : Obj} (hd : DatesOk o) (ho : o.onToken = true) :
    ¬ Reads x o .token [0] := by
  have h : matchAttr x o (Entry.of .token [0]) = some false := by
    unfold matchAttr
    have h1 : getAttr x o .token true 1 = { ret := .ok, len := 1, wr := [1] } := by
      show getData (cbool o.onToken) true 1 = _
      rw [ho]; rfl
    simp only [Entry.of, List.length_cons, List.length_nil, Nat.zero_add, h1]
    decide
  intro hr
  have := (matchAttr_reads hx hd (by decide) h).mpr hr
  cases this

open Classical in
/-- What `C_FindObjectsInit` collects. -/
theorem findInit_spec (hx : e.key.Lawful) {l : Lib} (hi : SInv l) (hd : AllObj DatesOk (fun _ => True) (fun _ => True) l)
    (ht : ∀ o ∈ l.token.objs, o.onToken = true) {h : Nat} {w : Wanted}
    (hw : ∀ p ∈ w, p.2.length ≠ unavailableInfo)
    (hok : (answer e l (.sess h (.findInit (some w.tmpl)))).rv = .ok) :
    Searching (step e l (.sess h (.findInit (some w.tmpl)))).1 h ((hits e l h w).take 10) 0 ∧
    (step e l (.sess h (.findInit (some w.tmpl)))).1.bad = false := by
  unfold answer at hok
  have hb : l.bad = false := by
    cases hb : l.bad with
    | false => rfl
    | true => rw [step_bad hb] at hok; cases hok
  have hok' := hok
  rw [step_resp hb] at hok'
  have heq := step_eq (c := .sess h (.findInit (some w.tmpl))) hb (by rw [hok']; simp)
  simp only [callBody] at heq hok'
  split at hok'
  · cases hok'
  rename_i hcnt
  rw [if_neg hcnt] at heq
  cases hs : getSession l h with
  | none => rw [hs] at hok'; cases hok'
  | some s =>
    rw [hs] at hok' heq
    simp only [sessCall, cFindInit] at hok' heq
    have hsm := (getSession_handle hs).2.2
    have hh := (getSession_handle hs).1
    have so : sessObjs l h = s.objs := by simp [sessObjs, hs]
    split at hok'
    · cases hok'
    rename_i ha
    rw [if_neg ha] at heq
    split at hok'
    · rename_i rv hrv
      rw [tokenByte_error hrv] at hok'; cases hok'
    rename_i on hon
    rw [hon] at heq
    split at hok'
    · cases hok'
    rename_i hcy
    simp only [if_neg hcy] at heq
    split at hok'
    · cases hok'
    rename_i f hf
    rw [hf] at heq
    have hdall : ∀ o ∈ s.objs ++ (if on ≠ 0 then l.token.objs else []), DatesOk o := by
      intro o ho
      rcases List.mem_append.mp ho with ho | ho
      · exact hd.2 s hsm o ho
      · split at ho
        · exact hd.1 o ho
        · cases ho
    have hsp := findLoop_spec hx hw hdall (acc := []) (Nat.zero_le 10) hf
    have hits_eq : f = (hits e l h w).take 10 := by
      rw [hsp, hits, so, List.nil_append]
      by_cases h0 : on = 0
      · subst h0
        have htok := tokenByte_false hon
        rw [if_neg (by simp), List.append_nil, List.filter_append]
        have : (tokenObjs l).filter (fun o => decide (Shown l.token.login o ∧ Matching e.key o w)) = [] := by
          rw [List.filter_eq_nil_iff]
          intro o ho
          simp only [decide_eq_true_eq]
          exact fun hm => not_reads_token hx (hd.1 o ho) (ht o ho) (hm.2 _ htok)
        rw [this, List.append_nil]
      · rw [if_pos h0]; rfl
    rw [heq]
    refine ⟨?_, hb⟩
    rw [hh]
    have hu := searching_upd (l := l) hs (f := fun u => { u with find := { active := true, found := f } })
      (fun _ => ⟨rfl, rfl⟩)
    exact ⟨_, hu, hits_eq, by simp, rfl⟩

/-- **C22**: a search started with the attributes `w` in session `h` hands out, in
whatever portions and whatever other calls are made meanwhile, the first ten hits one
after the other, and then nothing more.  No handle comes twice. -/
theorem c22_search (hx : e.key.Lawful) (hh : HashLen e) (hr : RandLen e) {l₀ : Lib} (h₀ : Start l₀) (hd : NoToken l₀)
    (cs : List Call) (hb : BoolToken cs) (hn : 2 * cs.length < 2 ^ 28) (h : Nat) (w : Wanted)
    (hw : ∀ p ∈ w, p.2.length < 2 ^ 64 - 1)
    (hok : (answer e (run e l₀ cs) (.sess h (.findInit (some w.tmpl)))).rv = .ok)
    (cs' : List Call) (hk : ∀ c ∈ cs', c.KeepsSearch h)
    (hg : (run e (step e (run e l₀ cs) (.sess h (.findInit (some w.tmpl)))).1 cs').bad = false) (max : Nat) :
    answer e (run e (step e (run e l₀ cs) (.sess h (.findInit (some w.tmpl)))).1 cs') (.sess h (.findNext true max)) =
      { rv := .ok
        found := (((hits e (run e l₀ cs) h w).take 10).drop (asked h cs')).take (toCInt max).toNat } ∧
    (hits e (run e l₀ cs) h w).Nodup := by
  obtain ⟨hi, hc, hx'⟩ := reach_inv hh hr h₀ hd cs hb hn
  have hdates := dates_run e h₀ cs
  have hdist := c18_distinct hh hr h₀ hd cs hb hn
  generalize hl : run e l₀ cs = l at *
  have hopen : 0 < l.count := by
    rcases Int.lt_or_le 0 l.count with h1 | h1
    · exact h1
    · exfalso
      unfold answer at hok
      cases hb : l.bad with
      | true => rw [step_bad hb] at hok; cases hok
      | false => rw [step_resp hb] at hok; simp only [callBody, if_pos h1] at hok; cases hok
  unfold HandleInv at hx'
  rw [if_pos hopen] at hx'
  have htok : ∀ o ∈ l.token.objs, o.onToken = true := fun o ho =>
    hx'.tok.bit o.hb (List.mem_map_of_mem ho)
  obtain ⟨h1, h2⟩ := findInit_spec hx hi hdates htok (fun p hp => by have := hw p hp; unfold unavailableInfo; omega) hok
  obtain ⟨s, h3, h4, h5, _⟩ := searching_run (hi.step e _) h1 hk hg
  have hcnt := count_pos_of_open ((hi.step e _).run e cs') h3
  constructor
  · unfold answer
    rw [step_resp hg]
    simp only [callBody]
    rw [if_neg (by omega), h3]
    simp only [sessCall, cFindNext, Bool.not_true, Bool.false_eq_true, if_false, h4, h5, Nat.zero_add]
    congr 2
    by_cases hle : asked h cs' ≤ ((hits e l h w).take 10).length
    · rw [Nat.min_eq_left hle]
    · rw [Nat.min_eq_right (by omega), List.drop_of_length_le (Nat.le_refl _), List.drop_of_length_le (by omega)]
  · unfold hits
    obtain ⟨d1, d2⟩ := hdist
    obtain ⟨d2, d3⟩ := d2 h
    have hs : ((sessObjs l h ++ tokenObjs l).map (·.handle)).Nodup := by
      rw [List.map_append, List.nodup_append]
      refine ⟨d2, d1, ?_⟩
      intro a ha b hb' hab
      obtain ⟨o, ho, rfl⟩ := List.mem_map.mp ha
      obtain ⟨p, hp, rfl⟩ := List.mem_map.mp hb'
      exact d3 o ho p hp hab
    exact hs.sublist (List.filter_sublist.map _)

/-- **C22**: a session has one search at a time: until it is ended, `C_FindObjectsInit` in
the same session is refused, whatever its template, and changes nothing. -/
theorem c22_one_search {l₀ : Lib} (h₀ : Start l₀) (cs : List Call) (h : Nat) (t : List Entry)
    (hok : (answer e (run e l₀ cs) (.sess h (.findInit (some t)))).rv = .ok)
    (cs' : List Call) (hk : ∀ c ∈ cs', c.KeepsSearch h)
    (hg : (run e (step e (run e l₀ cs) (.sess h (.findInit (some t)))).1 cs').bad = false) (t' : List Entry) :
    let l := run e (step e (run e l₀ cs) (.sess h (.findInit (some t)))).1 cs'
    step e l (.sess h (.findInit (some t'))) = (l, { rv := .operationActive }) := by
  intro l
  have hi : SInv (run e l₀ cs) := h₀.sinv.run e cs
  have hb : (run e l₀ cs).bad = false := by
    cases hb : (run e l₀ cs).bad with
    | false => rfl
    | true => unfold answer at hok; rw [step_bad hb] at hok; cases hok
  have hst : ∃ f n, Searching (step e (run e l₀ cs) (.sess h (.findInit (some t)))).1 h f n := by
    unfold answer at hok
    rw [step_resp hb] at hok
    have heq := step_eq (e := e) hb (c := .sess h (.findInit (some t))) (by rw [hok]; decide)
    rw [heq]
    simp only [callBody] at hok ⊢
    split at hok
    · cases hok
    rename_i hc
    rw [if_neg hc]
    split at hok
    · cases hok
    rename_i s hs
    have hu : ∀ f, Searching ((run e l₀ cs).upd s.handle fun u => { u with find := { active := true, found := f } }) h f 0 := by
      intro f
      rw [(getSession_handle hs).1]
      exact ⟨_, searching_upd hs (f := fun u => { u with find := { active := true, found := f } })
        (fun _ => ⟨rfl, rfl⟩), rfl, by simp, rfl⟩
    revert hok
    simp only [sessCall, cFindInit]
    repeat' split
    all_goals intro hok
    all_goals first
      | exact ⟨_, 0, hu _⟩
      | cases hok
  obtain ⟨f, n, hst⟩ := hst
  obtain ⟨s, hs, _, _, ha⟩ := searching_run (hi.step e _) hst hk hg
  have hcnt : 0 < l.count := count_pos_of_open ((hi.step e _).run e cs') hs
  have hbody : callBody e l (.sess h (.findInit (some t'))) = (l, { rv := .operationActive }) := by
    simp only [callBody]
    rw [if_neg (by omega), hs]
    simp only [sessCall, cFindInit, ha, if_true]
  rw [step_eq (e := e) hg (by rw [hbody]; exact fun h => by cases h), hbody]

namespace Demo

/-- The history of the example: three objects, one of them on the token. -/
def searchHist : List Call := setup ++ [createCall 65538 (aesTmpl true 1), createCall 65538 (aesTmpl false 2),
  createCall 65538 (aesTmpl false 1)]

/-- The search of the example: all AES keys of the token and the session. -/
def searchFor : Wanted := [(.keyType, ulong 0x1F)]

/-- Non-vacuity: a search that is accepted, calls in between that keep it, and a portion
of the result. -/
example :
    (answer env (run env fresh searchHist) (.sess 65538 (.findInit (some searchFor.tmpl)))).rv = .ok ∧
    (run env (step env (run env fresh searchHist) (.sess 65538 (.findInit (some searchFor.tmpl)))).1
      [createCall 65538 (aesTmpl false 3), .sess 65538 (.findInit (some [])), .sess 65538 (.findNext true 1), openCall true]).bad = false ∧
    (answer env (run env (step env (run env fresh searchHist) (.sess 65538 (.findInit (some searchFor.tmpl)))).1
      [createCall 65538 (aesTmpl false 3), .sess 65538 (.findInit (some [])), .sess 65538 (.findNext true 1), openCall true])
      (.sess 65538 (.findNext true 5))).found = [1, 2 ^ 28 + 1] := by decide

end Demo

end Verif
