import Verif.Proofs.Ledger

/-!
# An application can keep the books of its objects (C127)
-/

namespace Verif

variable {e : Env}

theorem note_refused {g : Ledger} {c : Call} {r : Resp} (h : r.rv ≠ .ok) : g.note c r = g := if_pos h

/-- The books, and while the library is not initialised nothing is entered or stored. -/
structure Kept127 (l : Lib) (g : Ledger) : Prop where
  books : Books l g
  off : l.count ≤ 0 → l.count = 0 ∧ NoToken l ∧ g.tok = [] ∧ ∀ h, g.loc h = []

theorem books_slot {l : Lib} {g : Ledger} (hg : Books l g) (hsi : SInv l) (hpos : 0 < l.count) (id : Nat) (c : SlotCall)
    (hc : c = .closeAll → getSession l 65537 = none) :
    Books (slotCall e l c).1 (g.note (.slot id c) (slotCall e l c).2) := by
  cases c with
  | closeAll =>
    obtain ⟨n, h2, h70, hd⟩ : ∃ n, 2 ≤ n ∧ n ≤ 70 ∧ handles l.sessions = down n := by
      rcases hsi.shape with ⟨h1, _⟩ | ⟨_, h2⟩
      · omega
      · exact h2
    obtain ⟨s2, s1, m2, m1, e2, e1, hcl⟩ := closeAll_spec h2 h70 hd
    have h1 : s1.use = .no := by
      cases hu : s1.use with
      | no => rfl
      | _ =>
        have := (getSession_iff hsi).mpr ⟨m1, e1, by rw [hu]; simp⟩
        rw [hc rfl] at this; cases this
    simp only [slotCall, hcl]
    refine ⟨hg.tok, ?_, fun _ _ => rfl⟩
    intro x hx
    rcases List.mem_cons.mp hx with rfl | hx
    · show ((sessFinal s2).objs.map _) = []
      rw [sessFinal_objs fun h => (hsi.idle s2 m2 h).1]; rfl
    rcases List.mem_cons.mp hx with rfl | hx
    · show (s1.objs.map _) = []
      rw [(hsi.idle s1 m1 h1).1]; rfl
    · cases hx
  | tokenInfo p n =>
    have : ∀ r : Resp, g.note (.slot id (.tokenInfo p n)) r = g := fun r => by unfold Ledger.note; split <;> rfl
    rw [this]
    simp only [slotCall]
    split <;> exact hg
  | initToken p lab =>
    simp only [slotCall, initToken]
    split
    · split
      · rw [note_refused (by simp)]; exact hg
      split
      · rw [note_refused (by simp)]; exact hg
      split
      · rw [note_refused (by simp)]; exact hg
      · rename_i pin label _ _ _
        have hs := book_setSoPin (e := e) { l with token := { label := labelOf label, init := true } } pin
        unfold pinSet
        have h0 : Books (setSoPin e { l with token := { label := labelOf label, init := true } } pin).1 { g with tok := [] } :=
          (show Books { l with token := { label := labelOf label, init := true } } { g with tok := [] } from
            ⟨rfl, hg.sess, hg.rest⟩).same hs
        have hok : (setSoPin e { l with token := { label := labelOf label, init := true } } pin).2 = true := by
          unfold setSoPin; rfl
        rw [hok]
        exact h0
    · rw [note_refused (by simp)]; exact hg
  | openSession rw2 serial ptr =>
    have : ∀ r : Resp, g.note (.slot id (.openSession rw2 serial ptr)) r = g := fun r => by unfold Ledger.note; split <;> rfl
    rw [this]
    simp only [slotCall, openSession]
    split; · exact hg
    split; · exact hg
    split; · exact hg
    split
    · refine hg.same ⟨rfl, ?_⟩
      simp only [Lib.upd, List.map_map]
      refine List.map_congr_left fun t _ => ?_
      simp only [Function.comp_apply]
      split <;> rfl
    split; · exact hg
    split
    · rename_i a as hadd
      have ha : a.objs = [] ∧ as = l.sessions ∧ a.handle ∉ handles l.sessions := by
        have hnd := hsi.nodup
        unfold addSession at hadd
        split at hadd
        · rename_i h
          obtain ⟨rfl, rfl⟩ := List.cons.inj hadd
          rw [h]
          exact ⟨rfl, rfl, by simp [handles]⟩
        · rename_i b bs heq
          obtain ⟨rfl, rfl⟩ := List.cons.inj hadd
          refine ⟨rfl, rfl, fun hm => ?_⟩
          rcases hsi.shape with ⟨_, h0⟩ | ⟨_, n, h2, _, hd⟩
          · rw [h0] at heq; cases heq
          · rw [hd] at hm
            have h3 := (mem_down.mp hm).2
            rw [heq] at hd
            have h4 : b.handle = 65536 + n := by
              cases n with
              | zero => omega
              | succ n => exact (List.cons.inj hd).1
            dsimp only at h3
            omega
      obtain ⟨a1, rfl, a3⟩ := ha
      refine ⟨hg.tok, ?_, ?_⟩
      · intro x hx
        rcases List.mem_cons.mp hx with rfl | hx
        · show a.objs.map _ = g.loc a.handle
          rw [a1, hg.rest _ a3]; rfl
        · exact hg.sess x hx
      · intro h hh
        exact hg.rest h fun hm => hh (List.mem_cons_of_mem _ hm)
    · exact hg

theorem note_create {g : Ledger} {h : Nat} {c : SessCall} {r : Resp} (hc : c.creates ≠ []) :
    g.note (.sess h c) r = if r.rv ≠ .ok then g else (g.enter h r.handle).enter h r.priv := by
  unfold Ledger.note
  cases c <;> first
    | rfl
    | exact absurd rfl hc

/-- A call with no template makes nothing. -/
theorem uncreating_handle {l : Lib} {s : Session} {c : SessCall} (hc : c.creates = [])
    (hm : ∃ t p, c = .create t p ∨ (∃ o, c = .copy o t p) ∨ (∃ m, c = .genKey m t p) ∨ (∃ m u, c = .genPair m t u p) ∨
      (∃ m w d, c = .unwrap m w d t p) ∨ ∃ m b, c = .derive m b t p) : (sessCall e l s c).2.rv ≠ .ok := by
  obtain ⟨t, p, rfl | ⟨o, rfl⟩ | ⟨m, rfl⟩ | ⟨m, u, rfl⟩ | ⟨m, w, d, rfl⟩ | ⟨m, b, rfl⟩⟩ := hm
  all_goals cases t with
    | some t => cases hc
    | none =>
      simp only [sessCall, cCreate, cCopy, cGenKey, cGenPair, cUnwrap, cDerive]
      repeat' split
      all_goals simp_all

theorem books_sess (hr : RandLen e) {n : Nat} {l : Lib} {g : Ledger} (hg : Books l g) {h : Nat} {s : Session}
    (hs : getSession l h = some s) (c : SessCall) (ht : ∀ t ∈ c.creates, TokOk (· ≤ 1) t) (hi : HInv n l)
    (hsi : SInv l) (hp : l.PopA) (hn : n + 2 < 2 ^ 28)
    (hb : (sessCall e l s c).1.bad = false) (hu : (sessCall e l s c).2.rv ≠ .ub) :
    Books (sessCall e l s c).1 (g.note (.sess h c) (sessCall e l s c).2) := by
  obtain ⟨hh, _, hmem⟩ := getSession_handle hs
  by_cases hc : c.creates = []
  · by_cases h1 : c = .close
    · subst h1
      have : (sessCall e l s .close).2.rv = .ok := rfl
      unfold Ledger.note
      rw [if_neg (by rw [this]; simp), ← hh]
      exact hg.close hsi s.handle
    by_cases h2 : ∃ k, c = .destroy k
    · obtain ⟨k, rfl⟩ := h2
      exact hg.destroy hs hi hsi hp.uidOk hb
    have h2 : ∀ k, c ≠ .destroy k := fun k hk => h2 ⟨k, hk⟩
    have hsame := hg.same (book_plain (e := e) hsi.nodup hp.uidOk hmem c hc h1 h2)
    have : g.note (.sess h c) (sessCall e l s c).2 = g := by
      unfold Ledger.note
      split
      · rfl
      · rename_i hok
        have hok : (sessCall e l s c).2.rv = .ok := by simpa using hok
        cases c with
        | close => exact absurd rfl h1
        | destroy k => exact absurd rfl (h2 k)
        | create t p => exact absurd hok (uncreating_handle hc ⟨t, p, .inl rfl⟩)
        | copy o t p => exact absurd hok (uncreating_handle hc ⟨t, p, .inr (.inl ⟨o, rfl⟩)⟩)
        | genKey m t p => exact absurd hok (uncreating_handle hc ⟨t, p, .inr (.inr (.inl ⟨m, rfl⟩))⟩)
        | genPair m t u p => exact absurd hok (uncreating_handle hc ⟨t, p, .inr (.inr (.inr (.inl ⟨m, u, rfl⟩)))⟩)
        | unwrap m w d t p =>
          exact absurd hok (uncreating_handle hc ⟨t, p, .inr (.inr (.inr (.inr (.inl ⟨m, w, d, rfl⟩))))⟩)
        | derive m b t p => exact absurd hok (uncreating_handle hc ⟨t, p, .inr (.inr (.inr (.inr (.inr ⟨m, b, rfl⟩))))⟩)
        | _ => rfl
    rw [this]
    exact hsame
  · rw [note_create hc]
    exact hg.create hr hs hc ht hi hsi hp hn hb hu

theorem note_init (e : Env) (g : Ledger) (l : Lib) : g.note .cInit (callBody e l .cInit).2 = { g with inits := g.inits + 1 } := rfl

/-- One call. -/
theorem Kept127.step (hr : RandLen e) {n : Nat} {l : Lib} {g : Ledger} (hg : Kept127 l g) (c : Call) (hf : c ≠ .cFinal)
    (ha : ∀ id, c = .slot id .closeAll → getSession l 65537 = none) (ht : ∀ t ∈ c.creates, TokOk (· ≤ 1) t) (hi : HandleInv n l) (hsi : SInv l)
    (hp : l.PopA) (hn : n + 2 < 2 ^ 28) (hb : (step e l c).1.bad = false) :
    Kept127 (step e l c).1 (g.note c (answer e l c)) := by
  obtain ⟨_, hu, hst⟩ := step_good hb
  unfold answer
  rw [hst] at hb ⊢
  by_cases hc : l.count ≤ 0
  · obtain ⟨c0, d0, g1, g2⟩ := hg.off hc
    cases c with
    | cFinal => exact absurd rfl hf
    | cInit =>
      rw [note_init]
      simp only [callBody, cInitialize, c0, if_true]
      have hl : loadToken e.store l.disk l.uid = {} := by
        unfold loadToken
        rw [d0]
      rw [hl]
      refine ⟨⟨g1.symm, ?_, fun h _ => g2 h⟩, fun h => absurd (show (1 : Int) ≤ 0 from h) (by decide)⟩
      intro x hx
      rw [g2]
      rcases List.mem_cons.mp hx with rfl | hx
      · rfl
      rcases List.mem_cons.mp hx with rfl | hx
      · rfl
      · cases hx
    | slot id c =>
      simp only [callBody, if_pos hc]
      rw [note_refused (by simp)]
      exact hg
    | sess h c =>
      simp only [callBody, if_pos hc]
      rw [note_refused (by simp)]
      exact hg
  · have hpos : 0 < l.count := by omega
    unfold HandleInv at hi
    rw [if_pos hpos] at hi
    cases c with
    | cFinal => exact absurd rfl hf
    | cInit =>
      rw [note_init]
      simp only [callBody, cInitialize]
      rw [if_neg (by omega)]
      have hb' := hg.books.same (l' := { l with count := l.count + 1 }) (.same rfl rfl)
      exact ⟨⟨hb'.tok, hb'.sess, hb'.rest⟩, fun h => absurd h (by dsimp only; omega)⟩
    | slot id c =>
      simp only [callBody, if_neg hc] at hb ⊢
      by_cases hid : id ≠ 1
      · rw [if_pos hid, note_refused (by simp)]
        exact hg
      rw [if_neg hid]
      refine ⟨books_slot hg.books hsi hpos id c (fun h => ha id (by rw [h])), fun h => absurd h ?_⟩
      have : (slotCall e l c).1.count = l.count := by
        simp only [slotCall]
        repeat' split
        all_goals first
          | rfl
          | (simp only [openSession]; repeat' split
             all_goals rfl)
          | (simp only [initToken, pinSet, setSoPin]; repeat' split
             all_goals rfl)
      rw [this]; exact hc
    | sess h c =>
      simp only [callBody, if_neg hc] at hb hu ⊢
      cases hs : getSession l h with
      | none => dsimp only; rw [note_refused (by simp)]; exact hg
      | some s =>
        rw [hs] at hb hu
        dsimp only at hb hu ⊢
        refine ⟨books_sess hr hg.books hs c ht hi hsi hp hn hb hu, fun h => absurd h ?_⟩
        have : (sessCall e l s c).1.count = l.count := by
          by_cases hcl : c = .close
          · subst hcl
            simp only [sessCall, closeSession]
            split
            · rfl
            · unfold logout; rfl
          · exact (frame_sessCall e l s c hcl).count
        rw [this]; exact hc

/-- What the books say is what the library says. -/
theorem Books.right {l : Lib} {g : Ledger} (hg : Books l g) (hsi : SInv l) : g.Right e l := by
  intro h k ho
  obtain ⟨hb, s, hs⟩ := (isOpen_iff hsi).mp ho
  obtain ⟨hh, _, hmem⟩ := getSession_handle hs
  have hc : 0 < l.count := by
    rcases hsi.shape with ⟨_, h0⟩ | ⟨h0, _⟩
    · rw [h0] at hmem; cases hmem
    · exact h0
  have hloc : s.objs.map (·.handle) = g.loc h := by
    have := hg.sess s.book (List.mem_map_of_mem hmem)
    dsimp only [Session.book] at this
    rw [this, hh]
  unfold Ledger.here
  constructor
  · intro hn
    obtain ⟨_, _, s', hs', o, ho, o1, o2⟩ := names_mem hn
    rw [hs] at hs'
    cases hs'
    cases ht : handleOnToken k with
    | true => rw [if_pos rfl, ← hg.tok]; exact List.mem_map.mpr ⟨o, o1 ht, ho⟩
    | false => rw [if_neg (by simp), ← hloc]; exact List.mem_map.mpr ⟨o, o2 ht, ho⟩
  · intro hk
    have : k ∈ (if handleOnToken k then l.token.objs else s.objs).map (·.handle) := by
      split at hk
      · rename_i ht; rw [if_pos ht, hg.tok]; exact hk
      · rename_i ht; rw [if_neg ht, hloc]; exact hk
    obtain ⟨o, hm, ho⟩ := List.mem_map.mp this
    exact mem_names hb hc hs ho hm

theorem kept127_run (hh : HashLen e) (hr : RandLen e) {l₀ : Lib} (h₀ : Start l₀) (hd : NoToken l₀) (cs ds : List Call) (g : Ledger)
    (hb : BoolToken (cs ++ ds)) (hn : 2 * (cs ++ ds).length < 2 ^ 28) (hf : .cFinal ∉ ds)
    (ha : ∀ pre id post, ds = pre ++ .slot id .closeAll :: post → ¬ IsOpen e (run e l₀ (cs ++ pre)) 65537)
    (hg : Kept127 (run e l₀ cs) g) (hgood : (run e l₀ (cs ++ ds)).bad = false) :
    Kept127 (run e l₀ (cs ++ ds)) (ledger e (run e l₀ cs) g ds) := by
  induction ds generalizing cs g with
  | nil => rw [List.append_nil]; exact hg
  | cons c ds ih =>
    have happ : cs ++ c :: ds = (cs ++ [c]) ++ ds := by simp
    rw [happ] at hb hn hgood ⊢
    have hb1 : BoolToken cs := fun d hd => hb d (by simp [hd])
    have hlen : 2 * cs.length + 2 < 2 ^ 28 := by simp only [List.length_append, List.length_cons, List.length_nil] at hn; omega
    obtain ⟨hi, hc, hx⟩ := reach_inv hh hr h₀ hd cs hb1 (by omega)
    have hrun : run e l₀ (cs ++ [c]) = (step e (run e l₀ cs) c).1 := by rw [run_append]; rfl
    have hg1 : (run e l₀ (cs ++ [c])).bad = false := by
      rw [run_append] at hgood
      exact run_good hgood
    refine Eq.mp ?_ (ih (cs ++ [c]) (g.note c (answer e (run e l₀ cs) c)) hb hn
      (fun h => hf (List.mem_cons_of_mem _ h)) ?_ ?_ hgood)
    rotate_left
    · intro pre id post hds
      have := ha (c :: pre) id post (by rw [hds]; rfl)
      rwa [show cs ++ c :: pre = (cs ++ [c]) ++ pre by simp] at this
    · rw [hrun] at hg1 ⊢
      refine hg.step hr c (fun h => hf (by rw [h]; exact List.mem_cons_self)) (fun id h => ?_)
        (fun t ht => tokOk_of_bool (hb c (by simp) t ht)) hx hi hc.pop hlen hg1
      have := ha [] id ds (by rw [h]; rfl)
      rw [List.append_nil] at this
      cases hs : getSession (run e l₀ cs) 65537 with
      | none => rfl
      | some s => exact absurd ((isOpen_iff hi).mpr ⟨(step_good hg1).1, s, hs⟩) this
    · rw [hrun]; rfl

/-- **C127**, for one run of the library in which `C_CloseAllSessions` is not used while the session
with the lowest handle is open: an application
that enters the handles returned by successful calls that make objects, and strikes out those it
destroys, those of the sessions it closes and those of the token when it initialises it, knows at
every time exactly which handles name objects in every open session.  Nothing else that it, or
any other session, does makes an object appear or vanish, and no refused call does.  Missing:
`C_CloseAllSessions` when it leaves a session and its objects (`Demo.c127_violated`), and the
handles after `C_Finalize` (see `c127_restart`). -/
theorem c127_partial (hh : HashLen e) (hr : RandLen e) {l₀ : Lib} (h₀ : Start l₀) (hd : NoToken l₀) (cs : List Call)
    (hb : BoolToken cs) (hn : 2 * cs.length < 2 ^ 28) (hf : .cFinal ∉ cs)
    (ha : ∀ pre id post, cs = pre ++ .slot id .closeAll :: post → ¬ IsOpen e (run e l₀ pre) 65537) :
    (ledger e l₀ {} cs).Right e (run e l₀ cs) := by
  cases hgood : (run e l₀ cs).bad with
  | true =>
    intro h k ho
    have := ((isOpen_iff (h₀.sinv.run e cs)).mp ho).1
    rw [hgood] at this; cases this
  | false =>
    have hs : Kept127 l₀ {} := by
      refine ⟨⟨by rw [h₀.token]; rfl, by rw [h₀.sessions]; simp, fun _ _ => rfl⟩, fun _ => ⟨h₀.count, hd, rfl, fun _ => rfl⟩⟩
    exact (kept127_run hh hr h₀ hd [] cs {} hb hn hf ha hs hgood).books.right (h₀.sinv.run e cs)

namespace Demo

/-- Keys are made in two sessions and on the token, one is copied, one destroyed, one session
closed; searching, reading, logging out and refused calls lie between. -/
def bookCalls : List Call :=
  setup ++ [openCall true, createCall 65538 (openTmpl true 7), createCall 65538 (openTmpl false 8),
    createCall 65537 (openTmpl false 9), .sess 65537 (.copy 1 (some []) true), .sess 65538 (.findInit (some [])),
    createCall 65538 (openTmpl true 10), .sess 65537 (.destroy tok1), .sess 65538 .logout, .sess 65537 (.destroy tok1),
    closeCall 65537]

set_option maxRecDepth 40000 in
/-- The hypotheses of `c127_partial` are met; the ledger has one key on the token and one in the
session that is left. -/
example : rvs env fresh bookCalls = List.replicate 16 .ok ++ [.objectHandleInvalid, .ok] ∧ .cFinal ∉ bookCalls ∧
    (∀ id, .slot id .closeAll ∉ bookCalls) ∧ IsOpen env (run env fresh bookCalls) 65538 ∧
    (ledger env fresh {} bookCalls).tok = [tok1 + 1] ∧ (ledger env fresh {} bookCalls).loc 65538 = [1] ∧
    (ledger env fresh {} bookCalls).loc 65537 = [] := by
  refine ⟨by decide, fun h => ?_, fun id h => ?_, by unfold IsOpen; decide, by decide, by decide, by decide⟩
  all_goals simp [bookCalls, setup, openCall, createCall, closeCall, loginCall] at h

set_option maxRecDepth 40000 in
/-- **C127** does not hold after `C_CloseAllSessions`, which answers `CKR_OK`: the session with
the lowest handle is still open and its object still there. -/
theorem c127_violated :
    let cs := setup ++ [openCall true, createCall 65537 (openTmpl false 7), closeAllCall]
    rvs env fresh cs = List.replicate 10 .ok ∧ IsOpen env (run env fresh cs) 65537 ∧
    Names env (run env fresh cs) 65537 1 ∧ ¬ (ledger env fresh {} cs).Right env (run env fresh cs) := by
  have h : let cs := setup ++ [openCall true, createCall 65537 (openTmpl false 7), closeAllCall]
    rvs env fresh cs = List.replicate 10 .ok ∧ IsOpen env (run env fresh cs) 65537 ∧
    Names env (run env fresh cs) 65537 1 ∧ 1 ∉ (ledger env fresh {} cs).here 65537 1 := by
    unfold IsOpen Names
    exact ⟨by decide, by decide, by decide, by decide⟩
  obtain ⟨h1, h2, h3, h4⟩ := h
  exact ⟨h1, h2, h3, fun hr => h4 ((hr 65537 1 h2).mp h3)⟩

end Demo

end Verif
