import Verif.Props.Ledger
import Verif.Props.Orderly

/-!
# The books over the ends and starts of the library (C127)
-/

namespace Verif

variable {e : Env}

theorem reloadAll_handles (u : Nat) (os : List Obj) : (reloadAll u os).map (·.handle) = os.map (·.handle) := by
  induction os generalizing u with
  | nil => rfl
  | cons o os ih => simp only [reloadAll, List.map_cons, ih]; rfl

/-- The books, and while the library is not initialised what the token would hold. -/
structure Kept127r (e : Env) (l : Lib) (g : Ledger) : Prop where
  inits : g.inits = l.count
  on : 0 < l.count → Books l g
  off : ¬ 0 < l.count → (∀ u, (loadToken e.store l.disk u).objs.map (·.handle) = g.tok) ∧ ∀ h, g.loc h = []

theorem Books.inits {l : Lib} {g : Ledger} (h : Books l g) (n : Int) : Books l { g with inits := n } := ⟨h.tok, h.sess, h.rest⟩

theorem note_inits {g : Ledger} {c : Call} {r : Resp} (h1 : c ≠ .cInit) (h2 : c ≠ .cFinal) : (g.note c r).inits = g.inits := by
  have he : ∀ (g : Ledger) (h : Nat) (k : Option Nat), (g.enter h k).inits = g.inits := by
    intro g h k
    unfold Ledger.enter
    split
    · rfl
    · split <;> rfl
  unfold Ledger.note Ledger.strike
  repeat' split
  all_goals first
    | rfl
    | exact absurd rfl h1
    | exact absurd rfl h2
    | (rw [he, he])

/-- One call that obeys the rules. -/
theorem Kept127r.step (hx : StoreLaws e.store) (hr : RandLen e) {n : Nat} {l : Lib} {g : Ledger} (hg : Kept127r e l g) (c : Call)
    (ha : ∀ id, c = .slot id .closeAll → getSession l 65537 = none) (ht : ∀ t ∈ c.creates, TokOk (· ≤ 1) t) (hi : HandleInv n l)
    (hsi : SInv l) (hp : l.PopA) (hn : n + 2 < 2 ^ 28) (hb : (step e l c).1.bad = false)
    (ho : Orderly e l c) (hin : InOrder e l) (hrec : l.token.toRec.Fits)
    (hhd : 0 < l.count → ∀ o ∈ l.token.objs, o.handle < 2 ^ 64) :
    Kept127r e (step e l c).1 (g.note c (answer e l c)) := by
  obtain ⟨_, hu, hst⟩ := step_good hb
  unfold answer
  rw [hst] at hb ⊢
  by_cases hc : l.count ≤ 0
  · obtain ⟨g1, g2⟩ := hg.off (by omega)
    cases c with
    | cInit =>
      rw [note_init]
      by_cases c0 : l.count = 0
      · simp only [callBody, cInitialize, c0, if_true]
        refine ⟨by dsimp only; rw [hg.inits, c0], fun _ => ⟨g1 _, ?_, fun h _ => g2 h⟩, fun h => absurd (show (0 : Int) < 0 + 1 by decide) h⟩
        intro x hx
        dsimp only
        rw [g2]
        rcases List.mem_cons.mp hx with rfl | hx
        · rfl
        rcases List.mem_cons.mp hx with rfl | hx
        · rfl
        · cases hx
      · simp only [callBody, cInitialize, if_neg c0]
        refine ⟨by dsimp only; rw [hg.inits], fun h => absurd h (by dsimp only; omega), fun _ => ⟨g1, g2⟩⟩
    | cFinal =>
      have hnote : g.note .cFinal (callBody e l .cFinal).2 = { g with inits := g.inits - 1 } := by
        show (if g.inits = 1 then _ else _) = _
        rw [if_neg (by rw [hg.inits]; omega)]
      rw [hnote]
      simp only [callBody, cFinalize]
      rw [if_neg (by omega)]
      refine ⟨by dsimp only; rw [hg.inits], fun h => absurd h (by dsimp only; omega), fun _ => ⟨g1, g2⟩⟩
    | slot id c =>
      simp only [callBody, if_pos hc]
      rw [note_refused (by simp)]
      exact hg
    | sess h c =>
      simp only [callBody, if_pos hc]
      rw [note_refused (by simp)]
      exact hg
  · have hpos : 0 < l.count := by omega
    have hbk := hg.on hpos
    unfold HandleInv at hi
    rw [if_pos hpos] at hi
    cases c with
    | cInit =>
      rw [note_init]
      simp only [callBody, cInitialize]
      rw [if_neg (by omega)]
      have hb' := hbk.same (l' := { l with count := l.count + 1 }) (.same rfl rfl)
      refine ⟨by dsimp only; rw [hg.inits], fun _ => hb'.inits _, fun h => absurd (show 0 < l.count + 1 by omega) h⟩
    | cFinal =>
      by_cases c1 : l.count = 1
      · have hnote : g.note .cFinal (callBody e l .cFinal).2 = { g with inits := 0, loc := fun _ => [] } := by
          show (if g.inits = 1 then _ else _) = _
          rw [if_pos (by rw [hg.inits]; exact c1)]
        rw [hnote]
        have hlu : l.token.login ≠ .user := ho c1
        have hw := hin.writable hpos hlu hrec (hhd hpos)
        simp only [callBody, cFinalize]
        rw [if_pos (by omega)]
        refine ⟨by show (0 : Int) = l.count - 1; omega, fun h => absurd (show 0 < l.count - 1 from h) (by omega), fun _ => ⟨fun u => ?_, fun _ => rfl⟩⟩
        have hd : (Lib.store e { l with count := l.count - 1 }).1.disk = l.disk.puts (storeToken e.store l.rng l.token).wr := rfl
        show (loadToken e.store (Lib.store e { l with count := l.count - 1 }).1.disk u).objs.map (·.handle) = g.tok
        rw [hd, loadToken_stored hx hw.record hw.objects]
        exact (reloadAll_handles u _).trans hbk.tok
      · have hnote : g.note .cFinal (callBody e l .cFinal).2 = { g with inits := g.inits - 1 } := by
          show (if g.inits = 1 then _ else _) = _
          rw [if_neg (by rw [hg.inits]; exact c1)]
        rw [hnote]
        simp only [callBody, cFinalize]
        rw [if_neg (by omega)]
        have hb' := hbk.same (l' := { l with count := l.count - 1 }) (.same rfl rfl)
        refine ⟨by dsimp only; rw [hg.inits], fun _ => hb'.inits _, fun h => absurd (show 0 < l.count - 1 by omega) h⟩
    | slot id c =>
      have hni := note_inits (g := g) (c := .slot id c) (r := (callBody e l (.slot id c)).2) (by simp) (by simp)
      simp only [callBody, if_neg hc] at hb hni ⊢
      by_cases hid : id ≠ 1
      · rw [if_pos hid, note_refused (by simp)]
        exact hg
      rw [if_neg hid] at hni ⊢
      have hcnt : (slotCall e l c).1.count = l.count := by
        simp only [slotCall]
        repeat' split
        all_goals first
          | rfl
          | (simp only [openSession]; repeat' split
             all_goals rfl)
          | (simp only [initToken, pinSet, setSoPin]; repeat' split
             all_goals rfl)
      exact ⟨by rw [hni, hcnt]; exact hg.inits, fun _ => books_slot hbk hsi hpos id c (fun h => ha id (by rw [h])),
        fun h => absurd (by rw [hcnt]; exact hpos) h⟩
    | sess h c =>
      have hni := note_inits (g := g) (c := .sess h c) (r := (callBody e l (.sess h c)).2) (by simp) (by simp)
      simp only [callBody, if_neg hc] at hb hu hni ⊢
      cases hs : getSession l h with
      | none => dsimp only; rw [note_refused (by simp)]; exact hg
      | some s =>
        rw [hs] at hb hu hni
        dsimp only at hb hu hni ⊢
        have hcnt : (sessCall e l s c).1.count = l.count := by
          by_cases hcl : c = .close
          · subst hcl
            simp only [sessCall, closeSession]
            split
            · rfl
            · unfold logout; rfl
          · exact (frame_sessCall e l s c hcl).count
        exact ⟨by rw [hni, hcnt]; exact hg.inits, fun _ => books_sess hr hbk hs c ht hi hsi hp hn hb hu,
          fun h => absurd (by rw [hcnt]; exact hpos) h⟩

theorem kept127r_run (hx : StoreLaws e.store) (hl : SealLen e) (hh : HashLen e) (hr : RandLen e) {l₀ : Lib} (h₀ : Start l₀)
    (hd : NoToken l₀) (ds : List Call) : ∀ (cs : List Call) (g : Ledger), BoolToken (cs ++ ds) → 2 * (cs ++ ds).length < 2 ^ 28 →
    ClockWithin (2 ^ 62) ((cs ++ ds).map .call) →
    (∀ pre id post, ds = pre ++ .slot id .closeAll :: post → ¬ IsOpen e (run e l₀ (cs ++ pre)) 65537) →
    InOrder e (run e l₀ cs) → Ordered e (run e l₀ cs) ds → Kept127r e (run e l₀ cs) g → (run e l₀ (cs ++ ds)).bad = false →
    Kept127r e (run e l₀ (cs ++ ds)) (ledger e (run e l₀ cs) g ds) := by
  induction ds with
  | nil => intro cs g _ _ _ _ _ _ hg _; rw [List.append_nil]; exact hg
  | cons c ds ih =>
    intro cs g hb hn hv ha hin ho hg hgood
    have happ : cs ++ c :: ds = (cs ++ [c]) ++ ds := by simp
    rw [happ] at hb hn hgood hv ⊢
    have hb1 : BoolToken cs := fun d hd => hb d (by simp [hd])
    have hv1 : ClockWithin (2 ^ 62) (cs.map .call) := fun a b p n hm => hv a b p n (by
      rw [List.append_assoc, List.map_append]; exact List.mem_append_left _ hm)
    have hlen : 2 * cs.length + 2 < 2 ^ 28 := by simp only [List.length_append, List.length_cons, List.length_nil] at hn; omega
    obtain ⟨hi, hc, hx2⟩ := reach_inv hh hr h₀ hd cs hb1 (by omega)
    obtain ⟨_, _, hrec, hhd⟩ := reach_facts hh hr h₀ hd cs hb1 (by omega) hv1
    have hrun : run e l₀ (cs ++ [c]) = (step e (run e l₀ cs) c).1 := run_snoc l₀ cs c
    have hg1 : (run e l₀ (cs ++ [c])).bad = false := by
      rw [run_append] at hgood
      exact run_good hgood
    have hin1 := hin.step_from hx hl hh hr h₀ hd hb1 (by omega) hv1 hg1 ho.1
    have := ih (cs ++ [c]) (g.note c (answer e (run e l₀ cs) c)) hb hn hv (fun pre id post hds => by
        have := ha (c :: pre) id post (by rw [hds]; rfl)
        rwa [show cs ++ c :: pre = (cs ++ [c]) ++ pre by simp] at this)
      hin1 (by rw [hrun]; exact ho.2) (by
        rw [hrun] at hg1 ⊢
        refine hg.step hx hr c (fun id h => ?_) (fun t ht => tokOk_of_bool (hb c (by simp) t ht)) hx2 hi hc.pop hlen hg1
          ho.1 hin hrec hhd
        have := ha [] id ds (by rw [h]; rfl)
        rw [List.append_nil] at this
        cases hs : getSession (run e l₀ cs) 65537 with
        | none => rfl
        | some s => exact absurd ((isOpen_iff hi).mpr ⟨(step_good hg1).1, s, hs⟩) this) hgood
    rw [hrun] at this
    exact this

/-- The books agree with the library whenever it runs. -/
theorem books_restart (hx : StoreLaws e.store) (hl : SealLen e) (hh : HashLen e) (hr : RandLen e) {l₀ : Lib} (h₀ : Start l₀)
    (hd : NoToken l₀) (cs : List Call) (hb : BoolToken cs) (hn : 2 * cs.length < 2 ^ 28)
    (hv : ClockWithin (2 ^ 62) (cs.map .call)) (ho : Ordered e l₀ cs)
    (ha : ∀ pre id post, cs = pre ++ .slot id .closeAll :: post → ¬ IsOpen e (run e l₀ pre) 65537)
    (hgood : (run e l₀ cs).bad = false) (hpos : 0 < (run e l₀ cs).count) : Books (run e l₀ cs) (ledger e l₀ {} cs) := by
  have hload : ∀ u, (loadToken e.store l₀.disk u).objs = [] := by
    intro u
    unfold loadToken
    rw [hd]
  have hs : Kept127r e l₀ {} :=
    ⟨h₀.count.symm, fun h => absurd h (by rw [h₀.count]; decide), fun _ => ⟨fun u => by rw [hload]; rfl, fun _ => rfl⟩⟩
  have hin : InOrder e l₀ := (InOrder.off (by rw [h₀.count]; decide)).mpr fun u => .inl (hload u)
  exact (kept127r_run hx hl hh hr h₀ hd cs [] {} hb hn hv ha hin ho hs hgood).on hpos

/-- **C127**, over any number of ends and starts of the library, for an application that obeys the
rules of `Orderly` (C125): the same books are right at every time.  The objects of the token are
there again after `C_Finalize` and `C_Initialize`, under the same handles, and no others. -/
theorem c127_restart (hx : StoreLaws e.store) (hl : SealLen e) (hh : HashLen e) (hr : RandLen e) {l₀ : Lib} (h₀ : Start l₀)
    (hd : NoToken l₀) (cs : List Call) (hb : BoolToken cs) (hn : 2 * cs.length < 2 ^ 28)
    (hv : ClockWithin (2 ^ 62) (cs.map .call)) (ho : Ordered e l₀ cs)
    (ha : ∀ pre id post, cs = pre ++ .slot id .closeAll :: post → ¬ IsOpen e (run e l₀ pre) 65537) :
    (ledger e l₀ {} cs).Right e (run e l₀ cs) := by
  intro h k hop
  have hi := h₀.sinv.run e cs
  obtain ⟨hbad, s, hs⟩ := (isOpen_iff hi).mp hop
  have hpos : 0 < (run e l₀ cs).count := by
    have hmem := (getSession_handle hs).2.2
    rcases hi.shape with ⟨_, h0⟩ | ⟨h0, _⟩
    · rw [h0] at hmem; cases hmem
    · exact h0
  exact (books_restart hx hl hh hr h₀ hd cs hb hn hv ho ha hbad hpos).right hi h k hop

namespace Demo

set_option maxRecDepth 100000 in
/-- The hypotheses of `c127_restart` are met by the history of C125, through two restarts; the
ledger has the key that was kept. -/
example : Ordered env fresh (withKey ++ longerWay) ∧ ClockWithin (2 ^ 62) ((withKey ++ longerWay).map .call) ∧
    (∀ id, .slot id .closeAll ∉ withKey ++ longerWay) ∧ IsOpen env (run env fresh (withKey ++ longerWay)) 65538 ∧
    (ledger env fresh {} (withKey ++ longerWay)).tok = [tok1] := by
  refine ⟨ordered_of (by decide +kernel), clockWithin_of (by decide), fun id h => ?_, by unfold IsOpen; decide +kernel, by decide +kernel⟩
  simp [withKey, setup, longerWay, longWay, openCall, createCall, loginCall] at h

end Demo

end Verif
