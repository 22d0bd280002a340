import Verif.Proofs.Stale
import Verif.Proofs.Isolated
import Verif.Props.Restart

/-!
# The handle of a destroyed object (C119)
-/

namespace Verif

variable {e : Env}

theorem names_mem {l : Lib} {h k : Nat} (hn : Names e l h k) :
    l.bad = false ∧ 0 < l.count ∧ ∃ s, getSession l h = some s ∧ ∃ o : Obj, o.handle = k ∧
      (handleOnToken k = true → o ∈ l.token.objs) ∧ (handleOnToken k = false → o ∈ s.objs) := by
  obtain ⟨h1, h2, o, ho⟩ := names_iff.mp hn
  refine ⟨h1, h2, ?_⟩
  unfold look at ho
  cases hs : getSession l h with
  | none => rw [hs] at ho; cases ho
  | some s =>
    rw [hs] at ho
    obtain ⟨p, hp, _⟩ := Option.map_eq_some_iff.mp (Option.some.inj ho)
    exact ⟨s, rfl, p, findObj_parts hp⟩

theorem mem_names {l : Lib} {h k : Nat} {s : Session} (hb : l.bad = false) (hc : 0 < l.count) (hs : getSession l h = some s)
    {o : Obj} (ho : o.handle = k) (hm : o ∈ if handleOnToken k then l.token.objs else s.objs) : Names e l h k := by
  refine names_iff.mpr ⟨hb, hc, ?_⟩
  unfold look findObj
  rw [hs]
  cases hf : (if handleOnToken k then l.token.objs else s.objs).find? (fun o => o.handle == k) with
  | none =>
    have := List.find?_eq_none.mp hf o hm
    simp [ho] at this
  | some p => exact ⟨p.view, by simp [hf]⟩

theorem not_names_step (hr : RandLen e) {n : Nat} {l : Lib} {c : Call} {h k k' : Nat}
    (hb : ∀ t ∈ c.creates, TokOk (· ≤ 1) t) (hi : HInv n l) (hsi : SInv l) (hp : l.PopA) (hn : n + 2 < 2 ^ 28)
    (hplace : handleOnToken k' = handleOnToken k) (hlt : k < k') (hgone : ¬ Names e l h k) (hstay : Names e l h k') :
    ¬ Names e (step e l c).1 h k := by
  intro hk
  obtain ⟨b1, c1, s, hs, q, hq, q1, q2⟩ := names_mem hstay
  obtain ⟨b2, c2, s', hs', o, ho, o1, o2⟩ := names_mem hk
  obtain ⟨_, hu, hst⟩ := step_good b2
  obtain ⟨hh, hin, hmem⟩ := getSession_handle hs
  obtain ⟨hh', hin', hmem'⟩ := getSession_handle hs'
  have hl : Later l (step e l c).1 := by
    rw [hst] at b2 ⊢
    exact later_callBody hr c c1 hb hi hsi hp hn b2 hu
  rw [hplace] at q1 q2
  cases ht : handleOnToken k with
  | true =>
    rcases hl.tok o (o1 ht) with ⟨p, hp, he⟩ | hx
    · exact hgone (mem_names b1 c1 hs (he.trans ho) (by rw [ht]; exact hp))
    · have := hx q (q1 ht)
      omega
  | false =>
    rcases hl.sess s' hmem' o (o2 ht) with ⟨t, htm, he, p, hp, hpe⟩ | hx
    · have htu : t.use ≠ .no := by
        intro hno
        rw [(hsi.idle t htm hno).1] at hp; cases hp
      have : getSession l h = some t := (getSession_iff hsi).mpr ⟨htm, he.trans hh', htu⟩
      exact hgone (mem_names b1 c1 this (hpe.trans ho) (by rw [ht]; exact hp))
    · have := hx s hmem (hh.trans hh'.symm) q (q2 ht)
      omega

/-- **C119**, while a newer object is there: a handle that names no object goes on naming none
as long as an object with a higher handle in the same place, the token or the session, is
there.  So when an object is destroyed that is not the newest of its place, its handle cannot
come to name another object before the newer ones are gone too.  Missing: the newest object;
the next object made after its destruction has the same handle (`Demo.c119_violated`). -/
theorem c119_partial (hh : HashLen e) (hr : RandLen e) {l₀ : Lib} (h₀ : Start l₀) (hd : NoToken l₀) (cs ds : List Call)
    (h k k' : Nat) (hb : BoolToken (cs ++ ds)) (hn : 2 * (cs ++ ds).length < 2 ^ 28)
    (hplace : handleOnToken k' = handleOnToken k) (hlt : k < k') (hgone : ¬ Names e (run e l₀ cs) h k)
    (hstay : ∀ n, Names e (run e l₀ (cs ++ ds.take n)) h k') :
    ¬ Names e (run e l₀ (cs ++ ds)) h k := by
  induction ds generalizing cs with
  | nil => rw [List.append_nil]; exact hgone
  | cons c ds ih =>
    have hb1 : BoolToken cs := fun d hd => hb d (List.mem_append_left _ hd)
    simp only [List.length_append, List.length_cons] at hn
    obtain ⟨hi, hc, hx⟩ := reach_inv hh hr h₀ hd cs hb1 (by omega)
    have hcat : cs ++ c :: ds = (cs ++ [c]) ++ ds := by simp
    have hs0 : Names e (run e l₀ cs) h k' := by
      have := hstay 0
      rwa [List.take_zero, List.append_nil] at this
    have hpos := (names_mem hs0).2.1
    unfold HandleInv at hx
    rw [if_pos hpos] at hx
    have hrun : run e l₀ (cs ++ [c]) = (step e (run e l₀ cs) c).1 := by rw [run_append]; rfl
    rw [hcat]
    refine ih (cs ++ [c]) (by rw [← hcat]; exact hb) (by simp only [List.length_append, List.length_cons, List.length_nil]; omega) ?_ ?_
    · rw [hrun]
      exact not_names_step hr (fun t ht => tokOk_of_bool (hb c (by simp) t ht)) hx hi hc.pop (by omega) hplace hlt hgone hs0
    · intro n
      have := hstay (n + 1)
      rwa [List.take_succ_cons, show cs ++ c :: List.take n ds = (cs ++ [c]) ++ List.take n ds by simp] at this

/-- **C119**, the call itself: after `C_DestroyObject` has succeeded the handle names nothing,
in the session of the call and, for a token object, in every session. -/
theorem c119_gone (hh : HashLen e) (hr : RandLen e) {l₀ : Lib} (h₀ : Start l₀) (hd : NoToken l₀) (cs : List Call)
    (h k : Nat) (hb : BoolToken cs) (hn : 2 * cs.length < 2 ^ 28)
    (hok : (answer e (run e l₀ cs) (.sess h (.destroy k))).rv = .ok) (h' : Nat) (hp : handleOnToken k = true ∨ h' = h) :
    ¬ Names e (run e l₀ (cs ++ [.sess h (.destroy k)])) h' k := by
  obtain ⟨hi, hc, hx⟩ := reach_inv hh hr h₀ hd cs hb hn
  have hrun : run e l₀ (cs ++ [.sess h (.destroy k)]) = (step e (run e l₀ cs) (.sess h (.destroy k))).1 := by rw [run_append]; rfl
  rw [hrun]
  generalize run e l₀ cs = l at *
  obtain ⟨hbad, hpos, s, hs, hstep⟩ := sess_step hok
  unfold HandleInv at hx
  rw [if_pos hpos] at hx
  rw [hstep]
  intro hk
  obtain ⟨b2, c2, s', hs', o, ho, o1, o2⟩ := names_mem hk
  unfold answer at hok
  rw [hstep] at hok
  obtain ⟨hh1, _, hmem⟩ := getSession_handle hs
  have hone : ∀ {b n : Nat} {v : Bool} {os : List Obj} {p q : Obj}, HOk b n v (os.map Obj.hb) → p ∈ os → q ∈ os →
      p.handle = q.handle → p = q := by
    intro b n v os p q hok' hp hq he
    have hnd := hok'.nodup
    rw [List.map_map] at hnd
    induction os with
    | nil => cases hp
    | cons a os ih =>
      obtain ⟨n1, n2⟩ := List.nodup_cons.mp hnd
      have hno : ∀ x ∈ os, x.handle ≠ a.handle := fun x hx hxa => n1 (List.mem_map.mpr ⟨x, hx, hxa⟩)
      have hsub : HOk b n v (os.map Obj.hb) := hok'.sub ((List.sublist_cons_self a os).map _)
      rcases List.mem_cons.mp hp with hpa | hp <;> rcases List.mem_cons.mp hq with hqa | hq
      · rw [hpa, hqa]
      · exact absurd (by rw [← he, hpa]) (hno q hq)
      · exact absurd (by rw [he, hqa]) (hno p hp)
      · exact ih hsub hp hq n2
  simp only [sessCall, cDestroy] at hok hs' o1 o2 b2
  by_cases hrw : s.use ≠ .rw
  · rw [if_pos hrw] at hok; cases hok
  rw [if_neg hrw] at hok hs' o1 b2
  cases hf : findObj l s k with
  | none => rw [hf] at hok; cases hok
  | some q =>
    rw [hf] at hok hs' o1 b2
    obtain ⟨f1, f2, f3⟩ := findObj_parts hf
    cases ht : handleOnToken k with
    | true =>
      simp only [ht, if_true] at hs' o1 b2
      by_cases hot : q.onToken = true
      · rw [if_pos hot] at o1
        obtain ⟨p, hp, hpe⟩ : ∃ p ∈ l.token.objs.filter (fun p => p.uid != q.uid), p.handle = k := by
          have hv := o1 trivial
          unfold removeToken at hv
          have : o.hb ∈ (l.token.objs.filter (fun p => p.uid != q.uid)).map Obj.hb := by
            have hm := List.mem_map_of_mem (f := Obj.hb) hv
            rw [store_hb] at hm
            exact hm
          obtain ⟨p, hp, he⟩ := List.mem_map.mp this
          exact ⟨p, hp, (congrArg (·.1) he).trans ho⟩
        obtain ⟨hp1, hp2⟩ := List.mem_filter.mp hp
        have : p = q := hone hx.tok hp1 (f2 ht) (hpe.trans f1.symm)
        subst this
        simp at hp2
      · rw [if_neg hot] at b2
        cases b2
    | false =>
      have hp : h' = h := hp.resolve_left (by rw [ht]; simp)
      subst hp
      simp only [ht, Bool.false_eq_true, if_false] at hs'
      rw [hh1, getSession_upd_eq (f := fun t => { t with objs := t.objs.filter fun p => p.uid != q.uid }) (fun _ => ⟨rfl, rfl⟩), hs] at hs'
      cases hs'
      obtain ⟨hp1, hp2⟩ := List.mem_filter.mp (o2 ht)
      have : o = q := hone (hx.sess s hmem) hp1 (f3 ht) (ho.trans f1.symm)
      subst this
      simp at hp2

namespace Demo

set_option maxRecDepth 20000 in
/-- C119 is violated for the newest object: a key of the token is destroyed, another session
makes a key, and the handle kept by the first one names the new key and shows its value. -/
theorem c119_violated :
    let cs := setup ++ [openCall true, createCall 65538 (openTmpl true 7), .sess 65538 (.destroy tok1)]
    rvs env fresh cs = List.replicate 10 .ok ∧
    ¬ Names env (run env fresh cs) 65538 tok1 ∧
    (answer env (run env fresh cs) (createCall 65537 (openTmpl true 9))).handle = some tok1 ∧
    shownValue env (run env fresh (cs ++ [createCall 65537 (openTmpl true 9)])) tok1 =
      some [(16, some (List.replicate 16 9))] := by
  unfold Names
  decide

set_option maxRecDepth 20000 in
/-- The hypotheses of `c119_partial` are met: the older of two keys is destroyed, two more are
made, and its handle names nothing at any time. -/
example :
    let cs := setup ++ [createCall 65538 (aesTmpl true 7), createCall 65538 (aesTmpl true 8), .sess 65538 (.destroy tok1)]
    let ds := [createCall 65538 (aesTmpl true 9), createCall 65538 (aesTmpl true 10)]
    rvs env fresh (cs ++ ds) = List.replicate 12 .ok ∧ handleOnToken (tok1 + 1) = handleOnToken tok1 ∧
    ¬ Names env (run env fresh cs) 65538 tok1 ∧
    (∀ n ∈ [0, 1, 2], Names env (run env fresh (cs ++ ds.take n)) 65538 (tok1 + 1)) ∧
    (answer env (run env fresh cs) (createCall 65538 (aesTmpl true 9))).handle = some (tok1 + 2) := by
  unfold Names
  decide

end Demo

end Verif
