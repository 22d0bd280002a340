import Verif.Spec.ConcInit
import Verif.Proofs.DemoEnv
import Verif.Proofs.Frame
import Verif.Proofs.Run

/-!
# C116: several threads initialise and finalize the library
-/

namespace Verif

/-- What the state has to do with the library `l` of the calls that have returned: either the library
is `l` and every thread inside `C_Initialize` or `C_Finalize` is covered by a hold, or the only such thread is alone,
or there was undefined behaviour. -/
inductive IRel (e : Env) (l : Lib) (h : Int) (s : Ilc) : Prop
  | held (ps : List Nat) : s.lib = l → l.bad = false → ps.Nodup → (∀ t, s.pc t = .leaving ↔ t ∈ ps) →
      (∀ t, s.pc t = .idle ∨ s.pc t = .entered ∨ s.pc t = .counting ∨ s.pc t = .leaving) →
      l.count = h + ps.length → (s.Quiet ∨ 0 < h) → IRel e l h s
  | alone (t : Nat) : l.bad = false → h ≤ 0 → (∀ u, u ≠ t → s.pc u = .idle) →
      (s.pc t = .entered ∧ s.lib = l ∧ h = l.count ∨
       s.pc t = .fresh ∧ s.lib = l ∧ h = l.count ∧ l.count = 0 ∨
       s.pc t = .loading ∧ s.lib = { l with sessions := addSession (addSession []), token := {} } ∧ h = l.count ∧ l.count = 0 ∨
       s.pc t = .counting ∧ { s.lib with count := s.lib.count + 1 } = (cInitialize e l).1 ∧ h = l.count ∧ s.lib.bad = false ∨
       s.pc t = .leaving ∧ s.lib = l ∧ h = l.count - 1 ∨
       s.pc t = .storing ∧ s.lib = { l with count := l.count - 1 } ∧ h = l.count - 1 ∧ l.count - 1 = 0 ∨
       s.pc t = .freeing ∧ s.lib = (Lib.store e { l with count := l.count - 1 }).1 ∧ h = l.count - 1 ∧ l.count - 1 = 0) →
      IRel e l h s
  | bad : s.lib = l → l.bad = true → IRel e l h s

theorem count_other {e : Env} {l : Lib} {c : Call} (hi : c ≠ .cInit) (hf : c ≠ .cFinal) :
    (Verif.step e l c).1.count = l.count := by
  cases hb : l.bad with
  | true => rw [step_bad hb]
  | false =>
    rw [(step_sessions hb c).2.1]
    cases c with
    | cInit => exact absurd rfl hi
    | cFinal => exact absurd rfl hf
    | slot id c =>
      simp only [callBody]
      split
      · rfl
      split
      · rfl
      cases c with
      | tokenInfo ptr now => dsimp only [slotCall]; split <;> rfl
      | initToken pin label =>
        dsimp only [slotCall, initToken]
        repeat' split
        all_goals rfl
      | openSession rw' serial ptr =>
        dsimp only [slotCall, openSession]
        repeat' split
        all_goals rfl
      | closeAll => rfl
    | sess h c =>
      simp only [callBody]
      split
      · rfl
      split
      · rfl
      · rename_i x _
        by_cases hx : c = .close
        · subst hx
          dsimp only [sessCall, closeSession]
          repeat' split
          all_goals rfl
        · exact (frame_sessCall e l x c hx).count

theorem step_cInit {e : Env} {l : Lib} (hb : l.bad = false) : Verif.step e l .cInit = cInitialize e l :=
  step_eq hb RV.noConfusion

theorem step_cFinal {e : Env} {l : Lib} (hb : l.bad = false) : Verif.step e l .cFinal = cFinalize e l :=
  step_eq hb RV.noConfusion

theorem Ilc.at_self (s : Ilc) (l : Lib) (t : Nat) (p : Ic) : (s.at l t p).pc t = p := if_pos rfl

theorem Ilc.at_other (s : Ilc) (l : Lib) {t u : Nat} (p : Ic) (h : u ≠ t) : (s.at l t p).pc u = s.pc u := if_neg h

/-- One event keeps the relation to the library of the calls that have returned. -/
theorem IRel.step {e : Env} {l : Lib} {h : Int} {s : Ilc} (hr : IRel e l h s) {v : IEv} (ha : s.AloneAt h v) :
    match (s.step e v).2 with
    | none => IRel e l (s.holdAfter h v) (s.step e v).1
    | some (c, r) => r = (Verif.step e l c).2 ∧ IRel e (Verif.step e l c).1 (s.holdAfter h v) (s.step e v).1 := by
  cases hr with
  | bad hl hb =>
    cases v with
    | call c =>
      have hs : Verif.step e s.lib c = (l, { rv := .ub }) := by rw [hl]; exact step_bad hb c
      dsimp only [Ilc.step]
      rw [hs, step_bad hb c]
      exact ⟨rfl, .bad rfl hb⟩
    | init t =>
      dsimp only [Ilc.step]
      split
      · exact .bad hl hb
      · exact .bad hl hb
    | final t =>
      dsimp only [Ilc.step]
      split
      · exact .bad hl hb
      · exact .bad hl hb
    | go t =>
      dsimp only [Ilc.step]
      by_cases hp : s.pc t = .idle
      · rw [if_pos hp]
        exact .bad hl hb
      · rw [if_neg hp, if_pos (by rw [hl]; exact hb)]
        dsimp only
        rw [step_bad hb]
        exact ⟨rfl, .bad hl hb⟩
  | held ps hl hb hn hps hpc hc hq =>
    have quiet_nil : s.Quiet → ps = [] := by
      intro hqq
      cases ps with
      | nil => rfl
      | cons t ps =>
        have := (hps t).2 (by simp)
        rw [hqq t] at this
        cases this
    cases v with
    | call c =>
      obtain ⟨h1, h2, h3⟩ := ha
      dsimp only [Ilc.step, Ilc.holdAfter]
      rw [hl]
      refine ⟨rfl, ?_⟩
      cases hb' : (Verif.step e l c).1.bad with
      | true => exact .bad rfl hb'
      | false => exact .held ps rfl hb' hn hps hpc ((count_other h1 h2).trans hc) hq
    | init t =>
      dsimp only [Ilc.step, Ilc.holdAfter]
      by_cases hp : s.pc t = .idle
      · rw [if_pos hp]
        by_cases hh : h ≤ 0
        · have hqq := ha hh
          have hnil := quiet_nil hqq
          subst hnil
          refine .alone t hb hh (fun u hu => (s.at_other _ _ hu).trans (hqq u)) (.inl ⟨s.at_self _ _ _, hl, ?_⟩)
          simpa using hc.symm
        · refine .held ps hl hb hn ?_ ?_ hc (.inr (by omega))
          · intro u
            by_cases hu : u = t
            · subst hu
              rw [s.at_self]
              have := hps u
              rw [hp] at this
              constructor
              · intro hx; cases hx
              · intro hx; cases this.2 hx
            · rw [s.at_other _ _ hu]; exact hps u
          · intro u
            by_cases hu : u = t
            · subst hu
              rw [s.at_self]
              exact .inr (.inl rfl)
            · rw [s.at_other _ _ hu]; exact hpc u
      · rw [if_neg hp]
        exact .held ps hl hb hn hps hpc hc hq
    | final t =>
      dsimp only [Ilc.step, Ilc.holdAfter]
      by_cases hp : s.pc t = .idle
      · rw [if_pos hp, if_pos hp]
        by_cases hh : h ≤ 1
        · have hqq := ha hh
          have hnil := quiet_nil hqq
          subst hnil
          refine .alone t hb (by omega) (fun u hu => (s.at_other _ _ hu).trans (hqq u)) (.inr (.inr (.inr (.inr (.inl ⟨s.at_self _ _ _, hl, ?_⟩)))))
          simp at hc
          omega
        · have hnt : t ∉ ps := by
            intro hx
            have := (hps t).2 hx
            rw [hp] at this
            cases this
          refine .held (t :: ps) hl hb (List.nodup_cons.2 ⟨hnt, hn⟩) ?_ ?_ ?_ (.inr (by omega))
          · intro u
            by_cases hu : u = t
            · subst hu
              rw [s.at_self]
              simp
            · rw [s.at_other _ _ hu, hps u]
              simp [hu]
          · intro u
            by_cases hu : u = t
            · subst hu
              rw [s.at_self]
              exact .inr (.inr (.inr rfl))
            · rw [s.at_other _ _ hu]; exact hpc u
          · simp only [List.length_cons]
            omega
      · rw [if_neg hp, if_neg hp]
        exact .held ps hl hb hn hps hpc hc hq
    | go t =>
      dsimp only [Ilc.step, Ilc.holdAfter]
      by_cases hp : s.pc t = .idle
      · have hp' : ¬ s.pc t = .counting := by rw [hp]; exact Ic.noConfusion
        rw [if_pos hp, if_neg hp']
        exact .held ps hl hb hn hps hpc hc hq
      · have hlb : ¬ s.lib.bad = true := by rw [hl, hb]; exact Bool.noConfusion
        rw [if_neg hp, if_neg hlb]
        have hh : 0 < h := by
          rcases hq with hqq | hh
          · exact absurd (hqq t) hp
          · exact hh
        rcases hpc t with h0 | h0 | h0 | h0
        · exact absurd h0 hp
        · -- the count is seen not to be 0
          have hc0 : ¬ s.lib.count = 0 := by rw [hl]; omega
          rw [h0]
          simp only [Ic.part, if_neg hc0, Option.map_none]
          refine .held ps hl hb hn ?_ ?_ hc (.inr hh)
          · intro u
            by_cases hu : u = t
            · subst hu
              rw [s.at_self]
              have := hps u
              rw [h0] at this
              constructor
              · intro hx; cases hx
              · intro hx; cases this.2 hx
            · rw [s.at_other _ _ hu]; exact hps u
          · intro u
            by_cases hu : u = t
            · subst hu
              rw [s.at_self]
              exact .inr (.inr (.inl rfl))
            · rw [s.at_other _ _ hu]; exact hpc u
        · -- `C_Initialize` returns
          rw [h0]
          simp only [Ic.part, Option.map_some, if_true]
          have hc0 : ¬ l.count = 0 := by omega
          have hst : Verif.step e l .cInit = ({ l with count := l.count + 1 }, { rv := .ok }) := by
            rw [step_cInit hb]
            simp only [cInitialize, if_neg hc0]
          rw [hst]
          refine ⟨rfl, .held ps (by rw [hl]; rfl) hb hn ?_ ?_ (by simp only; omega) (.inr (by omega))⟩
          · intro u
            by_cases hu : u = t
            · subst hu
              rw [s.at_self]
              have := hps u
              rw [h0] at this
              constructor
              · intro hx; cases hx
              · intro hx; cases this.2 hx
            · rw [s.at_other _ _ hu]; exact hps u
          · intro u
            by_cases hu : u = t
            · subst hu
              rw [s.at_self]
              exact .inl rfl
            · rw [s.at_other _ _ hu]; exact hpc u
        · -- `C_Finalize` returns
          have hm := (hps t).1 h0
          have hlen : 0 < ps.length := List.length_pos_of_mem hm
          have hc0 : ¬ l.count - 1 = 0 := by omega
          have hc1 : ¬ s.lib.count - 1 = 0 := by rw [hl]; exact hc0
          rw [h0]
          simp only [Ic.part, if_neg hc1, Option.map_some]
          have hst : Verif.step e l .cFinal = ({ l with count := l.count - 1 }, { rv := .ok }) := by
            rw [step_cFinal hb]
            simp only [cFinalize, if_neg hc0]
          rw [hst]
          refine ⟨rfl, ?_⟩
          rw [if_neg (by exact Ic.noConfusion)]
          refine .held (ps.erase t) (by rw [hl]; rfl) hb (hn.erase t) ?_ ?_ ?_ (.inr hh)
          · intro u
            by_cases hu : u = t
            · subst hu
              rw [s.at_self]
              constructor
              · intro hx; cases hx
              · intro hx; exact absurd hx (hn.not_mem_erase)
            · rw [s.at_other _ _ hu, hps u, List.mem_erase_of_ne hu]
          · intro u
            by_cases hu : u = t
            · subst hu
              rw [s.at_self]
              exact .inl rfl
            · rw [s.at_other _ _ hu]; exact hpc u
          · rw [List.length_erase_of_mem hm]
            simp only
            omega
  | alone t hb hh hu hcase =>
    have hnq : ¬ s.Quiet := by
      intro hq
      have := hq t
      rcases hcase with h0 | h0 | h0 | h0 | h0 | h0 | h0 <;> rw [h0.1] at this <;> cases this
    cases v with
    | call c => exact absurd (ha.2.2 hh) hnq
    | init u => exact absurd (ha hh) hnq
    | final u => exact absurd (ha (by omega)) hnq
    | go u =>
      dsimp only [Ilc.step, Ilc.holdAfter]
      by_cases hut : u = t
      · subst hut
        have others : ∀ l' p, ∀ w, w ≠ u → (s.at l' u p).pc w = .idle := fun l' p w hw =>
          (s.at_other l' p hw).trans (hu w hw)
        have quiet : ∀ l', (s.at l' u .idle).Quiet := by
          intro l' w
          by_cases hw : w = u
          · subst hw; exact s.at_self ..
          · exact others l' _ w hw
        have back : ∀ l' l'' : Lib, ∀ h' : Int, l'.bad = false → l' = l'' → l''.count = h' → IRel e l'' h' (s.at l' u .idle) := by
          intro l' l'' h' hb' he hc'
          have hq := quiet l'
          refine .held [] he (he ▸ hb') List.nodup_nil ?_ (fun w => .inl (hq w)) (by simpa using hc') (.inl hq)
          intro w
          rw [hq w]
          constructor
          · intro hx; cases hx
          · intro hx; cases hx
        rcases hcase with ⟨h0, h1, h2⟩ | ⟨h0, h1, h2, h3⟩ | ⟨h0, h1, h2, h3⟩ | ⟨h0, h1, h2, h3⟩ | ⟨h0, h1, h2⟩ | ⟨h0, h1, h2, h3⟩ | ⟨h0, h1, h2, h3⟩
        · have hlb : ¬ s.lib.bad = true := by rw [h1, hb]; exact Bool.noConfusion
          rw [if_neg (by rw [h0]; exact Ic.noConfusion), if_neg hlb, h0]
          rw [if_neg (by exact Ic.noConfusion)]
          by_cases hc : s.lib.count = 0
          · simp only [Ic.part, if_pos hc, Option.map_none]
            exact .alone u hb hh (others _ _) (.inr (.inl ⟨s.at_self .., h1, h2, by rw [← h1]; exact hc⟩))
          · simp only [Ic.part, if_neg hc, Option.map_none]
            refine .alone u hb hh (others _ _) (.inr (.inr (.inr (.inl ⟨s.at_self .., ?_, h2, ?_⟩))))
            · have hc' : ¬ l.count = 0 := by rw [← h1]; exact hc
              simp only [cInitialize, if_neg hc']
              exact (congrArg (fun l : Lib => { l with count := l.count + 1 }) h1 :)
            · exact (congrArg Lib.bad h1).trans hb
        · have hlb : ¬ s.lib.bad = true := by rw [h1, hb]; exact Bool.noConfusion
          rw [if_neg (by rw [h0]; exact Ic.noConfusion), if_neg hlb, h0]
          rw [if_neg (by exact Ic.noConfusion)]
          simp only [Ic.part, Option.map_none]
          exact .alone u hb hh (others _ _) (.inr (.inr (.inl ⟨s.at_self .., by rw [h1]; rfl, h2, h3⟩)))
        · have hlb : ¬ s.lib.bad = true := by rw [h1]; simp [hb]
          rw [if_neg (by rw [h0]; exact Ic.noConfusion), if_neg hlb, h0]
          rw [if_neg (by exact Ic.noConfusion)]
          simp only [Ic.part, Option.map_none]
          refine .alone u hb hh (others _ _) (.inr (.inr (.inr (.inl ⟨s.at_self .., ?_, h2, ?_⟩))))
          · rw [h1]
            simp only [cInitialize, if_pos h3]
            rfl
          · rw [h1]; exact hb
        · have hlb : ¬ s.lib.bad = true := by rw [h3]; exact Bool.noConfusion
          rw [if_neg (by rw [h0]; exact Ic.noConfusion), if_neg hlb, h0]
          simp only [Ic.part, Option.map_some, if_true]
          rw [step_cInit hb]
          refine ⟨rfl, back _ _ _ (by exact h3) h1 ?_⟩
          simp only [cInitialize, h2]
          split <;> rfl
        · have hlb : ¬ s.lib.bad = true := by rw [h1, hb]; exact Bool.noConfusion
          rw [if_neg (by rw [h0]; exact Ic.noConfusion), if_neg hlb, h0]
          rw [if_neg (by exact Ic.noConfusion)]
          by_cases hc : s.lib.count - 1 = 0
          · simp only [Ic.part, if_pos hc, Option.map_none]
            refine .alone u hb hh (others _ _) (.inr (.inr (.inr (.inr (.inr (.inl ⟨s.at_self .., ?_, h2, ?_⟩))))))
            · rw [h1]; rfl
            · rw [← h1]; exact hc
          · simp only [Ic.part, if_neg hc, Option.map_some]
            have hc' : ¬ l.count - 1 = 0 := by rw [← h1]; exact hc
            have hst : Verif.step e l .cFinal = ({ l with count := l.count - 1 }, { rv := .ok }) := by
              rw [step_cFinal hb]
              simp only [cFinalize, if_neg hc']
            rw [hst]
            exact ⟨rfl, back _ _ _ ((congrArg Lib.bad h1).trans hb) (by rw [h1]) h2.symm⟩
        · have hlb : ¬ s.lib.bad = true := by rw [h1]; simp [hb]
          rw [if_neg (by rw [h0]; exact Ic.noConfusion), if_neg hlb, h0]
          rw [if_neg (by exact Ic.noConfusion)]
          simp only [Ic.part, Option.map_none]
          exact .alone u hb hh (others _ _) (.inr (.inr (.inr (.inr (.inr (.inr ⟨s.at_self .., by rw [h1]; rfl, h2, h3⟩))))))
        · have hsb : s.lib.bad = false := by rw [h1]; exact hb
          have hlb : ¬ s.lib.bad = true := by rw [hsb]; exact Bool.noConfusion
          rw [if_neg (by rw [h0]; exact Ic.noConfusion), if_neg hlb, h0]
          rw [if_neg (by exact Ic.noConfusion)]
          simp only [Ic.part, Option.map_some]
          have hst : Verif.step e l .cFinal = ({ (Lib.store e { l with count := l.count - 1 }).1 with sessions := [], token := {} }, { rv := .ok }) := by
            rw [step_cFinal hb]
            simp only [cFinalize, if_pos h3]
          rw [hst]
          exact ⟨rfl, back _ _ _ hsb (by rw [h1]) h2.symm⟩
      · have hi := hu u hut
        have hp' : ¬ s.pc u = .counting := by rw [hi]; exact Ic.noConfusion
        rw [if_pos hi, if_neg hp']
        exact .alone t hb hh hu hcase

theorem IRel.run {e : Env} {l : Lib} {h : Int} {s : Ilc} (hr : IRel e l h s) {vs : List IEv} (ha : s.Alone e h vs) :
    ((s.returned e vs).map (·.2)) = replies e l ((s.returned e vs).map (·.1)) ∧
    ∃ h', IRel e (Verif.run e l ((s.returned e vs).map (·.1))) h' (s.run e vs) := by
  induction vs generalizing s l h with
  | nil => exact ⟨rfl, h, hr⟩
  | cons v vs ih =>
    have h1 := hr.step ha.1
    simp only [Ilc.returned, Ilc.run]
    cases hx : (s.step e v).2 with
    | none =>
      rw [hx] at h1
      exact ih h1 ha.2
    | some cr =>
      obtain ⟨c, r⟩ := cr
      rw [hx] at h1
      obtain ⟨i1, i2⟩ := ih h1.2 ha.2
      refine ⟨?_, i2⟩
      show r :: ((Ilc.returned e (s.step e v).1 vs).map (·.2)) = answer e l c :: replies e (Verif.step e l c).1 ((Ilc.returned e (s.step e v).1 vs).map (·.1))
      rw [i1]
      exact congrArg (· :: _) h1.1

/-- C116, proved part: threads that initialise, finalize and use the library, where while nobody holds
it no call overlaps a `C_Initialize` or `C_Finalize`, and the last hold is given up while no thread is inside
one.  Whatever the schedule, every call answers as if the calls had been made one after the other in the order in which they
returned, and once no thread is inside `C_Initialize` or `C_Finalize` the library is the one those calls leave. -/
theorem c116_partial (e : Env) (l : Lib) (vs : List IEv) (ha : ({ lib := l } : Ilc).Alone e l.count vs) :
    let s := ({ lib := l } : Ilc).run e vs
    let cs := ({ lib := l } : Ilc).returned e vs
    cs.map (·.2) = replies e l (cs.map (·.1)) ∧
    (s.Quiet → s.lib = Verif.run e l (cs.map (·.1))) := by
  have h0 : IRel e l l.count { lib := l } := by
    cases hb : l.bad with
    | true => exact .bad rfl hb
    | false => exact .held [] rfl hb List.nodup_nil (fun t => by constructor <;> intro hx <;> cases hx) (fun t => .inl rfl) (by simp) (.inl fun _ => rfl)
  obtain ⟨h1, h', h2⟩ := h0.run ha
  refine ⟨h1, fun hq => ?_⟩
  cases h2 with
  | held _ hl => exact hl
  | bad hl => exact hl
  | alone t _ _ _ hcase =>
    exfalso
    have := hq t
    rcases hcase with h0 | h0 | h0 | h0 | h0 | h0 | h0 <;> rw [h0.1] at this <;> cases this

/-- The thread an event is about. -/
def IEv.thread : IEv → Option Nat
  | .call _ => none
  | .init t | .final t | .go t => some t

theorem Ilc.untouched (e : Env) (s : Ilc) (vs : List IEv) (t : Nat) (h : ∀ v ∈ vs, v.thread ≠ some t) :
    (s.run e vs).pc t = s.pc t := by
  induction vs generalizing s with
  | nil => rfl
  | cons v vs ih =>
    have h1 := h v (by simp)
    refine (ih (s.step e v).1 fun w hw => h w (by simp [hw])).trans ?_
    cases v with
    | call c => rfl
    | init u =>
      have hu : t ≠ u := fun hx => h1 (by rw [hx]; rfl)
      dsimp only [Ilc.step]
      split
      · exact s.at_other _ _ hu
      · rfl
    | final u =>
      have hu : t ≠ u := fun hx => h1 (by rw [hx]; rfl)
      dsimp only [Ilc.step]
      split
      · exact s.at_other _ _ hu
      · rfl
    | go u =>
      have hu : t ≠ u := fun hx => h1 (by rw [hx]; rfl)
      dsimp only [Ilc.step]
      repeat' split
      · rfl
      · exact s.at_other _ _ hu
      · exact s.at_other _ _ hu

namespace Demo

/-- Thread 1 initialises, then threads 2 and 3 initialise and finalize at the same time while
thread 1 opens a session, and thread 1 finalizes last. -/
def overlapping : List IEv :=
  [.init 1, .go 1, .go 1, .go 1, .go 1, .init 2, .init 3, .go 2, .call (openCall true), .go 3, .go 3, .final 3, .go 2,
   .final 2, .go 3, .call (.sess 65538 (.info true)), .go 2, .final 1, .go 1, .go 1, .go 1]

/-- Thread 1 alone is left when it calls `C_Finalize`. -/
theorem overlapping_quiet : (({ lib := fresh } : Ilc).run env (overlapping.take 17)).Quiet := by
  intro t
  by_cases h1 : t = 1
  · subst h1; decide +kernel
  by_cases h2 : t = 2
  · subst h2; decide +kernel
  by_cases h3 : t = 3
  · subst h3; decide +kernel
  refine Ilc.untouched env _ _ t fun v hv => ?_
  have : v.thread ∈ [none, some 1, some 2, some 3] := by
    have : ∀ w ∈ overlapping.take 17, w.thread ∈ [none, some 1, some 2, some 3] := by decide
    exact this v hv
  simp only [List.mem_cons, List.not_mem_nil, or_false] at this
  rcases this with h | h | h | h <;> rw [h] <;> simp <;> omega

/-- The rule is kept. -/
theorem overlapping_alone : ({ lib := fresh } : Ilc).Alone env fresh.count overlapping := by
  refine ⟨fun _ _ => rfl, trivial, trivial, trivial, trivial, ?_, ?_, trivial, ⟨Call.noConfusion, Call.noConfusion, ?_⟩, trivial, trivial, ?_, trivial, ?_, trivial, ⟨Call.noConfusion, Call.noConfusion, ?_⟩, trivial, ?_, trivial, trivial, trivial, trivial⟩
  · exact fun h => absurd h (by decide +kernel)
  · exact fun h => absurd h (by decide +kernel)
  · exact fun h => absurd h (by decide +kernel)
  · exact fun h => absurd h (by decide +kernel)
  · exact fun h => absurd h (by decide +kernel)
  · exact fun h => absurd h (by decide +kernel)
  · exact fun _ => overlapping_quiet

/-- The calls return in this order. -/
example : (({ lib := fresh } : Ilc).returned env overlapping).map (·.1) =
    [.cInit, openCall true, .cInit, .cInit, .cFinal, .sess 65538 (.info true), .cFinal, .cFinal] := rfl

/-- All of them answer `CKR_OK`. -/
example : ((({ lib := fresh } : Ilc).returned env overlapping).map (·.2.rv)) = List.replicate 8 .ok := by
  decide +kernel

/-- Two threads that both make the first `C_Initialize`: thread 1 has its answer and opens a session, then thread 2 sets the library up
once more. -/
def bothFirst : List IEv :=
  [.init 1, .init 2, .go 1, .go 2, .go 1, .go 1, .go 1, .call (openCall true), .go 2, .go 2, .go 2,
   .call (.sess 65538 (.info true))]

/-- C116 does not hold without the rule: both calls of `C_Initialize` answered `CKR_OK`, nobody has closed the
session, but it is gone.  In no order of the calls can that happen: `C_OpenSession` comes after a
`C_Initialize` and the other one only counts. -/
theorem c116_violated :
    (({ lib := fresh } : Ilc).returned env bothFirst).map (·.2.rv) = [.ok, .ok, .ok, .sessionHandleInvalid] ∧
    rvs env fresh [.cInit, openCall true, .cInit, .sess 65538 (.info true)] = [.ok, .ok, .ok, .ok] ∧
    rvs env fresh [.cInit, .cInit, openCall true, .sess 65538 (.info true)] = [.ok, .ok, .ok, .ok] := by
  decide +kernel

/-- The last `C_Finalize` of thread 1 overlaps a `C_Initialize` of thread 2. -/
def lastAndFirst : List IEv :=
  [.init 1, .go 1, .go 1, .go 1, .go 1, .final 1, .go 1, .init 2, .go 2, .go 2, .go 2, .go 2, .call (openCall true), .go 1, .go 1,
   .call (.sess 65538 (.info true)), .call (openCall true)]

/-- C116 does not hold without the rule: thread 1 frees what thread 2 has just set up.  The session of thread 2 is gone although it has
initialised the library and not finalized it. -/
theorem c116_violated_final :
    (({ lib := fresh } : Ilc).returned env lastAndFirst).map (·.2.rv) = [.ok, .ok, .ok, .ok, .sessionHandleInvalid, .ok] ∧
    rvs env fresh [.cInit, .cFinal, .cInit, openCall true, .sess 65538 (.info true)] = [.ok, .ok, .ok, .ok, .ok] ∧
    rvs env fresh [.cInit, .cInit, .cFinal, openCall true, .sess 65538 (.info true)] = [.ok, .ok, .ok, .ok, .ok] := by
  decide +kernel

end Demo

end Verif
