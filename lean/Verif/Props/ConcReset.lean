import Verif.Spec.ConcReset
import Verif.Props.ConcPin
import Verif.Props.ConcInit
import Verif.Props.Restart

/-!
# C131: `C_InitToken` called by several threads
-/

namespace Verif

/-- `C_InitToken` of a token. -/
abbrev resetCall (p b : Bytes) : Call := .slot 1 (.initToken (some p) (some b))

/-- Everything the whole `C_InitToken` tests: it will wipe the token. -/
def MayReset (e : Env) (l : Lib) (p : Bytes) : Prop :=
  l.token.init = true → anyInUse l.sessions = false ∧ checkPin e l.token l.token.so p = .ok

/-- What the library `s` and the array `raw` have to do with the library `l` of the calls that have returned, while a thread
stands at a place of `C_InitToken`. -/
def Tk.Fit (e : Env) (l s : Lib) (raw : Bytes) : Tk → Prop
  | .idle => False
  | .entered p _ => s = l ∧ pinLenOk p = true
  | .sees p _ => s = l ∧ pinLenOk p = true ∧ l.token.init = true
  | .check p _ => s = l ∧ pinLenOk p = true ∧ l.token.init = true ∧ anyInUse l.sessions = false
  | .hash p _ => s = l ∧ pinLenOk p = true ∧ l.token.init = true ∧ anyInUse l.sessions = false ∧ l.token.so.pin ≠ []
  | .cmp h p _ => s = l ∧ pinLenOk p = true ∧ l.token.init = true ∧ anyInUse l.sessions = false ∧ l.token.so.pin ≠ [] ∧
      h = e.store.hash p l.token.so.seed
  | .reset p _ => s = l ∧ pinLenOk p = true ∧ MayReset e l p
  | .start p b => s = wipe l b ∧ pinLenOk p = true ∧ MayReset e l p
  | .seeded p b => s = drawSeeds e (wipe l b) .so ∧ pinLenOk p = true ∧ MayReset e l p
  | .hashed h p b => s = drawSeeds e (wipe l b) .so ∧ h = e.store.hash p s.token.so.seed ∧ pinLenOk p = true ∧ MayReset e l p
  | .storing p b => s = drawSeeds e (wipe l b) .so ∧ raw = e.store.hash p s.token.so.seed ∧ pinLenOk p = true ∧ MayReset e l p

/-- What the state has to do with the library `l` of the calls that have returned: no thread is inside `C_InitToken` and it is the
same; or one is, and stands where it fits; or there was undefined behaviour. -/
inductive TRel (e : Env) (l : Lib) (b : Bool) (s : Tkc) : Prop
  | quiet : s.lib = l → s.Quiet → TRel e l b s
  | alone (t : Nat) : l.bad = false → 0 < l.count → b = l.token.init → (∀ u, u ≠ t → s.pc u = .idle) →
      (s.pc t).Fit e l s.lib s.raw → TRel e l b s
  | bad : s.lib = l → l.bad = true → TRel e l b s

theorem dropUnused_free {ss : List Session} (h : anyInUse ss = false) : anyInUse (dropUnused ss) = false := by
  induction ss with
  | nil => rfl
  | cons s ss ih =>
    have h1 : anyInUse ss = false := by simp only [anyInUse, List.any_cons, Bool.or_eq_false_iff] at h ⊢; exact h.2
    unfold dropUnused
    split
    · exact ih h1
    · exact h

theorem closeDown_free (n : Nat) {ss : List Session} (h : anyInUse ss = false) : anyInUse (closeDown n ss) = false := by
  induction n generalizing ss with
  | zero => exact h
  | succ n ih =>
    cases ss with
    | nil => rfl
    | cons s ss =>
      have h1 : anyInUse ss = false := by simp only [anyInUse, List.any_cons, Bool.or_eq_false_iff] at h ⊢; exact h.2
      unfold closeDown
      dsimp only
      split
      · exact ih (dropUnused_free h1)
      · exact h

theorem closeAll_free {ss : List Session} (h : anyInUse ss = false) : anyInUse (closeAll ss) = false := by
  have h1 := closeDown_free ss.length h
  unfold closeAll
  generalize closeDown ss.length ss = r at h1
  cases r with
  | nil => rfl
  | cons s rest =>
    simp only [anyInUse, List.any_cons, Bool.or_eq_false_iff] at h1 ⊢
    exact ⟨rfl, h1.2⟩

theorem getSession_free {l : Lib} (h : anyInUse l.sessions = false) (k : Nat) : getSession l k = none := by
  unfold getSession
  split
  · rfl
  · cases hf : l.sessions.find? fun s => s.handle == k with
    | none => rfl
    | some s =>
      have hm := List.mem_of_find?_eq_some hf
      have hu : s.use = .no := by
        simp only [anyInUse, List.any_eq_false, bne_iff_ne, ne_eq, Decidable.not_not] at h
        exact h s hm
      simp [hu]

/-- The call does not depend on the token and does not change it. -/
structure TokenApart (e : Env) (l : Lib) (c : Call) : Prop where
  same : ∀ T R, Verif.step e { l with token := T, rng := R } c =
    ({ (Verif.step e l c).1 with token := T, rng := R }, (Verif.step e l c).2)
  token : (Verif.step e l c).1.token = l.token
  rng : (Verif.step e l c).1.rng = l.rng
  count : (Verif.step e l c).1.count = l.count
  bad : (Verif.step e l c).1.bad = false
  free : anyInUse l.sessions = false → anyInUse (Verif.step e l c).1.sessions = false

/-- What other threads may do once the way is free does not depend on the token and does not change it. -/
theorem others_apart {e : Env} {l : Lib} {c : Call} (hb : l.bad = false) (hc : ForOthers c)
    (hs : l.token.init = true → anyInUse l.sessions = false) (hn : l.token.init = false → ∀ h sc, c ≠ .sess h sc) :
    TokenApart e l c := by
  have key : ∀ f : Lib → Lib × Resp, (∀ m : Lib, m.count = l.count → m.sessions = l.sessions → m.bad = false → Verif.step e m c = f m) →
      (∀ T R, f { l with token := T, rng := R } = ({ (f l).1 with token := T, rng := R }, (f l).2)) →
      ((f l).1.token = l.token ∧ (f l).1.rng = l.rng ∧ (f l).1.count = l.count ∧
        (f l).1.bad = false ∧ (anyInUse l.sessions = false → anyInUse (f l).1.sessions = false)) →
      TokenApart e l c := by
    intro f h1 h2 h3
    have h0 := h1 l rfl rfl hb
    refine ⟨fun T R => ?_, by rw [h0]; exact h3.1, by rw [h0]; exact h3.2.1, by rw [h0]; exact h3.2.2.1, by rw [h0]; exact h3.2.2.2.1,
      by rw [h0]; exact h3.2.2.2.2⟩
    rw [h0, h1 { l with token := T, rng := R } rfl rfl hb]; exact h2 T R
  cases c with
  | cInit => exact hc.elim
  | cFinal => exact hc.elim
  | slot id sc =>
    cases sc with
    | tokenInfo => exact hc.elim
    | initToken => exact hc.elim
    | openSession => exact hc.elim
    | closeAll =>
      by_cases h0 : l.count ≤ 0
      · exact key (fun m => (m, { rv := .cryptokiNotInitialized })) (fun m h1 h2 h3 => by
          have h0' : m.count ≤ 0 := by rw [h1]; exact h0
          rw [step_eq h3 (by simp [callBody, h0'])]; simp [callBody, h0']) (fun _ _ => rfl) ⟨rfl, rfl, rfl, hb, fun h => h⟩
      by_cases hid : id = 1
      · exact key (fun m => ({ m with sessions := closeAll m.sessions }, { rv := .ok })) (fun m h1 h2 h3 => by
          have h0' : ¬ m.count ≤ 0 := by rw [h1]; exact h0
          rw [step_eq h3 (by simp [callBody, h0', hid, slotCall])]; simp [callBody, h0', hid, slotCall]) (fun _ _ => rfl)
          ⟨rfl, rfl, rfl, hb, closeAll_free⟩
      · exact key (fun m => (m, { rv := .slotIdInvalid })) (fun m h1 h2 h3 => by
          have h0' : ¬ m.count ≤ 0 := by rw [h1]; exact h0
          rw [step_eq h3 (by simp [callBody, h0', hid])]; simp [callBody, h0', hid]) (fun _ _ => rfl) ⟨rfl, rfl, rfl, hb, fun h => h⟩
  | sess h sc =>
    cases hi : l.token.init with
    | false => exact absurd rfl (hn hi h sc)
    | true =>
      have hf := hs hi
      by_cases h0 : l.count ≤ 0
      · exact key (fun m => (m, { rv := .cryptokiNotInitialized })) (fun m h1 h2 h3 => by
          have h0' : m.count ≤ 0 := by rw [h1]; exact h0
          rw [step_eq h3 (by simp [callBody, h0'])]; simp [callBody, h0']) (fun _ _ => rfl) ⟨rfl, rfl, rfl, hb, fun h => h⟩
      · exact key (fun m => (m, { rv := .sessionHandleInvalid })) (fun m h1 h2 h3 => by
          have h0' : ¬ m.count ≤ 0 := by rw [h1]; exact h0
          have hg : getSession m h = none := getSession_free (by rw [h2]; exact hf) h
          rw [step_eq h3 (by simp [callBody, h0', hg])]; simp [callBody, h0', hg]) (fun _ _ => rfl) ⟨rfl, rfl, rfl, hb, fun h => h⟩

/-- The calls other threads may make keep the token initialised or not. -/
theorem others_init {e : Env} {l : Lib} {c : Call} (hb : l.bad = false) (hc : ForOthers c) :
    (Verif.step e l c).1.token.init = l.token.init ∧ (Verif.step e l c).1.count = l.count := by
  refine ⟨?_, count_other (fun h => by subst h; exact hc) (fun h => by subst h; exact hc)⟩
  rw [(step_sessions hb c).2.2.1]
  by_cases hk : KeepsPins c
  · exact (keptPins_callBody hk).init
  cases c with
  | cInit => exact hc.elim
  | cFinal => exact hc.elim
  | slot id sc => cases sc <;> first | exact hc.elim | exact absurd trivial hk
  | sess h sc =>
    simp only [callBody]
    split
    · rfl
    split
    · rfl
    rename_i s _
    cases sc with
    | initPin p =>
      rcases initPin_spec e l s p with ⟨h1, _⟩ | ⟨p, _, _, _, h1⟩
      · exact (congrArg (fun l : Lib => l.token.init) h1 :)
      · exact (congrArg (fun r : Lib × Resp => r.1.token.init) h1 :)
    | setPin o n =>
      rcases setPin_spec e l s o n with ⟨h1, _⟩ | ⟨_, _, _, _, _, _, ⟨_, _, h1⟩ | ⟨_, _, h1⟩⟩
      · exact (congrArg (fun l : Lib => l.token.init) h1 :)
      · exact (congrArg (fun r : Lib × Resp => r.1.token.init) h1 :)
      · exact (congrArg (fun r : Lib × Resp => r.1.token.init) h1 :)
    | _ => exact absurd trivial hk

theorem Tkc.at_self (s : Tkc) (l : Lib) (r : Bytes) (t : Nat) (p : Tk) : (s.at l r t p).pc t = p := if_pos rfl

theorem Tkc.at_other (s : Tkc) (l : Lib) (r : Bytes) {t u : Nat} (p : Tk) (h : u ≠ t) : (s.at l r t p).pc u = s.pc u := if_neg h

/-- The whole `C_InitToken`, when the library is initialised and the length of the PIN allowed. -/
theorem reset_whole {e : Env} {l : Lib} {p b : Bytes} (hb : l.bad = false) (hc : 0 < l.count) (hp : pinLenOk p = true) :
    Verif.step e l (resetCall p b) =
      if l.token.init = true ∧ anyInUse l.sessions = true then (l, { rv := .sessionExists })
      else if l.token.init = true ∧ checkPin e l.token l.token.so p ≠ .ok then (l, { rv := .pinIncorrect })
      else pinSet (setSoPin e (wipe l b) p) := by
  have hc' : ¬ l.count ≤ 0 := by omega
  have h1 : callBody e l (resetCall p b) = initToken e l (some p) (some b) := by
    simp [callBody, hc', slotCall]
  have h2 : initToken e l (some p) (some b) = if l.token.init = true ∧ anyInUse l.sessions = true then (l, { rv := .sessionExists })
      else if l.token.init = true ∧ checkPin e l.token l.token.so p ≠ .ok then (l, { rv := .pinIncorrect })
      else pinSet (setSoPin e (wipe l b) p) := by
    simp only [initToken, hp, Bool.not_true, Bool.false_eq_true, if_false, Bool.and_eq_true, bne_iff_ne]
    rfl
  rw [step_eq hb, h1, h2]
  rw [h1, h2]
  split
  · exact RV.noConfusion
  split
  · exact RV.noConfusion
  · rcases pinSet_rv (setSoPin e (wipe l b) p) with h | h <;> rw [h] <;> exact RV.noConfusion

/-- The last part leaves what the whole call leaves. -/
theorem commit_whole (e : Env) (l : Lib) (p b : Bytes) :
    let s := drawSeeds e (wipe l b) .so
    ((commitPin e s .so (e.store.hash p s.token.so.seed)).1,
      ({ rv := (commitPin e s .so (e.store.hash p s.token.so.seed)).2 } : Resp)) = pinSet (setSoPin e (wipe l b) p) := rfl

theorem Tk.Fit.call {e : Env} {l s : Lib} {raw : Bytes} {k : Tk} (h : k.Fit e l s raw) : k ≠ .idle := by
  intro hk; subst hk; exact h

/-- A whole call of another thread. -/
theorem TRel.whole {e : Env} {l : Lib} {b : Bool} {s : Tkc} (hr : TRel e l b s) {c : Call} (ha : s.AloneAt b (.call c)) :
    (Verif.step e s.lib c).2 = (Verif.step e l c).2 ∧ TRel e (Verif.step e l c).1 b (s.step e (.call c)).1 := by
  cases hr with
  | bad hl hb =>
    rw [hl]
    refine ⟨rfl, .bad ?_ ?_⟩
    · dsimp only [Tkc.step]; rw [hl]
    · rw [step_bad hb]; exact hb
  | quiet hl hq =>
    rw [hl]
    exact ⟨rfl, .quiet (by dsimp only [Tkc.step]; rw [hl]) hq⟩
  | alone t hb hc hi hu hf =>
    obtain ⟨hfo, hns⟩ : ForOthers c ∧ (b = false → ∀ h sc, c ≠ .sess h sc) := by
      rcases ha with hq | h
      · exact absurd (hq t) hf.call
      · exact h
    rw [hi] at hns
    obtain ⟨i1, i2⟩ := others_init (e := e) hb hfo
    -- while the library is that of the calls that have returned, and the test for sessions is still to come
    have early : s.lib = l → (∀ l' raw', (Verif.step e l c).1 = l' → (s.pc t).Fit e l' l' raw') →
        (Verif.step e s.lib c).2 = (Verif.step e l c).2 ∧ TRel e (Verif.step e l c).1 b (s.step e (.call c)).1 := by
      intro hl hfit
      have hs : (s.step e (.call c)).1.lib = (Verif.step e l c).1 := by dsimp only [Tkc.step]; rw [hl]
      refine ⟨by rw [hl], ?_⟩
      cases hb' : (Verif.step e l c).1.bad with
      | true => exact .bad hs hb'
      | false =>
        refine .alone t hb' (by rw [i2]; exact hc) (by rw [i1]; exact hi) hu ?_
        rw [hs]
        exact hfit _ _ rfl
    -- later
    have late : (l.token.init = true → anyInUse l.sessions = false) → ∀ T R, s.lib = { l with token := T, rng := R } →
        (∀ l' raw', l'.token = l.token → l'.rng = l.rng → (anyInUse l.sessions = false → anyInUse l'.sessions = false) →
          (T.so.pin = [] → raw' = s.raw) → (s.pc t).Fit e l' { l' with token := T, rng := R } raw') →
        (Verif.step e s.lib c).2 = (Verif.step e l c).2 ∧ TRel e (Verif.step e l c).1 b (s.step e (.call c)).1 := by
      intro hfree T R hl hfit
      have hap := others_apart (e := e) hb hfo hfree hns
      have hst := hap.same T R
      have hs : (s.step e (.call c)).1.lib = { (Verif.step e l c).1 with token := T, rng := R } := by
        dsimp only [Tkc.step]; rw [hl, hst]
      refine ⟨by rw [hl, hst], .alone t hap.bad (by rw [i2]; exact hc) (by rw [i1]; exact hi) hu ?_⟩
      rw [hs]
      refine hfit _ _ hap.token hap.rng hap.free fun h0 => ?_
      dsimp only [Tkc.step]
      rw [hl, hst]
      exact if_pos h0
    have same : l = { l with token := l.token, rng := l.rng } := rfl
    generalize s.pc t = k at hf early late
    have may : ∀ {p : Bytes} {l' : Lib}, MayReset e l p → l'.token = l.token →
        (anyInUse l.sessions = false → anyInUse l'.sessions = false) → MayReset e l' p := by
      intro p l' hm ht hfr hx
      rw [ht] at hx ⊢
      exact ⟨hfr (hm hx).1, (hm hx).2⟩
    have back : ∀ l' : Lib, l'.token = l.token → l'.rng = l.rng → ({ l' with token := l.token, rng := l.rng } : Lib) = l' := by
      intro l' h1 h2; rw [← h1, ← h2]
    cases k with
    | idle => exact hf.elim
    | entered p lb => exact early hf.1 fun l' _ _ => ⟨rfl, hf.2⟩
    | sees p lb => exact early hf.1 fun l' _ h => ⟨rfl, hf.2.1, by rw [← h, i1]; exact hf.2.2⟩
    | check p lb =>
      obtain ⟨h1, h2, h3, h4⟩ := hf
      exact late (fun _ => h4) l.token l.rng h1 fun l' _ ht hr hfr _ => ⟨back l' ht hr, h2, by rw [ht]; exact h3, hfr h4⟩
    | hash p lb =>
      obtain ⟨h1, h2, h3, h4, h5⟩ := hf
      exact late (fun _ => h4) l.token l.rng h1 fun l' _ ht hr hfr _ =>
        ⟨back l' ht hr, h2, by rw [ht]; exact h3, hfr h4, by rw [ht]; exact h5⟩
    | cmp h p lb =>
      obtain ⟨h1, h2, h3, h4, h5, h6⟩ := hf
      exact late (fun _ => h4) l.token l.rng h1 fun l' _ ht hr hfr _ =>
        ⟨back l' ht hr, h2, by rw [ht]; exact h3, hfr h4, by rw [ht]; exact h5, by rw [ht]; exact h6⟩
    | reset p lb =>
      obtain ⟨h1, h2, h3⟩ := hf
      exact late (fun hx => (h3 hx).1) l.token l.rng h1 fun l' _ ht hr hfr _ => ⟨back l' ht hr, h2, may h3 ht hfr⟩
    | start p lb =>
      obtain ⟨h1, h2, h3⟩ := hf
      exact late (fun hx => (h3 hx).1) _ l.rng h1 fun l' _ ht hr hfr _ => ⟨by unfold wipe; rw [← hr], h2, may h3 ht hfr⟩
    | seeded p lb =>
      obtain ⟨h1, h2, h3⟩ := hf
      exact late (fun hx => (h3 hx).1) _ _ h1 fun l' _ ht hr hfr _ => ⟨by simp only [wipe, drawSeeds, hr], h2, may h3 ht hfr⟩
    | hashed h p lb =>
      obtain ⟨h1, h0, h2, h3⟩ := hf
      refine late (fun hx => (h3 hx).1) _ _ h1 fun l' _ ht hr hfr _ => ⟨by simp only [wipe, drawSeeds, hr], ?_, h2, may h3 ht hfr⟩
      rw [h0, h1]; rfl
    | storing p lb =>
      obtain ⟨h1, h0, h2, h3⟩ := hf
      refine late (fun hx => (h3 hx).1) _ _ h1 fun l' _ ht hr hfr hra => ⟨by simp only [wipe, drawSeeds, hr], ?_, h2, may h3 ht hfr⟩
      rw [hra rfl, h0, h1]; rfl

theorem Tk.Fit.resets {e : Env} {l s : Lib} {raw : Bytes} {k : Tk} (h : k.Fit e l s raw) :
    ∃ p b, k.call = resetCall p b ∧ pinLenOk p = true := by
  cases k with
  | idle => exact h.elim
  | entered p b => exact ⟨p, b, rfl, h.2⟩
  | sees p b => exact ⟨p, b, rfl, h.2.1⟩
  | check p b => exact ⟨p, b, rfl, h.2.1⟩
  | hash p b => exact ⟨p, b, rfl, h.2.1⟩
  | cmp _ p b => exact ⟨p, b, rfl, h.2.1⟩
  | reset p b => exact ⟨p, b, rfl, h.2.1⟩
  | start p b => exact ⟨p, b, rfl, h.2.1⟩
  | seeded p b => exact ⟨p, b, rfl, h.2.1⟩
  | hashed _ p b => exact ⟨p, b, rfl, h.2.2.1⟩
  | storing p b => exact ⟨p, b, rfl, h.2.2.1⟩

/-- One part of a `C_InitToken`: the thread still fits, or it returns as the whole call would. -/
theorem part_fit {e : Env} {l s : Lib} {raw : Bytes} {k : Tk} (hb : l.bad = false) (hc : 0 < l.count) (hf : k.Fit e l s raw) :
    match (k.part e s raw).2.2.2 with
    | none => (k.part e s raw).2.2.1.Fit e l (k.part e s raw).1 (k.part e s raw).2.1
    | some rv => (k.part e s raw).2.2.1 = .idle ∧ Verif.step e l k.call = ((k.part e s raw).1, { rv := rv }) := by
  cases k with
  | idle => exact hf.elim
  | entered p b =>
    obtain ⟨rfl, h1⟩ := hf
    simp only [Tk.part]
    cases hi : s.token.init with
    | true => simp only [if_true]; exact ⟨rfl, h1, hi⟩
    | false =>
      simp only [Bool.false_eq_true, if_false]
      exact ⟨rfl, h1, fun hx => by rw [hi] at hx; cases hx⟩
  | sees p b =>
    obtain ⟨rfl, h1, h2⟩ := hf
    simp only [Tk.part]
    cases hi : anyInUse s.sessions with
    | true =>
      simp only [if_true]
      exact ⟨trivial, (reset_whole hb hc h1).trans (if_pos ⟨h2, hi⟩)⟩
    | false =>
      simp only [Bool.false_eq_true, if_false]
      exact ⟨rfl, h1, h2, hi⟩
  | check p b =>
    obtain ⟨rfl, h1, h2, h3⟩ := hf
    simp only [Tk.part]
    by_cases hx : s.token.init = false ∨ s.token.so.pin = []
    · simp only [if_pos hx]
      refine ⟨trivial, (reset_whole hb hc h1).trans ?_⟩
      rw [if_neg (show ¬ (s.token.init = true ∧ anyInUse s.sessions = true) by rw [h3]; simp),
        if_pos ⟨h2, by rw [checkPin, if_pos hx]; exact PinRet.noConfusion⟩]
    · simp only [if_neg hx]
      exact ⟨rfl, h1, h2, h3, fun h => hx (.inr h)⟩
  | hash p b =>
    obtain ⟨rfl, h1, h2, h3, h4⟩ := hf
    exact ⟨rfl, h1, h2, h3, h4, rfl⟩
  | cmp h p b =>
    obtain ⟨rfl, h1, h2, h3, h4, rfl⟩ := hf
    have hx : ¬ (s.token.init = false ∨ s.token.so.pin = []) := by
      rintro (h | h)
      · rw [h2] at h; cases h
      · exact h4 h
    simp only [Tk.part]
    by_cases hm : (e.store.hash p s.token.so.seed).take s.token.so.pin.length = s.token.so.pin
    · simp only [if_pos hm]
      exact ⟨rfl, h1, fun _ => ⟨h3, by rw [checkPin, if_neg hx, if_pos hm]⟩⟩
    · simp only [if_neg hm]
      refine ⟨trivial, (reset_whole hb hc h1).trans ?_⟩
      rw [if_neg (show ¬ (s.token.init = true ∧ anyInUse s.sessions = true) by rw [h3]; simp),
        if_pos ⟨h2, by rw [checkPin, if_neg hx, if_neg hm]; exact PinRet.noConfusion⟩]
  | reset p b =>
    obtain ⟨rfl, h1, h2⟩ := hf
    exact ⟨rfl, h1, h2⟩
  | start p b =>
    obtain ⟨rfl, h1, h2⟩ := hf
    exact ⟨rfl, h1, h2⟩
  | seeded p b =>
    obtain ⟨rfl, h1, h2⟩ := hf
    exact ⟨rfl, rfl, h1, h2⟩
  | hashed h p b =>
    obtain ⟨rfl, rfl, h1, h2⟩ := hf
    exact ⟨rfl, rfl, h1, h2⟩
  | storing p b =>
    obtain ⟨rfl, rfl, h1, h2⟩ := hf
    refine ⟨rfl, (reset_whole hb hc h1).trans ?_⟩
    rw [if_neg (show ¬ (l.token.init = true ∧ anyInUse l.sessions = true) from fun hx => by rw [(h2 hx.1).1] at hx; cases hx.2),
      if_neg (show ¬ (l.token.init = true ∧ checkPin e l.token l.token.so p ≠ .ok) from fun hx => hx.2 (h2 hx.1).2)]
    exact (commit_whole e l p b).symm

/-- One event keeps the relation to the library of the calls that have returned. -/
theorem TRel.step {e : Env} {l : Lib} {b : Bool} {s : Tkc} (hr : TRel e l b s) {v : TkEv} (ha : s.AloneAt b v) :
    match (s.step e v).2 with
    | none => TRel e l (s.initAfter b v) (s.step e v).1
    | some (c, r) => r = (Verif.step e l c).2 ∧ TRel e (Verif.step e l c).1 (s.initAfter b v) (s.step e v).1 := by
  cases v with
  | call c => exact hr.whole ha
  | init t p lb =>
    have hq : s.Quiet := ha
    have hl : s.lib = l := by
      cases hr with
      | quiet hl _ => exact hl
      | bad hl _ => exact hl
      | alone u _ _ _ _ hf => exact absurd (hq u) hf.call
    dsimp only [Tkc.step, Tkc.initAfter]
    rw [if_pos (hq t)]
    by_cases hb : l.bad = true
    · rw [if_pos (by rw [hl]; exact hb)]
      dsimp only
      rw [step_bad hb]
      exact ⟨rfl, .bad hl hb⟩
    · have hb' : l.bad = false := by simpa using hb
      rw [if_neg (by rw [hl]; exact hb)]
      have quiet : (s.at s.lib s.raw t .idle).Quiet := by
        intro u
        by_cases hu : u = t
        · subst hu; exact s.at_self ..
        · exact (s.at_other _ _ _ hu).trans (hq u)
      unfold beginReset
      by_cases hc : s.lib.count ≤ 0
      · simp only [if_pos hc, Option.map_some]
        have hst : Verif.step e l (resetCall p lb) = (l, { rv := .cryptokiNotInitialized }) := by
          rw [hl] at hc
          rw [step_eq hb'] <;> simp [callBody, hc]
        rw [hst]
        exact ⟨rfl, .quiet hl quiet⟩
      · simp only [if_neg hc]
        cases hp : pinLenOk p with
        | false =>
          simp only [Bool.not_false, if_true, Option.map_some]
          have hst : Verif.step e l (resetCall p lb) = (l, { rv := .pinIncorrect }) := by
            rw [hl] at hc
            rw [step_eq hb'] <;> simp [callBody, hc, slotCall, initToken, hp]
          rw [hst]
          exact ⟨rfl, .quiet hl quiet⟩
        | true =>
          simp only [Bool.not_true, Bool.false_eq_true, if_false, Option.map_none]
          rw [hl] at hc
          refine .alone t hb' (by omega) (by rw [hl]) (fun u hu => (s.at_other _ _ _ hu).trans (hq u)) ?_
          rw [s.at_self]
          exact ⟨hl, hp⟩
  | go u =>
    dsimp only [Tkc.step, Tkc.initAfter]
    by_cases hp : s.pc u = .idle
    · rw [if_pos hp]; exact hr
    rw [if_neg hp]
    cases hr with
    | quiet _ hq => exact absurd (hq u) hp
    | bad hl hb =>
      rw [if_pos (by rw [hl]; exact hb)]
      dsimp only
      rw [step_bad hb]
      exact ⟨rfl, .bad hl hb⟩
    | alone t hb hc hi hu hf =>
      have hut : u = t := by
        by_cases h : u = t
        · exact h
        · exact absurd (hu u h) hp
      subst hut
      have hsb : ¬ s.lib.bad = true := by
        have : s.lib.bad = l.bad := by
          generalize s.pc u = k at hf
          cases k with
          | idle => exact hf.elim
          | _ => exact (congrArg Lib.bad hf.1 :)
        rw [this, hb]; exact Bool.noConfusion
      rw [if_neg hsb]
      have h1 := part_fit hb hc hf
      generalize (s.pc u).part e s.lib s.raw = r at h1
      obtain ⟨l', raw', k', o⟩ := r
      cases o with
      | none =>
        refine .alone u hb hc hi (fun w hw => (s.at_other _ _ _ hw).trans (hu w hw)) ?_
        rw [s.at_self]
        exact h1
      | some rv =>
        obtain ⟨h2, h3⟩ := h1
        dsimp only at h2 h3
        subst h2
        dsimp only [Option.map_some]
        rw [h3]
        refine ⟨rfl, .quiet rfl fun w => ?_⟩
        by_cases hw : w = u
        · subst hw; exact s.at_self ..
        · exact (s.at_other _ _ _ hw).trans (hu w hw)

theorem TRel.run {e : Env} {l : Lib} {b : Bool} {s : Tkc} (hr : TRel e l b s) {vs : List TkEv} (ha : s.Alone e b vs) :
    ((s.returned e vs).map (·.2)) = replies e l ((s.returned e vs).map (·.1)) ∧
    ∃ b', TRel e (Verif.run e l ((s.returned e vs).map (·.1))) b' (s.run e vs) := by
  induction vs generalizing s l b with
  | nil => exact ⟨rfl, b, hr⟩
  | cons v vs ih =>
    have h1 := hr.step ha.1
    simp only [Tkc.returned, Tkc.run]
    cases hx : (s.step e v).2 with
    | none =>
      rw [hx] at h1
      exact ih h1 ha.2
    | some cr =>
      obtain ⟨c, r⟩ := cr
      rw [hx] at h1
      obtain ⟨i1, i2⟩ := ih h1.2 ha.2
      refine ⟨?_, i2⟩
      show r :: ((Tkc.returned e (s.step e v).1 vs).map (·.2)) = answer e l c :: replies e (Verif.step e l c).1 ((Tkc.returned e (s.step e v).1 vs).map (·.1))
      rw [i1]
      exact congrArg (· :: _) h1.1

/-- C131, proved part: threads use the library and re-initialise its token, where during a `C_InitToken` no other one
begins, nobody opens a session, initialises or finalizes the library or asks for the description of the token, and where nobody uses a
session if the token was not initialised when the `C_InitToken` began.  Whatever the schedule, every call answers as if the calls
had been made one after the other in the order in which they returned, and once no thread is inside `C_InitToken` the library is the
one those calls leave. -/
theorem c131_partial (e : Env) (l : Lib) (vs : List TkEv) (ha : ({ lib := l } : Tkc).Alone e false vs) :
    let s := ({ lib := l } : Tkc).run e vs
    let cs := ({ lib := l } : Tkc).returned e vs
    cs.map (·.2) = replies e l (cs.map (·.1)) ∧
    (s.Quiet → s.lib = Verif.run e l (cs.map (·.1))) := by
  have h0 : TRel e l false { lib := l } := .quiet rfl fun _ => rfl
  obtain ⟨h1, b', h2⟩ := h0.run ha
  refine ⟨h1, fun hq => ?_⟩
  cases h2 with
  | quiet hl => exact hl
  | bad hl => exact hl
  | alone t _ _ _ _ hf => exact absurd (hq t) hf.call

namespace Demo

/-- An initialised token with both PINs set and no session. -/
def resting : Lib := run env fresh (setup ++ [.sess 65538 .close])

/-- Not the PIN of the security officer. -/
def wrongPin : Bytes := [9, 9, 9, 9]

/-- The threads on that token. -/
def officers : Tkc := { lib := resting }

/-- Thread `t` does `n` parts. -/
def parts (n t : Nat) : List TkEv := List.replicate n (.go t)

/-- Thread 1 re-initialises the token; meanwhile thread 2 asks for a session that is not open and closes all sessions. After that thread 2
offers a wrong PIN, opens a session and logs in with the new PIN. -/
def oneByOne : List TkEv :=
  [.init 1 soPin label] ++ parts 3 1 ++ [.call (.sess 65538 (.info true))] ++ parts 3 1 ++ [.call (.slot 1 .closeAll)] ++ parts 4 1 ++
  [.init 2 wrongPin label] ++ parts 5 2 ++ [.call (openCall true), .call (loginCall 65538 .so soPin 0), .init 1 soPin label] ++ parts 2 1

/-- A thread no event is about stands still. -/
theorem Tkc.idle_else (e : Env) (s : Tkc) (vs : List TkEv) (t : Nat) (h : ∀ v ∈ vs, v ≠ .go t ∧ ∀ p b, v ≠ .init t p b) :
    (s.run e vs).pc t = s.pc t := by
  induction vs generalizing s with
  | nil => rfl
  | cons v vs ih =>
    have h1 := h v (by simp)
    refine (ih (s.step e v).1 fun w hw => h w (by simp [hw])).trans ?_
    cases v with
    | call c => rfl
    | init u p b =>
      have hu : t ≠ u := fun hx => h1.2 p b (by rw [hx])
      dsimp only [Tkc.step]
      repeat' split
      · rfl
      · exact s.at_other _ _ _ hu
      · rfl
    | go u =>
      have hu : t ≠ u := fun hx => h1.1 (by rw [hx])
      dsimp only [Tkc.step]
      repeat' split
      · rfl
      · exact s.at_other _ _ _ hu
      · exact s.at_other _ _ _ hu

/-- The number of the thread of an event. -/
def TkEv.of : TkEv → Nat
  | .call _ => 0
  | .init t _ _ => t
  | .go t => t

/-- No thread is inside `C_InitToken` if threads 1 and 2 are not, and no other did anything. -/
theorem quiet_of (vs : List TkEv) (hv : ∀ v ∈ vs, TkEv.of v = 0 ∨ TkEv.of v = 1 ∨ TkEv.of v = 2) (h0 : (officers.run env vs).pc 0 = .idle)
    (h1 : (officers.run env vs).pc 1 = .idle) (h2 : (officers.run env vs).pc 2 = .idle) : (officers.run env vs).Quiet := by
  intro t
  by_cases t0 : t = 0
  · subst t0; exact h0
  by_cases t1 : t = 1
  · subst t1; exact h1
  by_cases t2 : t = 2
  · subst t2; exact h2
  refine Tkc.idle_else env _ _ t fun v hm => ⟨fun hx => ?_, fun p b hx => ?_⟩
  · subst hx; rcases hv _ hm with h | h | h <;> simp only [TkEv.of] at h <;> omega
  · subst hx; rcases hv _ hm with h | h | h <;> simp only [TkEv.of] at h <;> omega

set_option maxRecDepth 40000 in
/-- The rule is kept. -/
theorem oneByOne_alone : officers.Alone env false oneByOne := by
  have q : ∀ n, ∀ v ∈ oneByOne.take n, TkEv.of v = 0 ∨ TkEv.of v = 1 ∨ TkEv.of v = 2 := by
    intro n v hv
    have : ∀ w ∈ oneByOne, TkEv.of w = 0 ∨ TkEv.of w = 1 ∨ TkEv.of w = 2 := by decide
    exact this v (List.mem_of_mem_take hv)
  refine ⟨fun _ => rfl, trivial, trivial, trivial, .inr ⟨trivial, fun h => ?_⟩, trivial, trivial, trivial, .inr ⟨trivial, fun h => ?_⟩,
    trivial, trivial, trivial, trivial, ?_, trivial, trivial, trivial, trivial, trivial, .inl ?_, .inl ?_, ?_, trivial, trivial, trivial⟩
  · exact absurd h (by decide +kernel)
  · exact absurd h (by decide +kernel)
  · exact quiet_of (oneByOne.take 13) (q 13) (by decide +kernel) (by decide +kernel) (by decide +kernel)
  · exact quiet_of (oneByOne.take 19) (q 19) (by decide +kernel) (by decide +kernel) (by decide +kernel)
  · exact quiet_of (oneByOne.take 20) (q 20) (by decide +kernel) (by decide +kernel) (by decide +kernel)
  · exact quiet_of (oneByOne.take 21) (q 21) (by decide +kernel) (by decide +kernel) (by decide +kernel)

/-- The answers: the session is not open, the others are closed, the token is re-initialised, the wrong PIN is refused, a session is
open and the officer logged in, and the token is in use. -/
example : (officers.returned env oneByOne).map (·.2.rv) =
    [.sessionHandleInvalid, .ok, .ok, .pinIncorrect, .ok, .ok, .sessionExists] := by decide +kernel

/-- Both threads have their PIN hashed; thread 1, which gave the PIN of the officer, wipes the token, and only then the hash of thread 2 is
compared. -/
def takeover : List TkEv :=
  [.init 1 soPin label, .init 2 wrongPin label] ++ parts 4 1 ++ parts 4 2 ++ parts 2 1 ++ parts 1 2 ++ parts 4 1 ++ parts 5 2 ++
  [.call (openCall true), .call (loginCall 65538 .so soPin 0), .call (loginCall 65538 .so wrongPin 0)]

/-- **C131** does not hold when two threads are inside `C_InitToken`: the hash of a wrong PIN is compared with none at all and
accepted.  Who does not know the PIN of the officer re-initialises the token and is its officer from then on; in whatever
order the two calls were made whole, the wrong PIN would be refused. -/
theorem c131_violated :
    (officers.returned env takeover).map (·.2.rv) = [.ok, .ok, .ok, .pinIncorrect, .ok] ∧
    rvs env resting [resetCall soPin label, resetCall wrongPin label] = [.ok, .pinIncorrect] ∧
    rvs env resting [resetCall wrongPin label, resetCall soPin label] = [.pinIncorrect, .ok] :=
  ⟨by decide +kernel, by decide +kernel, by decide +kernel⟩

/-- After thread 1 has seen that no session is open, another thread opens one, logs in, stores a key on the token and begins to
encrypt with it. -/
def midway : List TkEv :=
  [.init 1 soPin label] ++ parts 2 1 ++ [.call (openCall true), .call (loginCall 65538 .user userPin 0),
    .call (createCall 65538 (aesTmpl true 9)),
    .call (.sess 65538 (.cryptInit .encrypt (some (.aesGcm, .gcm (List.replicate 12 1) none 128)) tok1))] ++ parts 8 1 ++
  [.call (.sess 65538 (.crypt (.encrypt (some [1, 2, 3]) (.buf 32) 0)))]

/-- **C131** does not hold when a session is opened during a `C_InitToken`: the token is wiped although a session is open, with the
keys the session works with, and the next call uses freed memory.  Whole, `C_InitToken` would answer `CKR_SESSION_EXISTS` after the session is
opened, and before it the user could not log in. -/
theorem c131_violated_session :
    (officers.returned env midway).map (·.2.rv) = [.ok, .ok, .ok, .ok, .ok, .ub] ∧
    rvs env resting [openCall true, resetCall soPin label] = [.ok, .sessionExists] ∧
    rvs env resting [resetCall soPin label, openCall true, loginCall 65538 .user userPin 0] = [.ok, .ok, .userPinNotInitialized] :=
  ⟨by decide +kernel, by decide +kernel, by decide +kernel⟩

/-- A token that was never initialised. -/
def newToken : Tkc := { lib := run env fresh [.cInit] }

/-- Both threads see that the token is not initialised; thread 1 is done before thread 2 goes on. -/
def bothNew : List TkEv := [.init 1 soPin label, .init 2 wrongPin label] ++ parts 1 2 ++ parts 6 1 ++ parts 6 2

/-- Both see that it is not initialised, and their parts alternate. -/
def woven : List TkEv :=
  [.init 1 soPin label, .init 2 wrongPin label] ++ parts 1 2 ++ parts 2 1 ++ parts 3 2 ++ parts 3 1 ++ parts 2 2 ++ parts 1 1 ++
  [.call (openCall true), .call (loginCall 65538 .so soPin 0), .call (loginCall 65538 .so wrongPin 0)]

/-- **C131** does not hold for a new token: two threads initialise it with different PINs and both are told that they have, although the
second does not know the PIN the first has set; or neither PIN is accepted afterwards, and nobody can ever initialise the token again. -/
theorem c131_violated_new :
    (newToken.returned env bothNew).map (·.2.rv) = [.ok, .ok] ∧
    (newToken.returned env woven).map (·.2.rv) = [.ok, .ok, .ok, .pinIncorrect, .pinIncorrect] ∧
    rvs env newToken.lib [resetCall soPin label, resetCall wrongPin label] = [.ok, .pinIncorrect] ∧
    rvs env newToken.lib [resetCall wrongPin label, resetCall soPin label] = [.ok, .pinIncorrect] :=
  ⟨by decide +kernel, by decide +kernel, by decide +kernel, by decide +kernel⟩

end Demo

end Verif
