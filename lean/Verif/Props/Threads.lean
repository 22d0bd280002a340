import Verif.Proofs.Threads
import Verif.Props.Lock

/-!
# Calls of several threads: every call returns (C87), data races (C88)
-/

namespace Verif.Threads

variable {n : Nat}

/-- What the program counter of a thread in a lock says it holds.  During a lock
function: what it held when it called. -/
def holdOf : Lock.PC → Hold
  | .rest d => .ro d
  | .wantW => .ro 0
  | .critW => .rw
  | .wantR d => .ro d
  | .r1 d => .ro d
  | .r2 d => .ro d
  | .r3 d => .ro d
  | .u0 d => .ro (d + 1)
  | .u1 d => .ro (d + 1)
  | .u2 d => .ro (d + 1)

/-- What thread `t` holds. -/
def Sys.held (S : Sys n) (t : Fin n) : Held :=
  ⟨holdOf ((S.lk .glob).pc t), holdOf ((S.lk .slot).pc t), holdOf ((S.lk .token).pc t),
    holdOf ((S.lk .rng).pc t)⟩

theorem held_get (S : Sys n) (t : Fin n) (l : LockId) :
    (S.held t).get l = holdOf ((S.lk l).pc t) := by cases l <;> rfl

/-- The program counter is inside the lock function `k`. -/
def inside : Kind → Lock.PC → Bool
  | .lockRW, .wantW => true
  | .lockRO, .wantR _ => true
  | .lockRO, .r1 _ => true
  | .lockRO, .r2 _ => true
  | .lockRO, .r3 _ => true
  | .unlockRO, .u0 _ => true
  | .unlockRO, .u1 _ => true
  | .unlockRO, .u2 _ => true
  | _, _ => false

/-- What a lock function does to what is held. -/
def after : Kind → Hold → Option Hold
  | .lockRW, .ro 0 => some .rw
  | .unlockRW, .rw => some (.ro 0)
  | .lockRO, .ro d => some (.ro (d + 1))
  | .unlockRO, .ro (d + 1) => some (.ro d)
  | _, _ => none

theorem move_after {h m : Held} {k : Kind} {l : LockId} (hm : move h k l = some m) :
    ∃ x, after k (h.get l) = some x ∧ m = h.set l x := by
  unfold move at hm
  split at hm <;> rename_i he
  · rw [he]; split at hm <;> simp at hm; exact ⟨_, rfl, hm.symm⟩
  · rw [he]; simp at hm; exact ⟨_, rfl, hm.symm⟩
  · rw [he]; split at hm <;> simp at hm; exact ⟨_, rfl, hm.symm⟩
  · rw [he]; simp at hm; exact ⟨_, rfl, hm.symm⟩
  · simp at hm

theorem goto_self (s : Lock.State n) (t : Fin n) (p : Lock.PC) : (s.goto t p).pc t = p := by
  simp [Lock.State.goto]

theorem goto_other (s : Lock.State n) {t u : Fin n} (p : Lock.PC) (h : u ≠ t) :
    (s.goto t p).pc u = s.pc u := by
  simp [Lock.State.goto, Function.update_of_ne h]

theorem attempt_step {k : Kind} {s s' : Lock.State n} {t : Fin n} (h : attempt k s t = some s') :
    Lock.Step s t s' := by
  unfold attempt at h
  split at h <;> rename_i he
  · cases h; exact .callW s t he
  · split at h <;> rename_i hw
    · cases h
    · cases h; exact .lockW s t he (by simpa using hw)
  · cases h; exact .unlockW s t he
  · cases h; exact .callR s t _ he
  · split at h <;> rename_i hr
    · cases h; exact .lockRead s t _ he hr
    · cases h
  · split at h <;> rename_i hr
    · cases h; exact .incFirst s t _ he hr
    · cases h; exact .incMore s t _ he hr
  · split at h <;> rename_i hw
    · cases h
    · cases h; exact .firstLocksWrite s t _ he (by simpa using hw)
  · cases h; exact .unlockRead s t _ he
  · cases h; exact .callU s t _ he
  · split at h <;> rename_i hr
    · cases h; exact .uLockRead s t _ he hr
    · cases h
  · split at h <;> rename_i hr
    · cases h; exact .decLast s t _ he hr
    · cases h; exact .decMore s t _ he hr
  · cases h; exact .uUnlockRead s t _ he
  · cases h

theorem attempt_other {k : Kind} {s s' : Lock.State n} {t u : Fin n} (h : attempt k s t = some s')
    (hu : u ≠ t) : s'.pc u = s.pc u := by
  cases attempt_step h <;> exact goto_other _ _ hu

theorem attempt_hold {k : Kind} {s s' : Lock.State n} {t : Fin n} (h : attempt k s t = some s') :
    (settled (s'.pc t) = false ∧ holdOf (s'.pc t) = holdOf (s.pc t) ∧ inside k (s'.pc t) = true) ∨
    (settled (s'.pc t) = true ∧ after k (holdOf (s.pc t)) = some (holdOf (s'.pc t))) := by
  unfold attempt at h
  split at h <;> rename_i he
  all_goals first
    | (cases h; done)
    | (rw [he]; cases h; rw [goto_self]; simp [settled, holdOf, inside, after]; done)
    | (rw [he]; cases h; rw [goto_self]; split <;> simp [settled, holdOf, inside]; done)
    | (rw [he]; split at h <;> first
        | (cases h; done)
        | (cases h; rw [goto_self]; simp [settled, holdOf, inside, after]; done))

/-- The state of the threads between two steps. -/
structure TInv (ok : Held → Loc → Bool → Prop) (S : Sys n) : Prop where
  lock : ∀ l, Lock.Inv (S.lk l)
  fol : ∀ t, Follows ok (S.held t) (S.todo t) Held.none
  mid : ∀ t l, settled ((S.lk l).pc t) = true ∨
    ∃ k as, S.todo t = .lk k l :: as ∧ inside k ((S.lk l).pc t) = true

/-- The effect of a step of thread `t`. -/
theorem step_cases {S S' : Sys n} {t : Fin n} (h : S.step t = some S') :
    (∃ (x : Loc) (w : Bool) (as : List Act), S.todo t = (if w then .write x else .read x) :: as ∧
      S' = { S with todo := Function.update S.todo t as }) ∨
    ∃ k l as s, S.todo t = .lk k l :: as ∧ attempt k (S.lk l) t = some s ∧
      S' = { lk := Function.update S.lk l s,
             todo := if settled (s.pc t) then Function.update S.todo t as else S.todo } := by
  unfold Sys.step at h
  split at h <;> rename_i he
  · cases h
  · cases h; exact Or.inl ⟨_, false, _, he, rfl⟩
  · cases h; exact Or.inl ⟨_, true, _, he, rfl⟩
  · cases ha : attempt _ (S.lk _) t with
    | none => rw [ha] at h; cases h
    | some s => rw [ha] at h; cases h; exact Or.inr ⟨_, _, _, s, he, ha, rfl⟩

theorem TInv.step {ok : Held → Loc → Bool → Prop} {S S' : Sys n} {t : Fin n} (hi : TInv ok S)
    (h : S.step t = some S') : TInv ok S' := by
  rcases step_cases h with ⟨x, w, as, ht, rfl⟩ | ⟨k, l, as, s, ht, ha, rfl⟩
  · refine ⟨hi.lock, fun u => ?_, fun u l => ?_⟩
    · by_cases hu : u = t
      · subst hu
        have hf := hi.fol u
        rw [ht] at hf
        simp only [Function.update_self]
        cases w <;> exact hf.2
      · simp only [Function.update_of_ne hu]; exact hi.fol u
    · by_cases hu : u = t
      · subst hu
        rcases hi.mid u l with hm | ⟨k, bs, hk, _⟩
        · exact Or.inl hm
        · rw [ht] at hk; cases w <;> cases hk
      · simp only [Function.update_of_ne hu]; exact hi.mid u l
  · have hfol := hi.fol t
    rw [ht] at hfol
    obtain ⟨m, hm, hf⟩ := hfol
    obtain ⟨x, hx, rfl⟩ := move_after hm
    rw [held_get] at hx
    have hother : ∀ u, u ≠ t → (∀ l', ((Function.update S.lk l s) l').pc u = (S.lk l').pc u) := by
      intro u hu l'
      by_cases hl : l' = l
      · subst hl; rw [Function.update_self]; exact attempt_other ha hu
      · rw [Function.update_of_ne hl]
    have hsame : ∀ (T : Sys n) (u : Fin n), (∀ l', (T.lk l').pc u = (S.lk l').pc u) →
        T.held u = S.held u := fun T u hT => by simp only [Sys.held, hT]
    refine ⟨fun l' => ?_, fun u => ?_, fun u l' => ?_⟩
    · by_cases hl : l' = l
      · subst hl
        show Lock.Inv (Function.update S.lk l' s l')
        rw [Function.update_self]; exact Lock.inv_step (hi.lock l') (attempt_step ha)
      · show Lock.Inv (Function.update S.lk l s l')
        rw [Function.update_of_ne hl]; exact hi.lock l'
    · by_cases hu : u = t
      · subst hu
        rcases attempt_hold ha with ⟨h1, h2, _⟩ | ⟨h1, h2⟩
        · simp only [h1, Bool.false_eq_true, if_false]
          have : (Sys.held { lk := Function.update S.lk l s, todo := S.todo } u) = S.held u := by
            apply Held.ext'
            intro l'
            rw [held_get, held_get]
            by_cases hl : l' = l
            · subst hl; simp only [Function.update_self]; exact h2
            · simp only [Function.update_of_ne hl]
          rw [this, ht]; exact ⟨_, hm, hf⟩
        · simp only [h1, if_true, Function.update_self]
          have : (Sys.held { lk := Function.update S.lk l s, todo := Function.update S.todo u as } u)
              = (S.held u).set l x := by
            apply Held.ext'
            intro l'
            rw [held_get, Held.get_set, held_get]
            by_cases hl : l' = l
            · subst hl
              simp only [Function.update_self, if_true]
              rw [hx] at h2; cases h2; rfl
            · simp only [Function.update_of_ne hl, if_neg hl]
          rw [this]; exact hf
      · rw [hsame _ u (hother u hu)]
        have : (if settled (s.pc t) then Function.update S.todo t as else S.todo) u = S.todo u := by
          split
          · rw [Function.update_of_ne hu]
          · rfl
        show Follows ok _ ((if settled (s.pc t) then Function.update S.todo t as else S.todo) u) _
        rw [this]; exact hi.fol u
    · by_cases hu : u = t
      · subst hu
        by_cases hl : l' = l
        · subst hl
          simp only [Function.update_self]
          rcases attempt_hold ha with ⟨h1, _, h3⟩ | ⟨h1, _⟩
          · right; simp only [h1, Bool.false_eq_true, if_false]; exact ⟨k, as, ht, h3⟩
          · exact Or.inl h1
        · simp only [Function.update_of_ne hl]
          rcases hi.mid u l' with hs | ⟨k', bs, hk, _⟩
          · exact Or.inl hs
          · rw [ht] at hk; cases hk; exact absurd rfl hl
      · have h1 := hother u hu l'
        have h2 : (if settled (s.pc t) then Function.update S.todo t as else S.todo) u = S.todo u := by
          split
          · rw [Function.update_of_ne hu]
          · rfl
        show settled ((Function.update S.lk l s l').pc u) = true ∨
          ∃ k' as', (if settled (s.pc t) then Function.update S.todo t as else S.todo) u = .lk k' l' :: as' ∧
            inside k' ((Function.update S.lk l s l').pc u) = true
        rw [h1, h2]; exact hi.mid u l'

theorem TInv.run {ok : Held → Loc → Bool → Prop} (ts : List (Fin n)) :
    ∀ {S S' : Sys n}, TInv ok S → S.run ts = some S' → TInv ok S' := by
  induction ts with
  | nil => intro S S' hi h; cases h; exact hi
  | cons t ts ih =>
    intro S S' hi h
    simp only [Sys.run] at h
    cases hs : S.step t with
    | none => rw [hs] at h; cases h
    | some T => rw [hs] at h; exact ih (hi.step hs) h

theorem Sys.Begins.inv {ok : Held → Loc → Bool → Prop} {S : Sys n} {cs : Fin n → List Api}
    (hb : S.Begins cs) (hk : ∀ t, ∀ c ∈ cs t, ∀ f ∈ c.uses, f.Keeps ok) : TInv ok S := by
  refine ⟨fun l => by rw [hb.free l]; exact Lock.inv_init, fun t => ?_, fun t l => ?_⟩
  · have : S.held t = Held.none := by
      simp only [Sys.held, hb.free]; rfl
    rw [this]; exact (hb.calls t).follows (hk t)
  · left; rw [hb.free l]; rfl

/-! ## Some thread can always step -/

/-- A thread inside a lock function takes part in the function its next action names. -/
theorem TInv.inside {ok : Held → Loc → Bool → Prop} {S : Sys n} (hi : TInv ok S) {t : Fin n}
    {l : LockId} (h : settled ((S.lk l).pc t) = false) :
    ∃ k as, S.todo t = .lk k l :: as ∧ Threads.inside k ((S.lk l).pc t) = true := by
  rcases hi.mid t l with hs | hm
  · rw [h] at hs; cases hs
  · exact hm

/-- A step of a thread whose next action is a lock function that can go on. -/
theorem step_of_attempt {S : Sys n} {t : Fin n} {k : Kind} {l : LockId} {as : List Act}
    (ht : S.todo t = .lk k l :: as) (ha : attempt k (S.lk l) t ≠ none) : ∃ S', S.step t = some S' := by
  cases h : attempt k (S.lk l) t with
  | none => exact absurd h ha
  | some s => exact ⟨_, by unfold Sys.step; rw [ht]; simp only [h, Option.map_some]; rfl⟩

/-- A thread that holds the inner mutex of a lock can go on, unless it waits for the
`write` mutex. -/
theorem TInv.owner_steps {ok : Held → Loc → Bool → Prop} {S : Sys n} (hi : TInv ok S) {u : Fin n}
    {l : LockId} (h : Lock.inRead ((S.lk l).pc u) = true)
    (h2 : Lock.isR2 ((S.lk l).pc u) = true → (S.lk l).writeHeld = false) :
    ∃ S', S.step u = some S' := by
  have hs : settled ((S.lk l).pc u) = false := by
    revert h; cases (S.lk l).pc u <;> simp [Lock.inRead, settled]
  obtain ⟨k, as, hk, hin⟩ := hi.inside hs
  refine step_of_attempt hk ?_
  cases hp : (S.lk l).pc u <;> rw [hp] at h hin h2 <;> simp [Lock.inRead] at h <;>
    cases k <;> simp [Threads.inside] at hin
  · simp [attempt, hp]
  · simp [attempt, hp, h2 rfl]
  · simp [attempt, hp]
  · simp only [attempt, hp]; split <;> simp
  · simp [attempt, hp]

/-- If nobody can step, a thread about to call a lock function wants to take a lock
that it does not hold and another thread does. -/
theorem TInv.waits {ok : Held → Loc → Bool → Prop} {S : Sys n} (hi : TInv ok S) {t : Fin n}
    {k : Kind} {l : LockId} {as : List Act} (ht : S.todo t = .lk k l :: as) :
    (∃ u S', S.step u = some S') ∨
    ((k = .lockRW ∨ k = .lockRO) ∧ (S.held t).get l = .ro 0 ∧ ∃ u, (S.held u).get l ≠ .ro 0) := by
  have hl := hi.lock l
  obtain ⟨m, hm, -⟩ := (by have := hi.fol t; rw [ht] at this; exact this :
    Follows ok (S.held t) (.lk k l :: as) Held.none)
  obtain ⟨x, hx, -⟩ := move_after hm
  rw [held_get] at hx
  -- a thread waiting for the write mutex as the first reader waits for a writer
  have hr2 : ∀ u, Lock.isR2 ((S.lk l).pc u) = true → (S.lk l).writeHeld = true →
      ∃ v, (S.lk l).pc v = .critW := by
    intro u hu hw
    rcases hl.held.1 hw with ⟨v, hv⟩ | ⟨_, hno⟩
    · refine ⟨v, ?_⟩; revert hv; cases (S.lk l).pc v <;> simp [Lock.isCritW]
    · rw [hno u] at hu; cases hu
  -- what keeps the inner mutex taken
  have hread : ∀ o, (S.lk l).readOwner = some o →
      (∃ u S', S.step u = some S') ∨
        (∃ v, (S.lk l).pc v = .critW) ∧ Lock.isR2 ((S.lk l).pc o) = true := by
    intro o ho
    have hin := (hl.own o).1 ho
    by_cases h2 : Lock.isR2 ((S.lk l).pc o) = true ∧ (S.lk l).writeHeld = true
    · exact Or.inr ⟨hr2 o h2.1 h2.2, h2.1⟩
    · left
      refine ⟨o, hi.owner_steps hin fun h => ?_⟩
      cases hw : (S.lk l).writeHeld with
      | false => rfl
      | true => exact absurd ⟨h, hw⟩ h2
  -- a reader cannot be kept out: then the lock is taken by a writer or a first reader
  have hunits : ∀ u, 0 < Lock.units ((S.lk l).pc u) → ∀ o, Lock.isR2 ((S.lk l).pc o) = true → u = o := by
    intro u hu o ho
    apply Classical.byContradiction
    intro hne
    have h1 := hl.r2one o ho
    have h2 := Lock.units_add_le_total (S.lk l).pc hne
    have h3 := hl.cntEq
    have h4 : 0 < Lock.units ((S.lk l).pc o) := by
      revert ho; cases (S.lk l).pc o <;> simp [Lock.isR2, Lock.units]
    omega
  cases hp : (S.lk l).pc t with
  | rest d =>
    left
    rw [hp] at hx
    refine ⟨t, step_of_attempt ht ?_⟩
    cases k <;> cases d <;> simp_all [after, holdOf, attempt]
  | critW =>
    left
    rw [hp] at hx
    refine ⟨t, step_of_attempt ht ?_⟩
    cases k <;> simp_all [after, holdOf, attempt]
  | wantW =>
    obtain ⟨k', as', hk', hin⟩ := hi.inside (t := t) (l := l) (by rw [hp]; rfl)
    rw [ht] at hk'; cases hk'
    rw [hp] at hin
    cases k <;> simp [Threads.inside] at hin
    cases hw : (S.lk l).writeHeld with
    | false => left; exact ⟨t, step_of_attempt ht (by simp [attempt, hp, hw])⟩
    | true =>
      rcases hl.held.1 hw with ⟨v, hv⟩ | ⟨hc, hno⟩
      · right
        refine ⟨Or.inl rfl, by rw [held_get, hp]; rfl, v, ?_⟩
        rw [held_get]
        revert hv; cases (S.lk l).pc v <;> simp [Lock.isCritW, holdOf]
      · obtain ⟨v, hv⟩ := Lock.exists_units_pos (S.lk l).pc (by have := hl.cntEq; omega)
        by_cases hz : holdOf ((S.lk l).pc v) = .ro 0
        · left
          refine ⟨v, hi.owner_steps (l := l) ?_ fun h => ?_⟩
          · revert hv hz; cases (S.lk l).pc v <;> simp [Lock.units, holdOf, Lock.inRead] <;> omega
          · rw [hno v] at h; cases h
        · right
          exact ⟨Or.inl rfl, by rw [held_get, hp]; rfl, v, by rw [held_get]; exact hz⟩
  | wantR d =>
    obtain ⟨k', as', hk', hin⟩ := hi.inside (t := t) (l := l) (by rw [hp]; rfl)
    rw [ht] at hk'; cases hk'
    rw [hp] at hin
    cases k <;> simp [Threads.inside] at hin
    cases ho : (S.lk l).readOwner with
    | none => left; exact ⟨t, step_of_attempt ht (by simp [attempt, hp, ho])⟩
    | some o =>
      rcases hread o ho with h | ⟨⟨v, hv⟩, h2⟩
      · exact Or.inl h
      · right
        have hd : d = 0 := by
          apply Classical.byContradiction
          intro hd
          have := hunits t (by rw [hp]; simp [Lock.units]; omega) o h2
          subst this
          rw [hp] at h2; simp [Lock.isR2] at h2
        subst hd
        exact ⟨Or.inr rfl, by rw [held_get, hp]; rfl, v, by rw [held_get, hv]; simp [holdOf]⟩
  | u0 d =>
    left
    obtain ⟨k', as', hk', hin⟩ := hi.inside (t := t) (l := l) (by rw [hp]; rfl)
    rw [ht] at hk'; cases hk'
    rw [hp] at hin
    cases k <;> simp [Threads.inside] at hin
    cases ho : (S.lk l).readOwner with
    | none => exact ⟨t, step_of_attempt ht (by simp [attempt, hp, ho])⟩
    | some o =>
      rcases hread o ho with h | ⟨_, h2⟩
      · exact h
      · exfalso
        have := hunits t (by rw [hp]; simp [Lock.units]) o h2
        subst this
        rw [hp] at h2; simp [Lock.isR2] at h2
  | r2 d =>
    obtain ⟨k', as', hk', hin⟩ := hi.inside (t := t) (l := l) (by rw [hp]; rfl)
    rw [ht] at hk'; cases hk'
    rw [hp] at hin
    cases k <;> simp [Threads.inside] at hin
    cases hw : (S.lk l).writeHeld with
    | false => left; exact ⟨t, step_of_attempt ht (by simp [attempt, hp, hw])⟩
    | true =>
      right
      obtain ⟨v, hv⟩ := hr2 t (by rw [hp]; rfl) hw
      have hd : d = 0 := by
        have h1 := hl.r2one t (by rw [hp]; rfl)
        have h2 := Lock.units_le_total (S.lk l).pc t
        have h3 := hl.cntEq
        rw [hp] at h2; simp [Lock.units] at h2; omega
      subst hd
      exact ⟨Or.inr rfl, by rw [held_get, hp]; rfl, v, by rw [held_get, hv]; simp [holdOf]⟩
  | r1 d => left; exact ⟨t, hi.owner_steps (l := l) (by rw [hp]; rfl) (by rw [hp]; simp [Lock.isR2])⟩
  | r3 d => left; exact ⟨t, hi.owner_steps (l := l) (by rw [hp]; rfl) (by rw [hp]; simp [Lock.isR2])⟩
  | u1 d => left; exact ⟨t, hi.owner_steps (l := l) (by rw [hp]; rfl) (by rw [hp]; simp [Lock.isR2])⟩
  | u2 d => left; exact ⟨t, hi.owner_steps (l := l) (by rw [hp]; rfl) (by rw [hp]; simp [Lock.isR2])⟩

/-- A lock is taken above all locks held. -/
theorem move_rank {h m : Held} {k : Kind} {l l' : LockId} (hm : move h k l = some m)
    (hk : k = .lockRW ∨ k = .lockRO) (hz : h.get l = .ro 0) (hl : h.get l' ≠ .ro 0) :
    rank l' < rank l := by
  have hc : h.clear l = true := by
    unfold move at hm
    rw [hz] at hm
    rcases hk with rfl | rfl <;> simp at hm <;> exact hm.1
  rw [Held.clear_iff] at hc
  have hne : l' ≠ l := by intro e; subst e; exact hl hz
  have : ¬ rank l < rank l' := fun h => hl (hc l' h)
  have : rank l' ≠ rank l := by
    intro e; apply hne; cases l <;> cases l' <;> simp [rank] at e <;> rfl
  omega

theorem rank_le (l : LockId) : rank l ≤ 3 := by cases l <;> simp [rank]

/-- A thread that holds a lock has something left to do, and either somebody can step
or it wants a higher lock which is held. -/
theorem TInv.holder {ok : Held → Loc → Bool → Prop} {S : Sys n} (hi : TInv ok S) {u : Fin n}
    {l : LockId} (hu : (S.held u).get l ≠ .ro 0) :
    (∃ v S', S.step v = some S') ∨
      ∃ l' v, rank l < rank l' ∧ (S.held v).get l' ≠ .ro 0 := by
  cases ht : S.todo u with
  | nil =>
    exfalso
    have := hi.fol u
    rw [ht] at this
    have he : S.held u = Held.none := this
    rw [he] at hu
    apply hu; cases l <;> rfl
  | cons a as =>
    cases a with
    | read x => exact Or.inl ⟨u, _, by unfold Sys.step; rw [ht]⟩
    | write x => exact Or.inl ⟨u, _, by unfold Sys.step; rw [ht]⟩
    | lk k l' =>
      rcases hi.waits ht with h | ⟨hk, hz, v, hv⟩
      · exact Or.inl h
      · right
        obtain ⟨m, hm, -⟩ := (by have := hi.fol u; rw [ht] at this; exact this :
          Follows ok (S.held u) (.lk k l' :: as) Held.none)
        exact ⟨l', v, move_rank hm hk hz hu, hv⟩

theorem TInv.held_steps {ok : Held → Loc → Bool → Prop} {S : Sys n} (hi : TInv ok S) :
    ∀ (d : Nat) (l : LockId) (u : Fin n), 3 ≤ rank l + d → (S.held u).get l ≠ .ro 0 →
      ∃ v S', S.step v = some S' := by
  intro d
  induction d with
  | zero =>
    intro l u hr hu
    rcases hi.holder hu with h | ⟨l', v, hlt, _⟩
    · exact h
    · have := rank_le l'; omega
  | succ d ih =>
    intro l u hr hu
    rcases hi.holder hu with h | ⟨l', v, hlt, hv⟩
    · exact h
    · exact ih l' v (by omega) hv

/-- As long as some call has not returned, some thread can step. -/
theorem TInv.progress {ok : Held → Loc → Bool → Prop} {S : Sys n} (hi : TInv ok S) {t : Fin n}
    (ht : ¬ S.Returned t) : ∃ u S', S.step u = some S' := by
  cases hc : S.todo t with
  | nil => exact absurd hc ht
  | cons a as =>
    cases a with
    | read x => exact ⟨t, _, by unfold Sys.step; rw [hc]⟩
    | write x => exact ⟨t, _, by unfold Sys.step; rw [hc]⟩
    | lk k l =>
      rcases hi.waits hc with h | ⟨_, _, u, hu⟩
      · exact h
      · exact hi.held_steps 3 l u (by omega) hu

/-! ## No run is endless -/

/-- How far a thread is in a lock function. -/
def phase : Lock.PC → Nat
  | .rest _ => 0
  | .critW => 0
  | .wantW => 1
  | .wantR _ => 1
  | .r1 _ => 2
  | .r2 _ => 3
  | .r3 _ => 4
  | .u0 _ => 1
  | .u1 _ => 2
  | .u2 _ => 3

/-- How many steps a thread has left at most. -/
def left (S : Sys n) (t : Fin n) : Nat :=
  5 * (S.todo t).length -
    match S.todo t with
    | .lk _ l :: _ => phase ((S.lk l).pc t)
    | _ => 0

theorem attempt_phase {k : Kind} {s s' : Lock.State n} {t : Fin n} (h : attempt k s t = some s')
    (hs : settled (s'.pc t) = false) : phase (s.pc t) < phase (s'.pc t) := by
  unfold attempt at h
  split at h <;> rename_i he
  all_goals first
    | (cases h; done)
    | (rw [he]; cases h; rw [goto_self]; simp [phase]; done)
    | (cases h; rw [goto_self] at hs; simp [settled] at hs; done)
    | (rw [he]; cases h; rw [goto_self]; split <;> simp [phase]; done)
    | (rw [he]; split at h <;> first
        | (cases h; done)
        | (cases h; rw [goto_self]; simp [phase]; done)
        | (cases h; rw [goto_self] at hs; simp [settled] at hs; done))

theorem phase_le (p : Lock.PC) : phase p ≤ 4 := by cases p <;> simp [phase]

theorem left_other {S S' : Sys n} {t u : Fin n} (h : S.step t = some S') (hu : u ≠ t) :
    left S' u = left S u := by
  rcases step_cases h with ⟨x, w, as, ht, rfl⟩ | ⟨k, l, as, s, ht, ha, rfl⟩
  · simp only [left, Function.update_of_ne hu]
  · have h2 : (if settled (s.pc t) then Function.update S.todo t as else S.todo) u = S.todo u := by
      split
      · rw [Function.update_of_ne hu]
      · rfl
    have h1 : ∀ l', ((Function.update S.lk l s) l').pc u = (S.lk l').pc u := by
      intro l'
      by_cases hl : l' = l
      · subst hl; rw [Function.update_self]; exact attempt_other ha hu
      · rw [Function.update_of_ne hl]
    simp only [left, h2, h1]

theorem left_self {S S' : Sys n} {t : Fin n} (h : S.step t = some S') : left S' t < left S t := by
  rcases step_cases h with ⟨x, w, as, ht, rfl⟩ | ⟨k, l, as, s, ht, ha, rfl⟩
  · have : left S t = 5 * (as.length + 1) := by
      unfold left; rw [ht]; cases w <;> simp
    rw [this]
    simp only [left, Function.update_self]
    omega
  · have h0 : left S t = 5 * (as.length + 1) - phase ((S.lk l).pc t) := by
      unfold left; rw [ht]; simp
    have hle := phase_le ((S.lk l).pc t)
    cases hs : settled (s.pc t) with
    | true =>
      rw [h0]
      simp only [left, if_true, Function.update_self]
      omega
    | false =>
      have hlt := attempt_phase ha hs
      have hle' := phase_le (s.pc t)
      have h1 : left ({ lk := Function.update S.lk l s, todo := S.todo } : Sys n) t
          = 5 * (as.length + 1) - phase (s.pc t) := by
        unfold left; simp only [ht, List.length_cons, Function.update_self]
      simp only [Bool.false_eq_true, if_false]
      rw [h0, h1]; omega

theorem sum_lt {f g : Fin n → Nat} {t : Fin n} (ht : f t < g t) (ho : ∀ u, u ≠ t → f u = g u) :
    ∑ u, f u < ∑ u, g u := by
  rw [← Finset.add_sum_erase Finset.univ f (Finset.mem_univ t),
      ← Finset.add_sum_erase Finset.univ g (Finset.mem_univ t)]
  have : ∑ x ∈ Finset.univ.erase t, f x = ∑ x ∈ Finset.univ.erase t, g x :=
    Finset.sum_congr rfl fun x hx => ho x (Finset.ne_of_mem_erase hx)
  omega

theorem run_length (ts : List (Fin n)) :
    ∀ {S S' : Sys n}, S.run ts = some S' → ts.length + ∑ t, left S' t ≤ ∑ t, left S t := by
  induction ts with
  | nil => intro S S' h; cases h; simp
  | cons t ts ih =>
    intro S S' h
    simp only [Sys.run] at h
    cases hs : S.step t with
    | none => rw [hs] at h; cases h
    | some T =>
      rw [hs] at h
      have h1 := ih (S := T) h
      have h2 := sum_lt (f := left T) (g := left S) (left_self hs) fun u hu => left_other hs hu
      simp only [List.length_cons]; omega

theorem run_append (ts us : List (Fin n)) {S T : Sys n} (h : S.run ts = some T) :
    S.run (ts ++ us) = T.run us := by
  induction ts generalizing S with
  | nil => cases h; rfl
  | cons t ts ih =>
    simp only [Sys.run, List.cons_append] at h ⊢
    cases hs : S.step t with
    | none => rw [hs] at h; cases h
    | some U => rw [hs] at h; simpa using ih h

theorem TInv.completes {ok : Held → Loc → Bool → Prop} :
    ∀ (m : Nat) {S : Sys n}, TInv ok S → ∑ t, left S t ≤ m →
      ∃ us S', S.run us = some S' ∧ ∀ t, S'.Returned t := by
  intro m
  induction m with
  | zero =>
    intro S hi hm
    refine ⟨[], S, rfl, fun t => ?_⟩
    apply Classical.byContradiction
    intro ht
    obtain ⟨u, S', hu⟩ := hi.progress ht
    have := sum_lt (f := left S') (g := left S) (left_self hu) fun v hv => left_other hu hv
    omega
  | succ m ih =>
    intro S hi hm
    by_cases hall : ∀ t, S.Returned t
    · exact ⟨[], S, rfl, hall⟩
    · obtain ⟨t, ht⟩ := Classical.not_forall.1 hall
      obtain ⟨u, T, hu⟩ := hi.progress ht
      have := sum_lt (f := left T) (g := left S) (left_self hu) fun v hv => left_other hu hv
      obtain ⟨us, S', hr, hS⟩ := ih (hi.step hu) (by omega)
      exact ⟨u :: us, S', by simp only [Sys.run, hu]; exact hr, hS⟩

/-- C87.  Whatever calls `n` threads make, and however their steps interleave:
no run is endless; a run can go on as long as a call has not returned, and can be
completed; and when all calls have returned every lock is free. -/
theorem c87_every_call_returns {S S' : Sys n} {cs : Fin n → List Api} (hb : S.Begins cs)
    {ts : List (Fin n)} (h : S.run ts = some S') :
    ts.length ≤ ∑ t, 5 * (S.todo t).length ∧
    (∀ t, ¬ S'.Returned t → ∃ u S'', S'.step u = some S'') ∧
    (∃ us S'', S'.run us = some S'' ∧ ∀ t, S''.Returned t) ∧
    ((∀ t, S'.Returned t) → ∀ l t, Lock.Outside (S'.lk l) t) := by
  have hi : TInv (fun _ _ _ => True) S := hb.inv fun t c _ f _ => keeps_order f
  have hi' := hi.run ts h
  refine ⟨?_, fun t ht => hi'.progress ht, hi'.completes _ (Nat.le_refl _), fun hall l t => ?_⟩
  · have h1 := run_length ts h
    have h2 : ∑ t, left S t = ∑ t, 5 * (S.todo t).length :=
      Finset.sum_congr rfl fun t _ => by
        unfold left
        simp only [hb.free]
        split <;> simp [Lock.init, phase]
    omega
  · have hf := hi'.fol t
    have hr : S'.todo t = [] := hall t
    rw [hr] at hf
    have hg : (S'.held t).get l = .ro 0 := by
      have : S'.held t = Held.none := hf
      rw [this]; cases l <;> rfl
    rw [held_get] at hg
    rcases hi'.mid t l with hs | ⟨k, as, hk, _⟩
    · unfold Lock.Outside
      revert hs hg; cases (S'.lk l).pc t <;> simp [settled, holdOf]
    · rw [hr] at hk; cases hk

end Verif.Threads
