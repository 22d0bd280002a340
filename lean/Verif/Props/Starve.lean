import Verif.Proofs.Starve
import Verif.Props.Races

/-!
# Waiting for the read/write lock (C122)

A reader and a thread that gives the lock back always get on; a writer may wait for
ever while readers come and go.
-/

namespace Verif.Lock

variable {n : Nat}

/-- C122, for readers: a thread that asks for read access gets it. -/
theorem c122_reader (x : Exec n) (hf : x.Fair) {t : Fin n} {d i : Nat}
    (hw : (x.st i).pc t = .wantR d) : ∃ j, i ≤ j ∧ (x.st j).pc t = .rest (d + 1) := by
  obtain ⟨j, hj, hpj, hs⟩ := x.leave hf hw (fun s h => pend (by simp [h]))
    (fun hst k hk => by
      obtain ⟨j, hj, ho⟩ := x.read_freed hf k
      exact ⟨j, hj, _, Step.lockRead _ t d (hst j (by omega)) ho⟩)
  have : (x.st (j + 1)).pc t = .r1 d := by
    generalize x.st (j + 1) = s' at hs
    cases hs <;> simp_all [State.goto]
  obtain ⟨k, hk, h, _⟩ := x.from_r1 hf this
  exact ⟨k, by omega, h⟩

/-- C122, for readers: a thread that gives read access back gets rid of it. -/
theorem c122_give_back (x : Exec n) (hf : x.Fair) {t : Fin n} {d i : Nat}
    (hw : (x.st i).pc t = .u0 d) : ∃ j, i ≤ j ∧ (x.st j).pc t = .rest d := by
  obtain ⟨j, hj, hpj, hs⟩ := x.leave hf hw (fun s h => pend (by simp [h]))
    (fun hst k hk => by
      obtain ⟨j, hj, ho⟩ := x.read_freed hf k
      exact ⟨j, hj, _, Step.uLockRead _ t d (hst j (by omega)) ho⟩)
  have : (x.st (j + 1)).pc t = .u1 d := by
    generalize x.st (j + 1) = s' at hs
    cases hs <;> simp_all [State.goto]
  obtain ⟨k, hk, h, _⟩ := x.from_u1 hf this
  exact ⟨k, by omega, h⟩

/-- C122, for writers, in part: a thread that asks for write access gets it if again
and again there is a moment in which nobody reads.  Missing: the moment comes only if
the readers leave one, see `c122_writer_violated`. -/
theorem c122_writer_partial (x : Exec n) (hf : x.Fair) (hq : ∀ i, ∃ j, i ≤ j ∧ Quiet (x.st j))
    {t : Fin n} {i : Nat} (hw : (x.st i).pc t = .wantW) : ∃ j, i ≤ j ∧ Writing (x.st j) t := by
  obtain ⟨j, hj, hpj, hs⟩ := x.leave hf hw (fun s h => pend (by simp [h]))
    (fun hst k hk => by
      obtain ⟨m, hm, hqm⟩ := hq k
      obtain ⟨j, hj, hfree⟩ := x.write_freed hf (k := m) (fun hheld => by
        have h0 := quiet_cnt (x.inv m) hqm
        rcases (x.inv m).held.1 hheld with h | ⟨h, _⟩
        · exact h
        · omega)
      exact ⟨j, by omega, _, Step.lockW _ t (hst j (by omega)) hfree⟩)
  refine ⟨j + 1, by omega, ?_⟩
  unfold Writing
  generalize x.st (j + 1) = s' at hs
  cases hs <;> simp_all [State.goto]

/-! ## A writer that waits for ever -/

namespace Demo

open Threads (Kind attempt attempt_step)

instance {n : Nat} : DecidableEq (State n) := fun a b =>
  decidable_of_iff (a.readOwner = b.readOwner ∧ a.writeHeld = b.writeHeld ∧ a.cnt = b.cnt ∧
    a.pc = b.pc) (by cases a; cases b; simp)

/-- The first reader gets in, then the writer asks. -/
def prelude : List (Kind × Fin 3) :=
  [(.lockRO, 1), (.lockRO, 1), (.lockRO, 1), (.lockRO, 1), (.lockRO, 1), (.lockRW, 0)]

/-- The second reader gets in, the first leaves, the first gets in, the second
leaves. -/
def round : List (Kind × Fin 3) :=
  List.replicate 4 (.lockRO, 2) ++ List.replicate 4 (.unlockRO, 1) ++
  List.replicate 4 (.lockRO, 1) ++ List.replicate 4 (.unlockRO, 2)

/-- Whose turn it is at time `i`, and in which lock function that thread is. -/
def turn (i : Nat) : Kind × Fin 3 :=
  if i < 6 then prelude.getD i (.lockRO, 1) else round.getD ((i - 6) % 16) (.lockRO, 1)

def at_ : Nat → State 3
  | 0 => init 3
  | i + 1 => (attempt (turn i).1 (at_ i) (turn i).2).getD (at_ i)

theorem turn_period (i : Nat) (h : 6 ≤ i) : turn (i + 16) = turn i := by
  unfold turn
  rw [if_neg (by omega), if_neg (by omega), show i + 16 - 6 = (i - 6) + 16 by omega,
    Nat.add_mod_right]

set_option maxRecDepth 20000 in
theorem at_first : at_ 22 = at_ 6 := by decide +kernel

theorem at_succ (i : Nat) :
    at_ (i + 1) = (attempt (turn i).1 (at_ i) (turn i).2).getD (at_ i) := rfl

theorem at_period (i : Nat) : at_ (i + 6 + 16) = at_ (i + 6) := by
  induction i with
  | zero => exact at_first
  | succ i ih =>
    rw [show i + 1 + 6 + 16 = (i + 6 + 16) + 1 by omega, show i + 1 + 6 = (i + 6) + 1 by omega,
      at_succ (i + 6 + 16), at_succ (i + 6), turn_period (i + 6) (by omega), ih]

/-- What is checked at each time of one round, for ever. -/
def Good (i : Nat) : Prop :=
  (attempt (turn i).1 (at_ i) (turn i).2).isSome = true ∧
  (6 ≤ i → (at_ i).pc 0 = .wantW ∧ (at_ i).writeHeld = true)

instance (i : Nat) : Decidable (Good i) := by unfold Good; exact inferInstance

set_option maxRecDepth 20000 in
theorem good_first : ∀ i, i < 22 → Good i := by decide +kernel

theorem good (i : Nat) : Good i := by
  induction i using Nat.strongRecOn with
  | ind i ih =>
    by_cases h : i < 22
    · exact good_first i h
    · obtain ⟨k, rfl⟩ : ∃ k, i = k + 6 + 16 := ⟨i - 22, by omega⟩
      obtain ⟨h1, h2⟩ := ih (k + 6) (by omega)
      unfold Good
      rw [at_period, turn_period (k + 6) (by omega)]
      exact ⟨h1, fun _ => h2 (by omega)⟩

/-- Two readers that come and go, and a writer. -/
def starving : Exec 3 where
  st := at_
  who := fun i => some (turn i).2
  start := rfl
  pause := fun i h => nomatch h
  next := fun i t h => by
    cases h
    have hg := (good i).1
    have : attempt (turn i).1 (at_ i) (turn i).2 = some (at_ (i + 1)) := by
      cases ha : attempt (turn i).1 (at_ i) (turn i).2 with
      | none => rw [ha] at hg; cases hg
      | some s => simp [at_, ha]
    exact attempt_step this

/-- What holds at a time of the round holds again and again. -/
theorem again {P : State 3 → Kind × Fin 3 → Prop} (k : Nat) (hk : P (at_ (k + 6)) (turn (k + 6))) (i : Nat) :
    ∃ j, i ≤ j ∧ P (at_ j) (turn j) := by
  have h : ∀ m, P (at_ (k + 16 * m + 6)) (turn (k + 16 * m + 6)) := by
    intro m
    induction m with
    | zero => exact hk
    | succ m ih =>
      rw [show k + 16 * (m + 1) + 6 = k + 16 * m + 6 + 16 by omega, at_period,
        turn_period _ (by omega)]
      exact ih
  exact ⟨_, by omega, h i⟩

theorem stuck {s : State 3} (h0 : s.pc 0 = .wantW) (hw : s.writeHeld = true) : ¬ Able s 0 := by
  rintro ⟨s', h⟩
  cases h <;> simp_all

theorem starving_fair : starving.Fair := by
  intro t ht i
  match t with
  | 0 =>
    obtain ⟨j, hj, _, hab⟩ := ht 6
    obtain ⟨h0, hw⟩ := (good j).2 hj
    exact absurd hab (stuck h0 hw)
  | 1 =>
    obtain ⟨j, hj, h⟩ := again (P := fun _ p => p.2 = 1) 4 (by decide) i
    exact ⟨j, hj, congrArg some h⟩
  | 2 =>
    obtain ⟨j, hj, h⟩ := again (P := fun _ p => p.2 = 2) 0 (by decide) i
    exact ⟨j, hj, congrArg some h⟩

end Demo

/-- The code violates C122 for writers: an execution, fair, in which one thread waits
for write access for ever although each of the other two gets read access and gives it
back again and again. -/
theorem c122_writer_violated : ∃ x : Exec 3, x.Fair ∧
    (∀ i, 6 ≤ i → (x.st i).pc 0 = .wantW) ∧
    ∀ t, t ≠ 0 → ∀ i, (∃ j, i ≤ j ∧ Reading (x.st j) t) ∧ (∃ j, i ≤ j ∧ Outside (x.st j) t) := by
  refine ⟨Demo.starving, Demo.starving_fair, fun i hi => ((Demo.good i).2 hi).1, ?_⟩
  intro t ht i
  match t with
  | 0 => exact absurd rfl ht
  | 1 =>
    refine ⟨Demo.again (P := fun s _ => Reading s 1) 0 ⟨0, .inl ?_⟩ i,
      Demo.again (P := fun s _ => Outside s 1) 8 ?_ i⟩
    · decide +kernel
    · unfold Outside; decide +kernel
  | 2 =>
    refine ⟨Demo.again (P := fun s _ => Reading s 2) 4 ⟨0, .inl ?_⟩ i,
      Demo.again (P := fun s _ => Outside s 2) 0 ?_ i⟩
    · decide +kernel
    · unfold Outside; decide +kernel

/-- Non-vacuity of `c122_reader` and `c122_give_back`: a fair execution with a thread
that asks for read access and one that gives it back. -/
example : ∃ (x : Exec 3) (i : Nat) (j : Nat), x.Fair ∧ (x.st i).pc 2 = .wantR 0 ∧
    (x.st j).pc 1 = .u0 0 :=
  ⟨Demo.starving, 7, 11, Demo.starving_fair, by decide +kernel, by decide +kernel⟩

/-- One thread asks for write access, gets it and gives it back; then nobody comes. -/
def Demo.single : Exec 1 where
  st := fun i => match i with
    | 0 => init 1
    | 1 => (init 1).goto 0 .wantW
    | 2 => ({ (init 1).goto 0 .wantW with writeHeld := true } : State 1).goto 0 .critW
    | _ + 3 => init 1
  who := fun i => if i < 3 then some 0 else none
  start := rfl
  pause := fun i h => by
    match i with
    | 0 | 1 | 2 => cases h
    | i + 3 => rfl
  next := fun i t h => by
    match i with
    | 0 => cases h; exact Step.callW _ 0 rfl
    | 1 => cases h; exact Step.lockW _ 0 rfl rfl
    | 2 =>
      cases h
      have := Step.unlockW (({ (init 1).goto 0 .wantW with writeHeld := true } : State 1).goto 0 .critW)
        0 rfl
      have he : (init 1 : State 1) = ({ ({ (init 1).goto 0 .wantW with writeHeld := true } :
          State 1).goto 0 .critW with writeHeld := false } : State 1).goto 0 (.rest 0) := by
        decide
      rw [← he] at this
      exact this
    | i + 3 => simp at h; omega

/-- Non-vacuity of `c122_writer_partial`. -/
example : Demo.single.Fair ∧ (∀ i, ∃ j, i ≤ j ∧ Quiet (Demo.single.st j)) ∧
    (Demo.single.st 1).pc 0 = .wantW := by
  refine ⟨fun t ht => ?_, fun i => ⟨i + 3, by omega, fun t => .inl rfl⟩, rfl⟩
  obtain ⟨j, hj, hb, _⟩ := ht 3
  match j with
  | j + 3 =>
    rcases hb with hb | hb
    · exact absurd rfl hb.1
    · cases hb

#print axioms c122_reader
#print axioms c122_give_back
#print axioms c122_writer_partial
#print axioms c122_writer_violated

end Verif.Lock

namespace Verif.Threads

/-! ## The same with calls of the interface -/

/-- The threads have more to do afterwards. -/
def Sys.more {n : Nat} (S : Sys n) (f : Fin n → List Act) : Sys n :=
  { S with todo := fun t => S.todo t ++ f t }

theorem Sys.step_more {n : Nat} {S S' : Sys n} {t : Fin n} (f : Fin n → List Act)
    (h : S.step t = some S') : (S.more f).step t = some (S'.more f) := by
  have hu : ∀ (as : List Act), Function.update (fun t => S.todo t ++ f t) t (as ++ f t) =
      fun u => (Function.update S.todo t as) u ++ f u := by
    intro as; funext u
    by_cases hu : u = t
    · subst hu; simp
    · simp [hu]
  rcases step_cases h with ⟨x, w, as, ht, rfl⟩ | ⟨k, l, as, s, ht, ha, rfl⟩
  · cases w <;> simp [Sys.step, Sys.more, ht, hu]
  · simp only [Sys.step, Sys.more, ht, List.cons_append, ha, Option.map_some, hu]
    split <;> rfl

theorem Sys.run_more {n : Nat} (f : Fin n → List Act) : ∀ (ts : List (Fin n)) {S S' : Sys n},
    S.run ts = some S' → (S.more f).run ts = some (S'.more f)
  | [], S, S', h => by cases h; rfl
  | t :: ts, S, S', h => by
    simp only [Sys.run] at h ⊢
    cases hs : S.step t with
    | none => rw [hs] at h; cases h
    | some S1 =>
      rw [hs] at h
      rw [Sys.step_more f hs]
      exact Sys.run_more f ts h

theorem Sys.run_append {n : Nat} : ∀ (ts us : List (Fin n)) {S S' : Sys n},
    S.run ts = some S' → S.run (ts ++ us) = S'.run us
  | [], us, S, S', h => by cases h; rfl
  | t :: ts, us, S, S', h => by
    simp only [Sys.run, List.cons_append] at h ⊢
    cases hs : S.step t with
    | none => rw [hs] at h; cases h
    | some S1 =>
      rw [hs] at h
      exact Sys.run_append ts us h

namespace Demo

instance {n : Nat} : DecidableEq (Sys n) := fun a b =>
  decidable_of_iff ((a.lk .glob = b.lk .glob ∧ a.lk .slot = b.lk .slot ∧
      a.lk .token = b.lk .token ∧ a.lk .rng = b.lk .rng) ∧ a.todo = b.todo) (by
    cases a; cases b
    simp only [Sys.mk.injEq, and_congr_left_iff]
    intro _
    constructor
    · rintro ⟨h1, h2, h3, h4⟩; funext l; cases l <;> assumption
    · rintro rfl; exact ⟨rfl, rfl, rfl, rfl⟩)

/-- `C_GetSessionInfo` (src/slot.c:787-827): the functions in the order of the code. -/
def info : List Act := callTrace (start ++ [(Fn.getState, [1])])

/-- Thread 0 logs out, thread 1 calls `C_GetSessionInfo`. -/
def begun : Sys 3 :=
  { lk := fun _ => Lock.init 3,
    todo := fun t => match t with | 0 => callTrace Demo.logout | 1 => info | 2 => [] }

/-- Thread 1 gets into its last section, then thread 0 comes to the lock. -/
def first : List (Fin 3) := List.replicate 26 1 ++ List.replicate 19 0

/-- What is left then. -/
def waiting : Sys 3 := (begun.run first).getD begun

/-- Thread 2 gets into the last section of its call, thread 1 ends its call and gets into
the last section of the next one, thread 2 ends its call. -/
def lap : List (Fin 3) := List.replicate 24 2 ++ List.replicate 28 1 ++ List.replicate 4 2

def laps : Nat → List (Fin 3)
  | 0 => []
  | k + 1 => lap ++ laps k

/-- `k` calls of `C_GetSessionInfo`, of threads 1 and 2. -/
def infos (k : Nat) : Fin 3 → List Act
  | 0 => []
  | 1 => (List.replicate k info).flatten
  | 2 => (List.replicate k info).flatten

set_option maxRecDepth 40000 in
theorem first_run : begun.run first = some waiting := by decide +kernel

set_option maxRecDepth 40000 in
theorem lap_run : (waiting.more (infos 1)).run lap = some waiting := by decide +kernel

theorem laps_run : ∀ k, (waiting.more (infos k)).run (laps k) = some waiting
  | 0 => by
    have : waiting.more (infos 0) = waiting := by decide +kernel
    rw [this]; rfl
  | k + 1 => by
    have hm : waiting.more (infos (k + 1)) = (waiting.more (infos 1)).more (infos k) := by
      unfold Sys.more
      congr 1
      funext t
      match t with
      | 0 => simp [infos]
      | 1 => simp [infos, List.replicate_succ]
      | 2 => simp [infos, List.replicate_succ]
    rw [hm, laps, Sys.run_append _ _ (Sys.run_more (infos k) _ lap_run)]
    exact laps_run k

theorem info_runs : Api.Runs .cGetSessionInfo info := callTrace_runs _ _ (by decide)

theorem infos_calls : ∀ k, Calls (List.replicate k .cGetSessionInfo) (List.replicate k info).flatten
  | 0 => .nil
  | k + 1 => by
    rw [List.replicate_succ, List.replicate_succ, List.flatten_cons]
    exact .cons info_runs (infos_calls k)

end Demo

/-- The same at the interface: for every `k`, thread 0 calls `C_Logout`, comes to the
lock of the slot and waits there, while the other threads make `k` further calls of
`C_GetSessionInfo` each, which all return. -/
theorem c122_overtaken_violated (k : Nat) : ∃ (S S₁ S₂ : Sys 3) (ts us : List (Fin 3)),
    S.Begins (fun t => match t with
      | 0 => [.cLogout]
      | 1 => List.replicate (k + 1) .cGetSessionInfo
      | 2 => List.replicate k .cGetSessionInfo) ∧
    S.run ts = some S₁ ∧ S₁.run us = some S₂ ∧
    -- thread 0 waits for write access, before and after
    (S₁.lk .slot).pc 0 = .wantW ∧ (S₂.lk .slot).pc 0 = .wantW ∧ (0 : Fin 3) ∉ us ∧
    -- thread 2 has not begun, thread 1 is in its first call
    S₁.todo 2 = S.todo 2 ∧ (∃ as, Calls (List.replicate k .cGetSessionInfo) as ∧
      ∃ bs, bs ≠ [] ∧ S₁.todo 1 = bs ++ as) ∧
    -- afterwards all calls of thread 2 have returned, and all but the last of thread 1
    S₂.Returned 2 ∧ S₂.todo 1 = [.lk .unlockRO .slot] := by
  refine ⟨Demo.begun.more (Demo.infos k), Demo.waiting.more (Demo.infos k), Demo.waiting,
    Demo.first, Demo.laps k, ⟨fun _ => rfl, fun t => ?_⟩, Sys.run_more _ _ Demo.first_run,
    Demo.laps_run k, ?_, ?_, ?_, ?_, ⟨_, Demo.infos_calls k, _, ?_, rfl⟩, ?_, ?_⟩
  · match t with
    | 0 =>
      have := Calls.cons (callTrace_runs .cLogout Demo.logout (by decide)) .nil
      simpa [Sys.more, Demo.begun, Demo.infos] using this
    | 1 => exact .cons Demo.info_runs (Demo.infos_calls k)
    | 2 => exact Demo.infos_calls k
  · show (Demo.waiting.lk .slot).pc 0 = _; decide +kernel
  · decide +kernel
  · induction k with
    | zero => simp [Demo.laps]
    | succ k ih =>
      rw [Demo.laps, List.mem_append, not_or]
      exact ⟨by decide, ih⟩
  · show Demo.waiting.todo 2 ++ _ = Demo.begun.todo 2 ++ _
    have : Demo.waiting.todo 2 = Demo.begun.todo 2 := by decide +kernel
    rw [this]
  · show Demo.waiting.todo 1 ≠ []; decide +kernel
  · show Demo.waiting.todo 2 = []; decide +kernel
  · decide +kernel

#print axioms c122_overtaken_violated

end Verif.Threads
