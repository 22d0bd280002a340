import Verif.Spec.Lock

/-! # Inductive invariant of the read/write lock -/

namespace Verif.Lock

variable {n : Nat}

/-- How much a thread contributes to `cnt`. -/
def units : PC → Nat
  | .rest d => d
  | .wantW => 0
  | .critW => 0
  | .wantR d => d
  | .r1 d => d
  | .r2 d => d + 1
  | .r3 d => d + 1
  | .u0 d => d + 1
  | .u1 d => d + 1
  | .u2 d => d

/-- Whether the thread holds the `read` mutex. -/
def inRead : PC → Bool
  | .r1 _ => true
  | .r2 _ => true
  | .r3 _ => true
  | .u1 _ => true
  | .u2 _ => true
  | _ => false

def isR2 : PC → Bool
  | .r2 _ => true
  | _ => false

def isCritW : PC → Bool
  | .critW => true
  | _ => false

def total (f : Fin n → PC) : Nat := ∑ t, units (f t)

theorem total_update (f : Fin n → PC) (t : Fin n) (p : PC) :
    total (Function.update f t p) + units (f t) = total f + units p := by
  unfold total
  rw [← Finset.add_sum_erase Finset.univ _ (Finset.mem_univ t),
      ← Finset.add_sum_erase Finset.univ (fun t => units (f t)) (Finset.mem_univ t)]
  have : ∑ x ∈ Finset.univ.erase t, units (Function.update f t p x)
      = ∑ x ∈ Finset.univ.erase t, units (f x) := by
    apply Finset.sum_congr rfl
    intro x hx
    rw [Function.update_of_ne (Finset.ne_of_mem_erase hx)]
  rw [this, Function.update_self]
  omega

theorem units_le_total (f : Fin n → PC) (t : Fin n) : units (f t) ≤ total f := by
  unfold total
  rw [← Finset.add_sum_erase Finset.univ _ (Finset.mem_univ t)]
  omega

theorem units_add_le_total (f : Fin n → PC) {t t' : Fin n} (h : t ≠ t') :
    units (f t) + units (f t') ≤ total f := by
  unfold total
  rw [← Finset.add_sum_erase Finset.univ _ (Finset.mem_univ t),
      ← Finset.add_sum_erase _ _ (Finset.mem_erase.2 ⟨h.symm, Finset.mem_univ t'⟩)]
  omega

theorem exists_units_pos (f : Fin n → PC) (h : 0 < total f) : ∃ t, 0 < units (f t) := by
  by_contra hc
  have : total f = 0 := by
    unfold total
    apply Finset.sum_eq_zero
    intro t _
    have : ¬ 0 < units (f t) := fun h => hc ⟨t, h⟩
    omega
  omega

structure Inv (s : State n) : Prop where
  cntEq : s.cnt = total s.pc
  own : ∀ t, s.readOwner = some t ↔ inRead (s.pc t) = true
  r2one : ∀ t, isR2 (s.pc t) = true → s.cnt = 1
  held : s.writeHeld = true ↔
    ((∃ t, isCritW (s.pc t) = true) ∨ (1 ≤ s.cnt ∧ ∀ t, isR2 (s.pc t) = false))
  uniq : ∀ t t', isCritW (s.pc t) = true → isCritW (s.pc t') = true → t = t'
  excl : ∀ t, isCritW (s.pc t) = true → s.cnt = 0 ∨ ∃ t', isR2 (s.pc t') = true

theorem inv_init : Inv (init n) := by
  constructor <;> simp [init, total, units, inRead, isR2, isCritW]

theorem inv_step {s s' : State n} {t : Fin n} (hi : Inv s) (hs : Step s t s') : Inv s' := by
  obtain ⟨hcnt, hown, hr2, hheld, huniq, hexcl⟩ := hi
  have hle := units_le_total s.pc
  have hle2 := @units_add_le_total n s.pc
  have hup : ∀ p x, Function.update s.pc t p x = if x = t then p else s.pc x :=
    fun p x => Function.update_apply ..
  have htot := total_update s.pc t
  have hr2in : ∀ x, isR2 (s.pc x) = true → inRead (s.pc x) = true := by
    intro x; cases s.pc x <;> simp [isR2, inRead]
  have hone : ∀ x y, inRead (s.pc x) = true → inRead (s.pc y) = true → x = y := by
    intro x y hx hy
    have := (hown x).2 hx; have := (hown y).2 hy; simp_all
  cases hs
  case callW h =>
    specialize htot .wantW
    constructor <;> simp only [State.goto, hup] <;> grind [units, inRead, isR2, isCritW]
  case lockW h hw =>
    specialize htot .critW
    constructor <;> simp only [State.goto, hup] <;> grind [units, inRead, isR2, isCritW]
  case unlockW h =>
    specialize htot (.rest 0)
    constructor <;> simp only [State.goto, hup] <;> grind [units, inRead, isR2, isCritW]
  case callR d h =>
    specialize htot (.wantR d)
    constructor <;> simp only [State.goto, hup] <;> grind [units, inRead, isR2, isCritW]
  case lockRead d h hr =>
    specialize htot (.r1 d)
    constructor <;> simp only [State.goto, hup] <;> grind [units, inRead, isR2, isCritW]
  case incFirst d h hc =>
    specialize htot (.r2 d)
    constructor <;> simp only [State.goto, hup] <;> grind [units, inRead, isR2, isCritW]
  case incMore d h hc =>
    specialize htot (.r3 d)
    constructor <;> simp only [State.goto, hup] <;> grind [units, inRead, isR2, isCritW]
  case firstLocksWrite d h hw =>
    specialize htot (.r3 d)
    constructor <;> simp only [State.goto, hup] <;> grind [units, inRead, isR2, isCritW]
  case unlockRead d h =>
    specialize htot (.rest (d+1))
    constructor <;> simp only [State.goto, hup] <;> grind [units, inRead, isR2, isCritW]
  case callU d h =>
    specialize htot (.u0 d)
    constructor <;> simp only [State.goto, hup] <;> grind [units, inRead, isR2, isCritW]
  case uLockRead d h hr =>
    specialize htot (.u1 d)
    constructor <;> simp only [State.goto, hup] <;> grind [units, inRead, isR2, isCritW]
  case decLast d h hc =>
    specialize htot (.u2 d)
    constructor <;> simp only [State.goto, hup] <;> grind [units, inRead, isR2, isCritW]
  case decMore d h hc =>
    specialize htot (.u2 d)
    constructor <;> simp only [State.goto, hup] <;> grind [units, inRead, isR2, isCritW]
  case uUnlockRead d h =>
    specialize htot (.rest d)
    constructor <;> simp only [State.goto, hup] <;> grind [units, inRead, isR2, isCritW]

theorem inv_reachable {s : State n} (h : Reachable s) : Inv s := by
  induction h with
  | init => exact inv_init
  | step _ hs ih => exact inv_step ih hs

end Verif.Lock
