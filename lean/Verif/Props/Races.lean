import Verif.Props.Threads
import Verif.Proofs.Races

/-!
# Data races (C88)
-/

namespace Verif.Threads

variable {n : Nat}

/-- C88, the part that holds: data `x` is never accessed by two threads at once, one of
them writing, as long as no thread makes one of the calls `unguarded x`.  For the random
generator that is no restriction. -/
theorem c88_partial (x : Loc) {S S' : Sys n} {cs : Fin n → List Api} (hb : S.Begins cs)
    (hc : ∀ t, ∀ c ∈ cs t, c ∉ unguarded x) {ts : List (Fin n)} (h : S.run ts = some S') :
    ¬ S'.Race x := by
  have hi : TInv (onlyGuarded x) S :=
    hb.inv fun t c hm f hf => keeps_guarded x f (uses_guarded x c (hc t c hm) f hf)
  have hi' := hi.run ts h
  rintro ⟨t, u, w, hne, ⟨as, ht⟩, hu⟩
  have h1 : (S'.held t).get (guard x) = .rw := by
    have := hi'.fol t; rw [ht] at this; exact this.1 rfl
  have h2 : (S'.held u).get (guard x) ≠ .ro 0 := by
    cases w with
    | false =>
      obtain ⟨bs, hu⟩ := hu
      have := hi'.fol u; rw [hu] at this; exact this.1 rfl
    | true =>
      obtain ⟨bs, hu⟩ := hu
      have := hi'.fol u; rw [hu] at this
      have h3 : (S'.held u).get (guard x) = .rw := this.1 rfl
      rw [h3]; simp
  rw [held_get] at h1 h2
  -- neither thread is inside a lock function
  have hs : ∀ v a, (∃ as, S'.todo v = a :: as) → (∀ k l, a ≠ .lk k l) →
      settled ((S'.lk (guard x)).pc v) = true := by
    intro v a ⟨as, hv⟩ ha
    rcases hi'.mid v (guard x) with hs | ⟨k, bs, hk, _⟩
    · exact hs
    · rw [hv] at hk; cases hk; exact absurd rfl (ha k _)
  have hst := hs t (.write x) ⟨as, ht⟩ (by intro k l; simp)
  have hsu : settled ((S'.lk (guard x)).pc u) = true := by
    cases w with
    | false => exact hs u (.read x) hu (by intro k l; simp)
    | true => exact hs u (.write x) hu (by intro k l; simp)
  have hl := hi'.lock (guard x)
  have ht' : Lock.isCritW ((S'.lk (guard x)).pc t) = true := by
    revert h1 hst; cases (S'.lk (guard x)).pc t <;> simp [holdOf, settled, Lock.isCritW]
  cases hp : (S'.lk (guard x)).pc u <;> rw [hp] at hsu h2 <;> simp [settled] at hsu
  · rename_i d
    have hd : d ≠ 0 := by intro e; subst e; exact h2 rfl
    have hu1 := Lock.units_le_total (S'.lk (guard x)).pc u
    rw [hp] at hu1; simp only [Lock.units] at hu1
    have hcnt := hl.cntEq
    rcases hl.excl t ht' with h0 | ⟨y, hy⟩
    · omega
    · have h1 := hl.r2one y hy
      have hny : u ≠ y := by intro e; subst e; rw [hp] at hy; simp [Lock.isR2] at hy
      have h2 := Lock.units_add_le_total (S'.lk (guard x)).pc hny
      have h3 : 0 < Lock.units ((S'.lk (guard x)).pc y) := by
        revert hy; cases (S'.lk (guard x)).pc y <;> simp [Lock.isR2, Lock.units]
      have h4 : Lock.units ((S'.lk (guard x)).pc u) = d := by rw [hp]; rfl
      omega
  · exact hne (hl.uniq t u ht' (by rw [hp]; rfl))

/-! ## Concrete runs -/

/-- One way through a program: `cs` says which branch to take (0 the left one), how often
to run a loop and which object to use; 0 where it is used up. -/
def Prog.take : Prog → List Nat → List Act × List Nat
  | .skip, cs => ([], cs)
  | .act a, cs => ([a], cs)
  | .seq p q, cs =>
      let r := p.take cs
      let r' := q.take r.2
      (r.1 ++ r'.1, r'.2)
  | .alt p q, cs => if cs.headD 0 = 0 then p.take cs.tail else q.take cs.tail
  | .star p, cs => Nat.rec ([], cs.tail)
      (fun _ r => let r' := p.take r.2; (r'.1 ++ r.1, r'.2)) (cs.headD 0)
  | .any f, cs => (f (cs.headD 0)).take cs.tail

theorem take_runs : ∀ (p : Prog) (cs : List Nat), p.Runs (p.take cs).1
  | .skip, _ => .skip
  | .act a, _ => .act a
  | .seq p q, cs => .seq (take_runs p cs) (take_runs q _)
  | .alt p q, cs => by
      unfold Prog.take
      split
      · exact .altLeft (take_runs p _)
      · exact .altRight (take_runs q _)
  | .star p, cs => by
      unfold Prog.take
      generalize cs.headD 0 = k
      induction k with
      | zero => exact .starNone
      | succ k ih => exact .starMore (take_runs p _) ih
  | .any f, cs => .any (take_runs (f _) _)

/-- One way through a call: the functions it calls, each with its choices. -/
def callTrace : List (Fn × List Nat) → List Act
  | [] => []
  | (f, cs) :: fs => (f.prog.take cs).1 ++ callTrace fs

theorem callTrace_runs (c : Api) : ∀ (fs : List (Fn × List Nat)), (∀ f ∈ fs, f.1 ∈ c.uses) →
    c.Runs (callTrace fs)
  | [], _ => .ret
  | (f, cs) :: fs, h =>
      .call (h (f, cs) (by simp)) (take_runs _ _)
        (callTrace_runs c fs fun g hg => h g (by simp [hg]))

/-- Two threads, each with one call. -/
def twoCalls (fs gs : List (Fn × List Nat)) : Sys 2 :=
  { lk := fun _ => Lock.init 2, todo := fun t => if t = 0 then callTrace fs else callTrace gs }

theorem twoCalls_begins {c d : Api} {fs gs : List (Fn × List Nat)}
    (hc : ∀ f ∈ fs, f.1 ∈ c.uses) (hd : ∀ f ∈ gs, f.1 ∈ d.uses) :
    (twoCalls fs gs).Begins fun t => if t = 0 then [c] else [d] := by
  refine ⟨fun _ => rfl, fun t => ?_⟩
  have one : ∀ {e : Api} {tr}, e.Runs tr → Calls [e] tr := by
    intro e tr h
    have := Calls.cons h .nil
    rwa [List.append_nil] at this
  unfold twoCalls
  by_cases ht : t = 0
  · simp only [ht, if_true]; exact one (callTrace_runs c fs hc)
  · simp only [if_neg ht]; exact one (callTrace_runs d gs hd)

/-- Thread 0 is about to write `x` and thread 1 to read or write it. -/
def races (S : Option (Sys 2)) (x : Loc) : Bool :=
  match S with
  | none => false
  | some S => decide ((S.todo 0).head? = some (.write x)) &&
      (decide ((S.todo 1).head? = some (.read x)) || decide ((S.todo 1).head? = some (.write x)))

theorem races_race {S : Sys 2} {x : Loc} {ts : List (Fin 2)} (h : races (S.run ts) x = true) :
    ∃ S', S.run ts = some S' ∧ S'.Race x := by
  cases hr : S.run ts with
  | none => rw [hr] at h; cases h
  | some S' =>
    rw [hr] at h
    simp only [races, Bool.and_eq_true, Bool.or_eq_true, decide_eq_true_eq,
      List.head?_eq_some_iff] at h
    obtain ⟨h0, h1⟩ := h
    rcases h1 with h1 | h1
    · exact ⟨S', rfl, 0, 1, false, by decide, h0, h1⟩
    · exact ⟨S', rfl, 0, 1, true, by decide, h0, h1⟩

theorem canRace {c d : Api} {x : Loc} (fs gs : List (Fn × List Nat)) (ts : List (Fin 2))
    (hc : ∀ f ∈ fs, f.1 ∈ c.uses) (hd : ∀ f ∈ gs, f.1 ∈ d.uses)
    (h : races ((twoCalls fs gs).run ts) x = true) :
    CanRace c d x :=
  ⟨_, twoCalls_begins hc hd, _, races_race h⟩

namespace Demo

/-- What every call with a session begins with. -/
def start : List (Fn × List Nat) := [(.isInitialized, [1]), (.sessionGet, [1])]
/-- `C_Login` of the user with the right PIN; the token has one object. -/
def login := start ++ [(Fn.userLogin, [1, 1, 0, 1, 1, 1, 1, 1, 1, 1, 0, 1])]
/-- `C_Logout`; the token has one object. -/
def logout := start ++ [(Fn.logout, [1, 1, 0])]
/-- `C_OpenSession`. -/
def openSession := [(Fn.isInitialized, [1]), (.openSession, [1, 1, 1])]
/-- `C_CloseAllSessions` with a session above the first. -/
def closeAll := [(Fn.isInitialized, [1]), (.closeSessions, [1])]
/-- `C_CreateObject` of the first object of the token. -/
def create := start ++ [(Fn.addObject, [1, 0, 1, 1, 1, 0])]
/-- `C_FindObjectsInit` over a token with one private object. -/
def findInit := start ++ [(Fn.find, [1, 1, 0, 1, 0, 0])]
/-- `C_GetTokenInfo`. -/
def tokenInfo := [(Fn.isInitialized, [1]), (.failedLogin, [])]
/-- `C_GetTokenInfo`, the flag of the user's PIN. -/
def tokenInfoPin := [(Fn.isInitialized, [1]), (.isUserPinInitialized, [])]
/-- `C_SetPIN` of the user, with the right old PIN. -/
def setPin := start ++ [(Fn.getState, [1]), (.checkUserPin, [1, 1]),
  (.setUserPin, [0, 1, 0, 1, 0])]
/-- `C_SetPIN` of the security officer, with the right old PIN. -/
def setSoPin := start ++ [(Fn.getState, [1]), (.checkSoPin, [1, 1]), (.setSoPin, [1, 1, 0])]
/-- `C_Login` of the security officer. -/
def soLogin := start ++ [(Fn.soLogin, [1, 1, 0, 1, 1, 1, 1, 1, 1])]
/-- `C_Encrypt` with AES-GCM and a key of the token. -/
def encrypt := start ++ [(Fn.gcmEncrypt, [1, 1, 0])]
/-- `C_DeriveKey` by ECDH with a key of the token. -/
def derive := start ++ [(Fn.objectFind, [1]), (.ecDerive, [1, 1, 0])]

end Demo

open Demo in
set_option maxRecDepth 20000 in
/-- C88 is violated: for every kind of data but the random generator there are two calls
that can access it at the same time, one of them writing.
* sessions: `C_CloseAllSessions` unlinks and frees sessions before it takes the lock, while
  `C_OpenSession` walks the list;
* login state: `C_FindObjectsInit` reads it under the lock of the token;
* failure counters: `C_GetTokenInfo` takes no lock;
* PINs: `C_SetPIN` hashes the new PIN into place with the lock released, while `C_Login`
  compares;
* storage key: `C_Login` derives it with no lock held, while `C_CreateObject` encrypts and
  stores with it;
* list of token objects: `C_CreateObject` changes it under the lock of the token,
  `C_Login` and `C_Logout` walk it under the lock of the slot;
* a key: `C_Logout` encrypts it in place under the lock of the slot, while `C_Encrypt`
  uses it under the lock of the token; two `C_DeriveKey` put their generator into it;
* files: `C_SetPIN` and `C_CreateObject` both write the token, under different locks. -/
theorem c88_violated :
    CanRace .cCloseAllSessions .cOpenSession .sessions ∧
    CanRace .cLogin .cFindObjectsInit .login ∧
    CanRace .cLogin .cGetTokenInfo .fails ∧
    CanRace .cSetPIN .cLogin (.pin true) ∧
    CanRace .cSetPIN .cLogin (.pin false) ∧
    CanRace .cSetPIN .cGetTokenInfo (.pin false) ∧
    CanRace .cLogin .cCreateObject .tokenKey ∧
    CanRace .cCreateObject .cLogin .objects ∧
    CanRace .cCreateObject .cLogout .objects ∧
    CanRace .cLogout .cEncrypt (.obj 0) ∧
    CanRace .cDeriveKey .cDeriveKey (.obj 0) ∧
    CanRace .cSetPIN .cCreateObject .store := by
  refine ⟨?_, ?_, ?_, ?_, ?_, ?_, ?_, ?_, ?_, ?_, ?_, ?_⟩
  · exact canRace closeAll Demo.openSession (List.replicate 12 1 ++ List.replicate 11 0)
      (by decide) (by decide) (by decide)
  · exact canRace login findInit (List.replicate 26 1 ++ List.replicate 57 0)
      (by decide) (by decide) (by decide)
  · exact canRace login tokenInfo (List.replicate 9 1 ++ List.replicate 49 0)
      (by decide) (by decide) (by decide)
  · exact canRace Demo.setSoPin Demo.soLogin (List.replicate 41 1 ++ List.replicate 56 0)
      (by decide) (by decide) (by decide)
  · exact canRace setPin login (List.replicate 34 1 ++ List.replicate 56 0)
      (by decide) (by decide) (by decide)
  · exact canRace setPin tokenInfoPin (List.replicate 9 1 ++ List.replicate 56 0)
      (by decide) (by decide) (by decide)
  · exact canRace login create (List.replicate 22 1 ++ List.replicate 46 0)
      (by decide) (by decide) (by decide)
  · exact canRace create login (List.replicate 24 0 ++ List.replicate 50 1)
      (by decide) (by decide) (by decide)
  · exact canRace create Demo.logout (List.replicate 24 0 ++ List.replicate 22 1)
      (by decide) (by decide) (by decide)
  · exact canRace Demo.logout encrypt (List.replicate 24 1 ++ List.replicate 24 0)
      (by decide) (by decide) (by decide)
  · exact canRace derive derive (List.replicate 33 1 ++ List.replicate 33 0)
      (by decide) (by decide) (by decide)
  · exact canRace setPin create (List.replicate 26 1 ++ List.replicate 64 0)
      (by decide) (by decide) (by decide)

open Demo in
/-- C87 and C88 on a case: one thread encrypts with a key of the token while another one
creates an object there; the runs end and there is no race on the generator or the list
of objects. -/
example : (twoCalls encrypt create).Begins (fun t => if t = 0 then [.cEncrypt] else [.cCreateObject])
    ∧ (∀ t : Fin 2, ∀ c ∈ (if t = 0 then [Api.cEncrypt] else [Api.cCreateObject]),
      c ∉ unguarded .objects) ∧
    ((twoCalls encrypt create).run (List.replicate 19 0 ++ List.replicate 10 1)).isSome = true :=
  ⟨twoCalls_begins (by decide) (by decide), by decide, by decide⟩

end Verif.Threads
