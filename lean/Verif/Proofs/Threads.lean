import Verif.Spec.Threads
import Verif.Proofs.Lock

/-! # Lock order and guarded access of the programs of Model/Threads -/

namespace Verif.Threads

/-! ## What a thread holds -/

/-- Read locks (possibly none) or the write lock. -/
inductive Hold where
  | ro (d : Nat)
  | rw
deriving DecidableEq

/-- What a thread holds of each lock. -/
structure Held where
  glob : Hold
  slot : Hold
  token : Hold
  rng : Hold
deriving DecidableEq

def Held.get (h : Held) : LockId → Hold
  | .glob => h.glob
  | .slot => h.slot
  | .token => h.token
  | .rng => h.rng

def Held.set (h : Held) (l : LockId) (x : Hold) : Held :=
  match l with
  | .glob => { h with glob := x }
  | .slot => { h with slot := x }
  | .token => { h with token := x }
  | .rng => { h with rng := x }

def Held.none : Held := ⟨.ro 0, .ro 0, .ro 0, .ro 0⟩

theorem Held.get_set (h : Held) (l l' : LockId) (x : Hold) :
    (h.set l x).get l' = if l' = l then x else h.get l' := by
  cases l <;> cases l' <;> rfl

theorem Held.ext' {h h' : Held} (e : ∀ l, h.get l = h'.get l) : h = h' := by
  obtain ⟨a, b, c, d⟩ := h
  obtain ⟨a', b', c', d'⟩ := h'
  have h1 := e .glob; have h2 := e .slot; have h3 := e .token; have h4 := e .rng
  simp only [Held.get] at h1 h2 h3 h4
  subst h1 h2 h3 h4; rfl

/-- The order in which locks are taken. -/
def rank : LockId → Nat
  | .glob => 0
  | .slot => 1
  | .token => 2
  | .rng => 3

/-- No lock above `l` is held. -/
def Held.clear (h : Held) (l : LockId) : Bool :=
  [LockId.glob, .slot, .token, .rng].all fun l' =>
    decide (rank l' ≤ rank l) || decide (h.get l' = .ro 0)

theorem Held.clear_iff (h : Held) (l : LockId) :
    h.clear l = true ↔ ∀ l', rank l < rank l' → h.get l' = .ro 0 := by
  constructor
  · intro hc l' hr
    cases l <;> cases l' <;> simp [rank] at hr <;> simp_all [Held.clear, rank]
  · intro hc
    unfold Held.clear
    simp only [List.all_eq_true, Bool.or_eq_true, decide_eq_true_eq]
    intro l' _
    by_cases hr : rank l < rank l'
    · exact Or.inr (hc l' hr)
    · exact Or.inl (by omega)

/-- The lock operation, if it keeps to the order: a lock is taken only when no higher
lock is held, for writing only when it is not held at all. -/
def move (h : Held) (k : Kind) (l : LockId) : Option Held :=
  match k, h.get l with
  | .lockRW, .ro 0 => if h.clear l then some (h.set l .rw) else Option.none
  | .unlockRW, .rw => some (h.set l (.ro 0))
  | .lockRO, .ro d => if h.clear l then some (h.set l (.ro (d + 1))) else Option.none
  | .unlockRO, .ro (d + 1) => some (h.set l (.ro d))
  | _, _ => Option.none

/-- A sequence of actions keeps to the order and to the rule `ok` about accesses. -/
def Follows (ok : Held → Loc → Bool → Prop) : Held → List Act → Held → Prop
  | h, [], h' => h = h'
  | h, .read x :: as, h' => ok h x false ∧ Follows ok h as h'
  | h, .write x :: as, h' => ok h x true ∧ Follows ok h as h'
  | h, .lk k l :: as, h' => ∃ m, move h k l = some m ∧ Follows ok m as h'

theorem Follows.append {ok : Held → Loc → Bool → Prop} {xs ys : List Act} :
    ∀ {h m h' : Held}, Follows ok h xs m → Follows ok m ys h' → Follows ok h (xs ++ ys) h' := by
  induction xs with
  | nil => intro h m h' h1 h2; cases h1; exact h2
  | cons a as ih =>
    intro h m h' h1 h2
    cases a with
    | read x => exact ⟨h1.1, ih h1.2 h2⟩
    | write x => exact ⟨h1.1, ih h1.2 h2⟩
    | lk k l => obtain ⟨c, hc, h1⟩ := h1; exact ⟨c, hc, ih h1 h2⟩

/-- Weakest precondition of a program. -/
def wp (ok : Held → Loc → Bool → Prop) : Prog → (Held → Prop) → Held → Prop
  | .skip, Q, h => Q h
  | .act (.read x), Q, h => ok h x false ∧ Q h
  | .act (.write x), Q, h => ok h x true ∧ Q h
  | .act (.lk k l), Q, h =>
      match move h k l with
      | some m => Q m
      | Option.none => False
  | .seq p q, Q, h => wp ok p (wp ok q Q) h
  | .alt p q, Q, h => wp ok p Q h ∧ wp ok q Q h
  | .star p, Q, h => Q h ∧ wp ok p (fun m => m = h) h
  | .any f, Q, h => ∀ o, wp ok (f o) Q h

theorem wp_sound {ok : Held → Loc → Bool → Prop} {p : Prog} {xs : List Act} (hr : p.Runs xs) :
    ∀ {Q : Held → Prop} {h : Held}, wp ok p Q h → ∃ m, Follows ok h xs m ∧ Q m := by
  induction hr with
  | skip => intro Q h hw; exact ⟨h, rfl, hw⟩
  | act a =>
    intro Q h hw
    cases a with
    | read x => exact ⟨h, ⟨hw.1, rfl⟩, hw.2⟩
    | write x => exact ⟨h, ⟨hw.1, rfl⟩, hw.2⟩
    | lk k l =>
      simp only [wp] at hw
      cases hm : move h k l with
      | none => rw [hm] at hw; exact hw.elim
      | some m => rw [hm] at hw; exact ⟨m, ⟨m, hm, rfl⟩, hw⟩
  | seq _ _ ih1 ih2 =>
    intro Q h hw
    obtain ⟨m, hf, hm⟩ := ih1 (Q := wp ok _ Q) hw
    obtain ⟨m', hf', hm'⟩ := ih2 hm
    exact ⟨m', hf.append hf', hm'⟩
  | altLeft _ ih => intro Q h hw; exact ih hw.1
  | altRight _ ih => intro Q h hw; exact ih hw.2
  | starNone => intro Q h hw; exact ⟨h, rfl, hw.1⟩
  | starMore _ _ ih1 ih2 =>
    intro Q h hw
    obtain ⟨m, hf, hm⟩ := ih1 hw.2
    subst hm
    obtain ⟨m', hf', hm'⟩ := ih2 (Q := Q) hw
    exact ⟨m', hf.append hf', hm'⟩
  | any _ ih => intro Q h hw; exact ih (hw _)

/-- A function is called and returns without locks and keeps to the rules. -/
def Fn.Keeps (ok : Held → Loc → Bool → Prop) (f : Fn) : Prop :=
  wp ok f.prog (fun m => m = Held.none) Held.none

theorem Api.Runs.follows {ok : Held → Loc → Bool → Prop} {c : Api} {xs : List Act} (hr : c.Runs xs)
    (hk : ∀ f ∈ c.uses, f.Keeps ok) : Follows ok Held.none xs Held.none := by
  induction hr with
  | ret => rfl
  | call hf hp _ ih =>
    obtain ⟨m, hm, he⟩ := wp_sound hp (hk _ hf)
    subst he
    exact hm.append ih

theorem Calls.follows {ok : Held → Loc → Bool → Prop} {cs : List Api} {xs : List Act}
    (hr : Calls cs xs) (hk : ∀ c ∈ cs, ∀ f ∈ c.uses, f.Keeps ok) :
    Follows ok Held.none xs Held.none := by
  induction hr with
  | nil => rfl
  | cons hc _ ih =>
    exact (hc.follows (hk _ (List.mem_cons_self ..))).append
      (ih fun c hm => hk c (List.mem_cons_of_mem _ hm))

/-- Every function takes the locks in order and gives them all back. -/
theorem keeps_order (f : Fn) : f.Keeps (fun _ _ _ => True) := by
  cases f <;>
    simp [Fn.Keeps, Fn.prog, wp, seqs, ro, rw, roObj, rwObj, move, Held.get, Held.set, Held.none,
      Held.clear, rank, isInitialized, getTokenLabel, isTokenInitialized, isUserPinInitialized,
      failedLogin, failedExpire, openSession, closeSession, closeSessions, checkSoPin, checkUserPin,
      soLogin, userLogin, setSoPin, setUserPin, logout, sessionGet, getState, setCbcParams,
      addObject, removeObject, Threads.find, objectFree, setRsaKey, setEcKey, setDhKey,
      setSecretKey, setCert, setClass, objectFind, getAttr, setAttr, rsaGenerate, rsaKeyLen,
      rsaSerialize, rsaPublicEncrypt, rsaPrivateDecrypt, pkcs15PublicEncrypt,
      pkcs15PrivateDecrypt, oaepPublicEncrypt, oaepPrivateDecrypt, rsaSign, rsaVerify,
      pkcs15Sign, pkcs15Verify, pssSign, pssVerify, ecGenerate, ecSigLen, ecSign, ecVerify,
      ecDerive, dhGenerate, dhDerive, aesGenerate, gcmEncrypt, gcmEncryptUpdate, gcmDecrypt,
      gcmDecryptFinal, hmacInit, seedRandom, generateRandom, rngNew, rsaRo, rsaRw, tokenStore]

end Verif.Threads
