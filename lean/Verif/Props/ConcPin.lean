import Verif.Proofs.ConcPin
import Verif.Props.Conc
import Verif.Props.Pin

/-!
# PIN changes of several threads (C86)
-/

namespace Verif

/-- The thread has drawn new seeds for the account and not returned yet. -/
def Sp.Dirty (w : Who) : Sp → Prop
  | .seeded v _ | .hashed v _ _ | .storing v _ => v = w
  | .pinned _ | .keyHashed _ _ => w = .user
  | _ => False

/-- The thread has written the hash of the new PIN and not returned yet. -/
def Sp.Wrote (w : Who) (n : Bytes) : Sp → Prop
  | .storing v m => v = w ∧ m = n
  | .pinned m | .keyHashed m _ => w = .user ∧ m = n
  | _ => False

theorem Sp.Dirty.who {w : Who} {p : Sp} (h : p.Dirty w) : p.who = some w := by
  cases p <;> simp_all [Sp.Dirty, Sp.who]

theorem Sp.Wrote.who {w : Who} {n : Bytes} {p : Sp} (h : p.Wrote w n) : p.who = some w := by
  cases p <;> simp_all [Sp.Wrote, Sp.who]

/-- What the account accepts. -/
def HoldsPin (e : Env) (a : Account) (p : Option Bytes) : Prop :=
  a.pin = (p.map fun q => e.store.hash q a.seed).getD []

theorem HoldsPin.same {e : Env} {a b : Account} {p : Option Bytes} (h : HoldsPin e a p) (hs : SamePin a b) :
    HoldsPin e b p := hs.holds h

/-- The invariant of the schedules in which changes of the PIN of one account do not
overlap. -/
structure ChgInv (e : Env) (s : Chg) (p : Pins) : Prop where
  winv : WInv s.base.lib
  init : s.base.lib.token.init = true
  raw : ∀ w, (w.acct s.base.lib.token).pin = [] ∨ (w.acct s.base.lib.token).pin = s.raw w
  hash : ∀ t w n h, s.sp t = .hashed w n h → h = e.store.hash n (w.acct s.base.lib.token).seed
  wrote : ∀ t w n, (s.sp t).Wrote w n → s.raw w = e.store.hash n (w.acct s.base.lib.token).seed
  held : ∀ w, (∀ t, ¬ (s.sp t).Dirty w) → HoldsPin e (w.acct s.base.lib.token) (p.of w)

theorem chg_at_self (s : Chg) (t : Nat) (p : Sp) : (s.at t p).sp t = p := by simp [Chg.at]

theorem chg_at_other (s : Chg) {t u : Nat} (h : u ≠ t) (p : Sp) : (s.at t p).sp u = s.sp u := by simp [Chg.at, h]

/-- Moving a thread to a place where it has written nothing. -/
theorem ChgInv.move {e : Env} {s : Chg} {p : Pins} (hi : ChgInv e s p) (t : Nat) (q : Sp)
    (h1 : ∀ w n h, q = .hashed w n h → h = e.store.hash n (w.acct s.base.lib.token).seed)
    (h2 : ∀ w n, ¬ q.Wrote w n)
    (h3 : ∀ w, (s.sp t).Dirty w → q.Dirty w) : ChgInv e (s.at t q) p where
  winv := hi.winv
  init := hi.init
  raw := hi.raw
  hash u w n h hu := by
    by_cases ht : u = t
    · subst ht; rw [chg_at_self] at hu; exact h1 w n h hu
    · rw [chg_at_other _ ht] at hu; exact hi.hash u w n h hu
  wrote u w n hu := by
    by_cases ht : u = t
    · subst ht; rw [chg_at_self] at hu; exact absurd hu (h2 w n)
    · rw [chg_at_other _ ht] at hu; exact hi.wrote u w n hu
  held w hw := by
    refine hi.held w fun u hu => ?_
    by_cases ht : u = t
    · subst ht; exact hw u (by rw [chg_at_self]; exact h3 w hu)
    · exact hw u (by rw [chg_at_other _ ht]; exact hu)

theorem setAcct_acct (l : Lib) (w v : Who) (a : Account) :
    v.acct (setAcct l w a).token = if v = w then a else v.acct l.token := by
  cases w <;> cases v <;> rfl

theorem setAcct_init (l : Lib) (w : Who) (a : Account) : (setAcct l w a).token.init = l.token.init := by
  cases w <;> rfl

theorem store_acct (e : Env) (l : Lib) (v : Who) : v.acct (Lib.store e l).1.token = v.acct l.token := by
  cases v <;> rfl

theorem drawSeeds_acct (e : Env) (l : Lib) (w v : Who) (h : v ≠ w) :
    v.acct (drawSeeds e l w).token = v.acct l.token := by
  cases w <;> cases v <;> first | rfl | exact absurd rfl h

theorem drawSeeds_pin (e : Env) (l : Lib) (w v : Who) :
    (v.acct (drawSeeds e l w).token).pin = (v.acct l.token).pin := by
  cases w <;> cases v <;> rfl

theorem writePin_acct (l : Lib) (w v : Who) (h : Bytes) : v.acct (writePin l w h).token =
    if v = w ∧ (w.acct l.token).pin ≠ [] then { v.acct l.token with pin := h } else v.acct l.token := by
  unfold writePin
  by_cases h0 : (w.acct l.token).pin = []
  · rw [if_pos h0, if_neg (fun x => x.2 h0)]
  · rw [if_neg h0, setAcct_acct]
    by_cases hv : v = w
    · subst hv; rw [if_pos rfl, if_pos ⟨rfl, h0⟩]
    · rw [if_neg hv, if_neg (fun x => hv x.1)]

theorem writePin_seed (l : Lib) (w v : Who) (h : Bytes) :
    (v.acct (writePin l w h).token).seed = (v.acct l.token).seed := by
  rw [writePin_acct]; split <;> rfl

theorem writePin_frame (l : Lib) (w : Who) (h : Bytes) : (writePin l w h).sessions = l.sessions ∧
    (writePin l w h).count = l.count ∧ (writePin l w h).token.init = l.token.init := by
  unfold writePin
  split
  · exact ⟨rfl, rfl, rfl⟩
  · exact ⟨(setAcct_sessions l w _).1, (setAcct_sessions l w _).2.1, setAcct_init l w _⟩

theorem pins_set_self (p : Pins) (w : Who) (n : Bytes) : (p.set w n).of w = some n := by cases w <;> rfl

theorem pins_set_other (p : Pins) {w v : Who} (h : v ≠ w) (n : Bytes) : (p.set w n).of v = p.of v := by
  cases w <;> cases v <;> first | rfl | exact absurd rfl h

theorem commit_acct (e : Env) (l : Lib) (w v : Who) (r : Bytes) : v.acct (commitPin e l w r).1.token =
    if v = w then { w.acct l.token with pin := r } else v.acct l.token := by
  unfold commitPin
  dsimp only
  rw [store_acct, setAcct_acct]

theorem commit_rv (e : Env) (l : Lib) (w : Who) (r : Bytes) :
    (commitPin e l w r).2 = .ok ∨ (commitPin e l w r).2 = .functionFailed := by
  unfold commitPin
  dsimp only
  split
  · exact .inl rfl
  · exact .inr rfl

theorem event_none {p : Pins} {s : Chg} {v : PEv} : p.event' s v none = p := by
  unfold Pins.event'
  split
  · split
    · simp
    · rfl
  · rfl

/-- The invariant after one part of a PIN change. -/
theorem ChgInv.advance {e : Env} {s : Chg} {p : Pins} (hi : ChgInv e s p) (t : Nat)
    (hap : ∀ t u w, (s.sp t).who = some w → (s.sp u).who = some w → t = u) :
    let r := advanceSet e s.base.lib s.raw (s.sp t)
    ChgInv e ({ s with base := { s.base with lib := r.1 }, raw := r.2.1 }.at t r.2.2.1)
      (p.event' s (.go t) r.2.2.2) := by
  intro r
  have keep : ∀ q : Sp, r = (s.base.lib, s.raw, q, none) →
      (∀ w n h, q = .hashed w n h → h = e.store.hash n (w.acct s.base.lib.token).seed) →
      (∀ w n, ¬ q.Wrote w n) → (∀ w, (s.sp t).Dirty w → q.Dirty w) →
      ChgInv e ({ s with base := { s.base with lib := r.1 }, raw := r.2.1 }.at t r.2.2.1)
        (p.event' s (.go t) r.2.2.2) := by
    intro q hr h1 h2 h3
    rw [hr, event_none]
    exact hi.move t q h1 h2 h3
  have gone : ∀ rv : RV, r = (s.base.lib, s.raw, .idle, some rv) → rv ≠ .ok → rv ≠ .functionFailed →
      (∀ w, ¬ (s.sp t).Dirty w) →
      ChgInv e ({ s with base := { s.base with lib := r.1 }, raw := r.2.1 }.at t r.2.2.1)
        (p.event' s (.go t) r.2.2.2) := by
    intro rv hr h1 h2 h3
    have : p.event' s (.go t) (some rv) = p := by
      unfold Pins.event'
      dsimp only
      split
      · rw [if_neg (by simp [h1, h2])]
      · rfl
    rw [hr, this]
    exact hi.move t .idle (fun _ _ _ h => by cases h) (fun _ _ h => h) (fun w h => absurd h (h3 w))
  cases hp : s.sp t with
  | idle =>
    refine keep .idle (by show advanceSet _ _ _ _ = _; rw [hp]; rfl) (fun _ _ _ h => by cases h)
      (fun _ _ h => h) (fun w h => ?_)
    rw [hp] at h; exact h
  | old w o n =>
    by_cases h0 : s.base.lib.token.init = false ∨ (w.acct s.base.lib.token).pin = []
    · refine gone .userPinNotInitialized ?_ (by simp) (by simp) (fun w h => by rw [hp] at h; exact h)
      show advanceSet _ _ _ _ = _
      rw [hp]; simp only [advanceSet]; rw [if_pos h0]
    · refine keep (.oldHash w o n) ?_ (fun _ _ _ h => by cases h) (fun _ _ h => h) (fun w h => by rw [hp] at h; exact h)
      show advanceSet _ _ _ _ = _
      rw [hp]; simp only [advanceSet]; rw [if_neg h0]
  | oldHash w o n =>
    refine keep (.oldCmp w _ n) (by show advanceSet _ _ _ _ = _; rw [hp]; rfl) (fun _ _ _ h => by cases h)
      (fun _ _ h => h) (fun w h => by rw [hp] at h; exact h)
  | oldCmp w h n =>
    by_cases h0 : h.take (w.acct s.base.lib.token).pin.length = (w.acct s.base.lib.token).pin
    · refine keep (.start w n) ?_ (fun _ _ _ h => by cases h) (fun _ _ h => h) (fun w h => by rw [hp] at h; exact h)
      show advanceSet _ _ _ _ = _
      rw [hp]; simp only [advanceSet]; rw [if_pos h0]
    · refine gone .pinIncorrect ?_ (by simp) (by simp) (fun w h => by rw [hp] at h; exact h)
      show advanceSet _ _ _ _ = _
      rw [hp]; simp only [advanceSet]; rw [if_neg h0]
  | seeded w n =>
    refine keep (.hashed w n (e.store.hash n (w.acct s.base.lib.token).seed)) (by show advanceSet _ _ _ _ = _; rw [hp]; rfl) ?_
      (fun _ _ h => h) (fun v h => by rw [hp] at h; exact h)
    intro v m h hq
    cases hq; rfl
  | pinned n =>
    have hr : r = (s.base.lib, s.raw, .keyHashed n (e.store.hash n s.base.lib.token.seed), none) := by
      show advanceSet _ _ _ _ = _; rw [hp]; rfl
    rw [hr, event_none]
    refine ⟨hi.winv, hi.init, hi.raw, ?_, ?_, ?_⟩
    · intro u w m h hu
      by_cases ht : u = t
      · subst ht; rw [chg_at_self] at hu; cases hu
      · rw [chg_at_other _ ht] at hu; exact hi.hash u w m h hu
    · intro u w m hu
      by_cases ht : u = t
      · subst ht; rw [chg_at_self] at hu
        exact hi.wrote u w m (by rw [hp]; exact hu)
      · rw [chg_at_other _ ht] at hu; exact hi.wrote u w m hu
    · intro w hw
      refine hi.held w fun u hu => ?_
      by_cases ht : u = t
      · subst ht; rw [hp] at hu; exact hw u (by rw [chg_at_self]; exact hu)
      · exact hw u (by rw [chg_at_other _ ht]; exact hu)
  | keyHashed n k =>
    have hr : r = ({ s.base.lib with token := { s.base.lib.token with key := k } }, s.raw, .storing .user n, none) := by
      show advanceSet _ _ _ _ = _; rw [hp]; rfl
    have ha : ∀ w : Who, w.acct { s.base.lib.token with key := k } = w.acct s.base.lib.token := by
      intro w; cases w <;> rfl
    rw [hr, event_none]
    refine ⟨hi.winv.of rfl rfl, hi.init, ?_, ?_, ?_, ?_⟩
    · intro w; show (w.acct { s.base.lib.token with key := k }).pin = _ ∨ _; rw [ha]; exact hi.raw w
    · intro u w m h hu
      show h = e.store.hash m (w.acct { s.base.lib.token with key := k }).seed
      rw [ha]
      by_cases ht : u = t
      · subst ht; rw [chg_at_self] at hu; cases hu
      · rw [chg_at_other _ ht] at hu; exact hi.hash u w m h hu
    · intro u w m hu
      show s.raw w = e.store.hash m (w.acct { s.base.lib.token with key := k }).seed
      rw [ha]
      by_cases ht : u = t
      · subst ht; rw [chg_at_self] at hu
        exact hi.wrote u w m (by rw [hp]; exact ⟨hu.1.symm, hu.2⟩)
      · rw [chg_at_other _ ht] at hu; exact hi.wrote u w m hu
    · intro w hw
      show HoldsPin e (w.acct { s.base.lib.token with key := k }) _
      rw [ha]
      refine hi.held w fun u hu => ?_
      by_cases ht : u = t
      · subst ht; rw [hp] at hu; exact hw u (by rw [chg_at_self]; exact hu.symm)
      · exact hw u (by rw [chg_at_other _ ht]; exact hu)
  | start w n =>
    have hr : r = (drawSeeds e s.base.lib w, s.raw, .seeded w n, none) := by
      show advanceSet _ _ _ _ = _; rw [hp]; rfl
    rw [hr, event_none]
    have hwho : (s.sp t).who = some w := by rw [hp]; rfl
    refine ⟨hi.winv.of (by cases w <;> rfl) (by cases w <;> rfl), ?_, ?_, ?_, ?_, ?_⟩
    · rw [← hi.init]; cases w <;> rfl
    · intro v; show (v.acct (drawSeeds e s.base.lib w).token).pin = _ ∨ _ = _
      have := hi.raw v
      rw [← drawSeeds_pin e s.base.lib w v] at this; exact this
    · intro u v m h hu
      show h = e.store.hash m (v.acct (drawSeeds e s.base.lib w).token).seed
      by_cases ht : u = t
      · subst ht; rw [chg_at_self] at hu; cases hu
      · rw [chg_at_other _ ht] at hu
        have hu : s.sp u = .hashed v m h := hu
        have hv : v ≠ w := by
          rintro rfl
          exact ht (hap u t v (by rw [hu]; rfl) hwho)
        rw [drawSeeds_acct _ _ _ _ hv]
        exact hi.hash u v m h hu
    · intro u v m hu
      show s.raw v = e.store.hash m (v.acct (drawSeeds e s.base.lib w).token).seed
      by_cases ht : u = t
      · subst ht; rw [chg_at_self] at hu; cases hu
      · rw [chg_at_other _ ht] at hu
        have hu : (s.sp u).Wrote v m := hu
        have hv : v ≠ w := by
          rintro rfl
          exact ht (hap u t v hu.who hwho)
        rw [drawSeeds_acct _ _ _ _ hv]
        exact hi.wrote u v m hu
    · intro v hv
      show HoldsPin e (v.acct (drawSeeds e s.base.lib w).token) _
      have hne : v ≠ w := by
        rintro rfl
        exact hv t (by rw [chg_at_self]; rfl)
      rw [drawSeeds_acct _ _ _ _ hne]
      refine hi.held v fun u hu => ?_
      by_cases ht : u = t
      · subst ht; rw [hp] at hu; exact hu
      · exact hv u (by rw [chg_at_other _ ht]; exact hu)
  | hashed w n h =>
    have hr : r = (writePin s.base.lib w h, (fun v => if v = w then h else s.raw v),
        afterHash w n, none) := by
      show advanceSet _ _ _ _ = _; rw [hp]; rfl
    rw [hr, event_none]
    have hwho : (s.sp t).who = some w := by rw [hp]; rfl
    have hh := hi.hash t w n h hp
    obtain ⟨f1, f2, f3⟩ := writePin_frame s.base.lib w h
    refine ⟨hi.winv.of f1 f2, f3.trans hi.init, ?_, ?_, ?_, ?_⟩
    · intro v
      show (v.acct (writePin s.base.lib w h).token).pin = [] ∨
        (v.acct (writePin s.base.lib w h).token).pin = if v = w then h else s.raw v
      rw [writePin_acct]
      by_cases hv : v = w
      · subst hv
        by_cases h0 : (v.acct s.base.lib.token).pin = []
        · rw [if_neg (fun x => x.2 h0)]; exact .inl h0
        · rw [if_pos ⟨rfl, h0⟩, if_pos rfl]; exact .inr rfl
      · rw [if_neg (fun x => hv x.1), if_neg hv]; exact hi.raw v
    · intro u v m h' hu
      show h' = e.store.hash m (v.acct (writePin s.base.lib w h).token).seed
      rw [writePin_seed]
      by_cases ht : u = t
      · subst ht; rw [chg_at_self] at hu; cases w <;> cases hu
      · rw [chg_at_other _ ht] at hu; exact hi.hash u v m h' hu
    · intro u v m hu
      show (if v = w then h else s.raw v) = e.store.hash m (v.acct (writePin s.base.lib w h).token).seed
      rw [writePin_seed]
      by_cases ht : u = t
      · subst ht; rw [chg_at_self] at hu
        have : v = w ∧ m = n := by
          cases w
          · exact ⟨hu.1.symm, hu.2.symm⟩
          · exact ⟨hu.1, hu.2.symm⟩
        obtain ⟨rfl, rfl⟩ := this
        rw [if_pos rfl]; exact hh
      · rw [chg_at_other _ ht] at hu
        have hu : (s.sp u).Wrote v m := hu
        have hv : v ≠ w := by
          rintro rfl
          exact ht (hap u t v hu.who hwho)
        rw [if_neg hv]
        exact hi.wrote u v m hu
    · intro v hv
      show HoldsPin e (v.acct (writePin s.base.lib w h).token) _
      have hne : v ≠ w := by
        rintro rfl
        exact hv t (by rw [chg_at_self]; cases v <;> rfl)
      rw [writePin_acct, if_neg (fun x => hne x.1)]
      refine hi.held v fun u hu => ?_
      by_cases ht : u = t
      · subst ht; rw [hp] at hu; exact hne hu.symm
      · exact hv u (by rw [chg_at_other _ ht]; exact hu)
  | storing w n =>
    have hr : r = ((commitPin e s.base.lib w (s.raw w)).1, s.raw, .idle,
        some (commitPin e s.base.lib w (s.raw w)).2) := by
      show advanceSet _ _ _ _ = _; rw [hp]; rfl
    have hev : p.event' s (.go t) (some (commitPin e s.base.lib w (s.raw w)).2) = p.set w n := by
      unfold Pins.event'
      dsimp only
      rw [hp]
      dsimp only [Sp.who, Sp.new]
      rw [if_pos (by rcases commit_rv e s.base.lib w (s.raw w) with h | h <;> rw [h] <;> simp)]
    rw [hr, hev]
    have hwho : (s.sp t).who = some w := by rw [hp]; rfl
    have hw := hi.wrote t w n (by rw [hp]; exact ⟨rfl, rfl⟩)
    have hseed : ∀ v : Who, (v.acct (commitPin e s.base.lib w (s.raw w)).1.token).seed =
        (v.acct s.base.lib.token).seed := by
      intro v; rw [commit_acct]; split
      · rename_i h; rw [h]
      · rfl
    refine ⟨hi.winv.of (setAcct_sessions s.base.lib w _).1 (setAcct_sessions s.base.lib w _).2.1, ?_, ?_, ?_, ?_, ?_⟩
    · rw [← hi.init]; cases w <;> rfl
    · intro v
      show (v.acct (commitPin e s.base.lib w (s.raw w)).1.token).pin = [] ∨
        (v.acct (commitPin e s.base.lib w (s.raw w)).1.token).pin = s.raw v
      rw [commit_acct]
      by_cases hv : v = w
      · subst hv; rw [if_pos rfl]; exact .inr rfl
      · rw [if_neg hv]; exact hi.raw v
    · intro u v m h' hu
      show h' = e.store.hash m (v.acct (commitPin e s.base.lib w (s.raw w)).1.token).seed
      rw [hseed]
      by_cases ht : u = t
      · subst ht; rw [chg_at_self] at hu; cases hu
      · rw [chg_at_other _ ht] at hu; exact hi.hash u v m h' hu
    · intro u v m hu
      show s.raw v = e.store.hash m (v.acct (commitPin e s.base.lib w (s.raw w)).1.token).seed
      rw [hseed]
      by_cases ht : u = t
      · subst ht; rw [chg_at_self] at hu; cases hu
      · rw [chg_at_other _ ht] at hu; exact hi.wrote u v m hu
    · intro v hv
      show HoldsPin e (v.acct (commitPin e s.base.lib w (s.raw w)).1.token) _
      rw [commit_acct]
      by_cases hvw : v = w
      · subst hvw
        rw [if_pos rfl, pins_set_self]
        exact hw
      · rw [if_neg hvw, pins_set_other _ hvw]
        refine hi.held v fun u hu => ?_
        by_cases ht : u = t
        · subst ht; rw [hp] at hu; exact hvw hu.symm
        · exact hv u (by rw [chg_at_other _ ht]; exact hu)

/-- The invariant after one event. -/
theorem ChgInv.step {e : Env} {s : Chg} {p : Pins} (hi : ChgInv e s p) (v : PEv)
    (hv : ∀ c, v = .base (.call c) → KeepsPins c)
    (hap : ∀ t u w, (s.sp t).who = some w → (s.sp u).who = some w → t = u) :
    ChgInv e (s.step e v).1 (p.event' s v (s.step e v).2) := by
  have hbase : ∀ (b : Conc) (raw : Who → Bytes), KeptPins s.base.lib.token b.lib.token → WInv b.lib →
      (∀ w, raw w = s.raw w) → ChgInv e { s with base := b, raw := raw } p := by
    intro b raw hs hw hr
    refine ⟨hw, hs.init.trans hi.init, ?_, ?_, ?_, ?_⟩
    · intro w
      show _ ∨ _ = raw w
      rw [(hs.at w).1, hr]; exact hi.raw w
    · intro t w n h ht
      rw [(hs.at w).2]; exact hi.hash t w n h ht
    · intro t w n ht
      show raw w = _
      rw [(hs.at w).2, hr]; exact hi.wrote t w n ht
    · intro w hw'
      exact (hi.held w hw').same (hs.at w)
  have hraw : ∀ (b : Conc), KeptPins s.base.lib.token b.lib.token → ∀ w, syncRaw b.lib s.raw w = s.raw w := by
    intro b hs w
    unfold syncRaw
    split
    · rfl
    · rename_i h0
      rw [(hs.at w).1] at h0 ⊢
      exact (hi.raw w).resolve_left h0
  cases v with
  | base v =>
    have hk : ∀ c, v = .call c → KeepsPins c := fun c hc => hv c (by rw [hc])
    obtain ⟨h1, h2⟩ := base_frame (e := e) hk hi.winv
    cases v with
    | login t h w pin now =>
      show ChgInv e (Chg.step e s (.base (.login t h w pin now))).1 p
      simp only [Chg.step]
      split
      · exact hbase _ s.raw h1 h2 (fun _ => rfl)
      · exact hi
    | call c => exact hbase _ _ h1 h2 (hraw _ h1)
    | go t => exact hbase _ _ h1 h2 (hraw _ h1)
  | setPin t h old new =>
    show ChgInv e (Chg.step e s (.setPin t h old new)).1 p
    simp only [Chg.step]
    split; · exact hi
    split
    · rename_i hid
      refine hi.move t _ ?_ ?_ (fun w hd => by rw [hid.1] at hd; exact hd.elim)
      · intro w n x hx
        unfold beginSet at hx
        repeat' split at hx
        all_goals cases hx
      · intro w n hx
        unfold beginSet at hx
        repeat' split at hx
        all_goals exact hx
    · exact hi
  | initPin t h new =>
    show ChgInv e (Chg.step e s (.initPin t h new)).1 p
    simp only [Chg.step]
    split; · exact hi
    split
    · rename_i hid
      refine hi.move t _ ?_ ?_ (fun w hd => by rw [hid.1] at hd; exact hd.elim)
      · intro w n x hx
        unfold beginInit at hx
        repeat' split at hx
        all_goals cases hx
      · intro w n hx
        unfold beginInit at hx
        repeat' split at hx
        all_goals exact hx
    · exact hi
  | go t =>
    simp only [Chg.step]
    split
    · rw [event_none]; exact hi
    · exact hi.advance t hap

theorem ChgInv.run {e : Env} (vs : List PEv) {s : Chg} {p : Pins} (hi : ChgInv e s p) (hv : OnlyParts vs)
    (hap : ChangesApart e s vs) : ChgInv e (s.run e vs) (pinsAt e s p vs) := by
  induction vs generalizing s p with
  | nil => exact hi
  | cons v vs ih =>
    exact ih (hi.step v (fun c hc => hv c (by rw [hc]; exact List.mem_cons_self)) hap.1)
      (fun c hc => hv c (List.mem_cons_of_mem _ hc)) hap.2

/-- The threads start in a library. -/
def calm (l : Lib) : Chg := { base := { lib := l }, raw := fun w => (w.acct l.token).pin }

theorem calm_inv {e : Env} {l : Lib} {p : Pins} (hi : SInv l) (hp : Holds e l p) (hso : p.so ≠ none) :
    ChgInv e (calm l) p where
  winv := hi.winv
  init := hp.init (.inl hso)
  raw w := .inr rfl
  hash t w n h ht := by cases ht
  wrote t w n ht := ht.elim
  held w _ := hp.pin w

theorem login_public {e : Env} {l : Lib} {h : Nat} (hn : NobodyLoggedIn e l h) : l.token.login = .pub := by
  unfold NobodyLoggedIn stateOf sessionInfo answer at hn
  have hb : l.bad = false := by
    cases hb : l.bad with
    | false => rfl
    | true => rw [step_bad hb] at hn; rcases hn with hn | hn <;> cases hn
  rw [step_resp hb] at hn
  simp only [callBody] at hn
  split at hn; · rcases hn with hn | hn <;> cases hn
  split at hn; · rcases hn with hn | hn <;> cases hn
  rename_i s hs
  simp only [sessCall] at hn
  unfold sessState at hn
  cases hl : l.token.login with
  | pub => rfl
  | so => by_cases hu : s.use = .rw <;> simp [hl, hu] at hn
  | user => by_cases hu : s.use = .rw <;> simp [hl, hu] at hn

theorem login_needs_public {e : Env} {l : Lib} {h : Nat} {w : Who} {pin : Bytes} {now : Int}
    (hok : (answer e l (loginCall h w pin now)).rv = .ok) : l.token.login = .pub := by
  have hb : l.bad = false := by
    cases hb : l.bad with
    | false => rfl
    | true => rw [answer, step_bad hb] at hok; cases hok
  rw [answer, step_resp hb] at hok
  simp only [loginCall, callBody] at hok
  split at hok; · cases hok
  split at hok; · cases hok
  simp only [sessCall, login] at hok
  split at hok; · cases hok
  apply Classical.byContradiction
  intro hl
  cases w with
  | so => simp only [Who.type, soLogin, if_pos hl] at hok; cases hok
  | user => simp only [Who.type, userLogin, if_pos hl] at hok; cases hok

theorem apart_last {e : Env} {s : Chg} {vs : List PEv} (h : ChangesApart e s vs) :
    ∀ t u w, ((s.run e vs).sp t).who = some w → ((s.run e vs).sp u).who = some w → t = u := by
  induction vs generalizing s with
  | nil => exact h
  | cons v vs ih => exact ih h.2

/-- C86, for the schedules in which no two threads are inside a change of the PIN of the
same account: after any history, any number of threads log in, change PINs and make other
calls, the parts of the logins and PIN changes interleaved in any way; whenever no thread
is inside a change of the PIN of an account, a login to it succeeds exactly with the PIN
whose setting was last reported (and under the other conditions of C10).

What is missing: schedules in which two threads change the PIN of one account at the same
time; there the claim is false (`c86_violated`).  Also calls that load or reset the token
while the threads run. -/
theorem c86_partial (e : Env) (hh : HashLen e) {l₀ : Lib} (h₀ : Start l₀) (hd : NoToken l₀) (cs : List Call)
    (vs : List PEv) (h : Nat) (w : Who) (pin : Bytes) (now : Int) :
    let l₁ := run e (step e l₀ .cInit).1 cs
    let p₁ := pinsAfter e (step e l₀ .cInit).1 {} cs
    let s := (calm l₁).run e vs
    let p := pinsAt e (calm l₁) p₁ vs
    OneLife e (step e l₀ .cInit).1 cs → p₁.so ≠ none →
    OnlyParts vs → ChangesApart e (calm l₁) vs → s.Still w → NoCollision e p w pin →
    ((answer e s.base.lib (loginCall h w pin now)).rv = .ok ↔
      IsOpen e s.base.lib h ∧ 4 ≤ pin.length ∧ pin.length ≤ 32 ∧ p.of w = some pin ∧
      NobodyLoggedIn e s.base.lib h ∧ ¬ Locked (w.acct s.base.lib.token) now ∧
      (w = .so → ∀ k, ¬ OpenAs e s.base.lib k false) ∧ (w = .user → Decodable e s.base.lib pin)) := by
  intro l₁ p₁ s p hlife hso honly hap hst hnc
  have hi₀ : SInv (Verif.step e l₀ .cInit).1 := h₀.sinv.step e .cInit
  have hp₁ : Holds e l₁ p₁ := holds_run hi₀ (h₀.linv.step e .cInit) (holds_empty h₀ hd) cs hlife
  have hinv : ChgInv e s p := (calm_inv (hi₀.run e cs) hp₁ hso).run vs honly hap
  have hheld : HoldsPin e (w.acct s.base.lib.token) (p.of w) := hinv.held w fun t ht => hst t ht.who
  by_cases hl : s.base.lib.token.login = .pub
  · have hm : Matches e (w.acct s.base.lib.token) pin ↔ p.of w = some pin := by
      unfold HoldsPin at hheld
      unfold Matches
      cases hq : p.of w with
      | none =>
        rw [hq] at hheld
        constructor
        · intro hx; exact absurd hheld hx.1
        · intro hx; cases hx
      | some q =>
        rw [hq] at hheld
        simp only [Option.map_some, Option.getD_some] at hheld
        rw [hheld, List.take_of_length_le (by rw [hh, hh]; exact Nat.le_refl _)]
        constructor
        · intro hx
          rw [hnc q _ hq hx.2]
        · intro hx
          cases hx
          exact ⟨hash_ne_nil hh _ _, rfl⟩
    exact login_ok_iff (hinv.winv.sinv hl) hm (fun _ => hinv.init) h now
  · constructor
    · intro hok; exact absurd (login_needs_public hok) hl
    · intro hx; exact absurd (login_public hx.2.2.2.2.1) hl

/-! ## A PIN change made without interruption is the call -/

/-- The parts of a PIN change done one after the other: at most `n` of them. -/
def finishSet (e : Env) : Nat → Lib → (Who → Bytes) → Sp → Lib × (Who → Bytes) × Sp × Option RV
  | 0, l, raw, p => (l, raw, p, none)
  | n + 1, l, raw, p =>
    let r := advanceSet e l raw p
    match r.2.2.2 with
    | some rv => (r.1, r.2.1, r.2.2.1, some rv)
    | none => finishSet e n r.1 r.2.1 r.2.2.1

theorem advanceSet_returns {e : Env} {l : Lib} {raw : Who → Bytes} {p : Sp} {rv : RV}
    (h : (advanceSet e l raw p).2.2.2 = some rv) : (advanceSet e l raw p).2.2.1 = .idle := by
  revert h
  cases p <;> simp only [advanceSet] <;> (try split) <;> intro h <;> first | rfl | trivial | cases h

theorem advanceSet_bad (e : Env) (l : Lib) (raw : Who → Bytes) (p : Sp) :
    (advanceSet e l raw p).1.bad = l.bad := by
  cases p with
  | start w n => cases w <;> rfl
  | hashed w n h =>
    simp only [advanceSet, writePin]
    split
    · rfl
    · exact (setAcct_sessions l w _).2.2.2
  | storing w n => exact (setAcct_sessions l w _).2.2.2
  | _ => simp only [advanceSet] <;> (try split) <;> rfl

theorem chg_at_at (s : Chg) (t : Nat) (p q : Sp) : (s.at t p).at t q = s.at t q := by
  simp only [Chg.at, Chg.mk.injEq, true_and]
  funext u
  by_cases h : u = t <;> simp [h]

theorem chg_at_id {s : Chg} {t : Nat} {p : Sp} (h : s.sp t = p) : s.at t p = s := by
  cases s with
  | mk b r sp =>
    simp only [Chg.at, Chg.mk.injEq, true_and]
    funext u
    by_cases hu : u = t
    · rw [if_pos hu, hu]; exact h.symm
    · rw [if_neg hu]

theorem chg_idle_go {e : Env} {s : Chg} {t : Nat} (h : s.sp t = .idle) : s.step e (.go t) = (s, none) := by
  simp only [Chg.step, h, advanceSet]
  split
  · rfl
  · rw [show ({ s with base := { s.base with lib := s.base.lib }, raw := s.raw } : Chg) = s from rfl, chg_at_id h]

theorem chg_idle_goes {e : Env} {s : Chg} {t : Nat} (h : s.sp t = .idle) (n : Nat) :
    s.run e (List.replicate n (.go t)) = s ∧ s.returns e (List.replicate n (.go t)) = [] := by
  induction n with
  | zero => exact ⟨rfl, rfl⟩
  | succ n ih =>
    simp only [List.replicate_succ, Chg.run, Chg.returns, chg_idle_go h]
    exact ⟨ih.1, by rw [ih.2]; rfl⟩

theorem chg_goes {e : Env} {s : Chg} {t : Nat} (n : Nat) (hb : s.base.lib.bad = false) :
    let r := finishSet e n s.base.lib s.raw (s.sp t)
    s.run e (List.replicate n (.go t)) = { s with base := { s.base with lib := r.1 }, raw := r.2.1 }.at t r.2.2.1 ∧
    s.returns e (List.replicate n (.go t)) = r.2.2.2.toList := by
  induction n generalizing s with
  | zero => exact ⟨(chg_at_id rfl).symm, rfl⟩
  | succ n ih =>
    simp only [List.replicate_succ, Chg.run, Chg.returns, finishSet]
    have hs : s.step e (.go t) = ({ s with
        base := { s.base with lib := (advanceSet e s.base.lib s.raw (s.sp t)).1 },
        raw := (advanceSet e s.base.lib s.raw (s.sp t)).2.1 }.at t
        (advanceSet e s.base.lib s.raw (s.sp t)).2.2.1, (advanceSet e s.base.lib s.raw (s.sp t)).2.2.2) := by
      simp only [Chg.step, hb]; rfl
    rw [hs]
    cases hr : (advanceSet e s.base.lib s.raw (s.sp t)).2.2.2 with
    | some rv =>
      have hp := advanceSet_returns hr
      dsimp only
      obtain ⟨h1, h2⟩ := chg_idle_goes (e := e) (s := Chg.at { s with
        base := { s.base with lib := (advanceSet e s.base.lib s.raw (s.sp t)).1 },
        raw := (advanceSet e s.base.lib s.raw (s.sp t)).2.1 } t
        (advanceSet e s.base.lib s.raw (s.sp t)).2.2.1) (t := t) (by rw [chg_at_self]; exact hp) n
      rw [h1, h2]
      exact ⟨rfl, rfl⟩
    | none =>
      dsimp only
      obtain ⟨h1, h2⟩ := ih (s := Chg.at { s with
        base := { s.base with lib := (advanceSet e s.base.lib s.raw (s.sp t)).1 },
        raw := (advanceSet e s.base.lib s.raw (s.sp t)).2.1 } t
        (advanceSet e s.base.lib s.raw (s.sp t)).2.2.1) ((advanceSet_bad _ _ _ _).trans hb)
      rw [h1, h2, chg_at_self]
      refine ⟨?_, rfl⟩
      exact chg_at_at (⟨⟨_, s.base.pc⟩, _, s.sp⟩ : Chg) t _ _

theorem finishSet_some {e : Env} {l l' : Lib} {raw raw' : Who → Bytes} {p q : Sp} {rv : RV} (n : Nat)
    (h : advanceSet e l raw p = (l', raw', q, some rv)) : finishSet e (n + 1) l raw p = (l', raw', q, some rv) := by
  simp only [finishSet, h]

theorem finishSet_none {e : Env} {l l' : Lib} {raw raw' : Who → Bytes} {p q : Sp} (n : Nat)
    (h : advanceSet e l raw p = (l', raw', q, none)) : finishSet e (n + 1) l raw p = finishSet e n l' raw' q := by
  simp only [finishSet, h]

/-- Setting the PIN, all parts. -/
theorem finish_start (e : Env) (l : Lib) (raw : Who → Bytes) (w : Who) (new : Bytes) (n : Nat) :
    ∃ raw', finishSet e (n + 6) l raw (.start w new) =
      ((pinSet (match w with | .so => setSoPin e l new | .user => setUserPin e l new)).1, raw', .idle,
        some (pinSet (match w with | .so => setSoPin e l new | .user => setUserPin e l new)).2.rv) := by
  cases w with
  | so =>
    refine ⟨fun v => if v = .so then e.store.hash new (Who.so.acct (drawSeeds e l .so).token).seed else raw v, ?_⟩
    rw [finishSet_none (n + 5) (by simp only [advanceSet]; rfl), finishSet_none (n + 4) (by simp only [advanceSet]; rfl),
      finishSet_none (n + 3) (by simp only [advanceSet, afterHash]; rfl), finishSet_some (n + 2) (by simp only [advanceSet]; rfl)]
    have : setAcct (writePin (drawSeeds e l .so) .so (e.store.hash new (Who.so.acct (drawSeeds e l .so).token).seed)) .so
        { Who.so.acct (writePin (drawSeeds e l .so) .so (e.store.hash new (Who.so.acct (drawSeeds e l .so).token).seed)).token
          with pin := e.store.hash new (Who.so.acct (drawSeeds e l .so).token).seed } =
        { l with rng := l.rng + 1, token := { l.token with
          so := { l.token.so with pin := e.store.hash new (e.store.rand l.rng 16), seed := e.store.rand l.rng 16 } } } := by
      unfold writePin
      split <;> rfl
    simp only [commitPin, if_true, this, pinSet, setSoPin]
    rfl
  | user =>
    refine ⟨fun v => if v = .user then e.store.hash new (Who.user.acct (drawSeeds e l .user).token).seed else raw v, ?_⟩
    rw [finishSet_none (n + 5) (by simp only [advanceSet]; rfl), finishSet_none (n + 4) (by simp only [advanceSet]; rfl),
      finishSet_none (n + 3) (by simp only [advanceSet, afterHash]; rfl), finishSet_none (n + 2) (by simp only [advanceSet]; rfl),
      finishSet_none (n + 1) (by simp only [advanceSet]; rfl), finishSet_some n (by simp only [advanceSet]; rfl)]
    have hw : writePin (drawSeeds e l .user) .user (e.store.hash new (Who.user.acct (drawSeeds e l .user).token).seed) =
        if l.token.user.pin = [] then drawSeeds e l .user else
          setAcct (drawSeeds e l .user) .user { (drawSeeds e l .user).token.user with
            pin := e.store.hash new (e.store.rand l.rng 16) } := rfl
    rw [hw]
    by_cases h0 : l.token.user.pin = []
    · simp only [h0, if_true, commitPin, pinSet, setUserPin]
      rfl
    · simp only [h0, if_false, if_true, commitPin, pinSet, setUserPin]
      rfl

/-- Checking the old PIN and setting the new one, all parts. -/
theorem finish_old (e : Env) (l : Lib) (raw : Who → Bytes) (w : Who) (o new : Bytes) (n : Nat) :
    ∃ raw', finishSet e (n + 9) l raw (.old w o new) =
      match checkPin e l.token (w.acct l.token) o with
      | .notSet => (l, raw', .idle, some .userPinNotInitialized)
      | .invalid => (l, raw', .idle, some .pinIncorrect)
      | .ok => ((pinSet (match w with | .so => setSoPin e l new | .user => setUserPin e l new)).1, raw', .idle,
        some (pinSet (match w with | .so => setSoPin e l new | .user => setUserPin e l new)).2.rv) := by
  unfold checkPin
  by_cases h1 : l.token.init = false ∨ (w.acct l.token).pin = []
  · refine ⟨raw, ?_⟩
    rw [if_pos h1, finishSet_some (n + 8) (by simp only [advanceSet]; exact if_pos h1)]
  rw [if_neg h1]
  by_cases h2 : (e.store.hash o (w.acct l.token).seed).take (w.acct l.token).pin.length = (w.acct l.token).pin
  · obtain ⟨raw', h⟩ := finish_start e l raw w new n
    refine ⟨raw', ?_⟩
    rw [if_pos h2, finishSet_none (n + 8) (by simp only [advanceSet]; exact if_neg h1),
      finishSet_none (n + 7) (by simp only [advanceSet]; rfl),
      finishSet_none (n + 6) (by simp only [advanceSet]; exact if_pos h2), h]
  · refine ⟨raw, ?_⟩
    rw [if_neg h2, finishSet_none (n + 8) (by simp only [advanceSet]; exact if_neg h1),
      finishSet_none (n + 7) (by simp only [advanceSet]; rfl),
      finishSet_some (n + 6) (by simp only [advanceSet]; exact if_neg h2)]

/-- `C_SetPIN` of thread `t`, all parts. -/
def wholeSet (t h : Nat) (old new : Bytes) : List PEv := .setPin t h old new :: List.replicate 9 (.go t)

/-- A PIN change no other thread interrupts is the call of the sequential model: the same
library afterwards, the same status returned once, the thread outside the call again. -/
theorem setPin_alone (e : Env) (s : Chg) (t h : Nat) (old new : Bytes) (hb : s.base.lib.bad = false)
    (ht : s.sp t = .idle) (ht' : s.base.pc t = .idle) :
    (s.run e (wholeSet t h old new)).base =
      { s.base with lib := (step e s.base.lib (.sess h (.setPin (some old) (some new)))).1 } ∧
    (s.run e (wholeSet t h old new)).sp = s.sp ∧
    s.returns e (wholeSet t h old new) = [(step e s.base.lib (.sess h (.setPin (some old) (some new)))).2.rv] := by
  simp only [wholeSet, Chg.run, Chg.returns]
  have hs : s.step e (.setPin t h old new) =
      (s.at t (beginSet s.base.lib h old new).1, (beginSet s.base.lib h old new).2) := by
    simp only [Chg.step, hb, ht, ht']; rfl
  rw [hs]
  have key : ∀ r, callBody e s.base.lib (.sess h (.setPin (some old) (some new))) = r → r.2.rv ≠ .ub →
      step e s.base.lib (.sess h (.setPin (some old) (some new))) = r := by
    rintro r rfl hu
    unfold step
    simp only [hb, Bool.false_eq_true, if_false]
    rw [if_neg hu]
  have back : ∀ rv : RV, beginSet s.base.lib h old new = (.idle, some rv) → rv ≠ .ub →
      callBody e s.base.lib (.sess h (.setPin (some old) (some new))) = (s.base.lib, { rv := rv }) →
      ((s.at t (beginSet s.base.lib h old new).1).run e (List.replicate 9 (.go t))).base =
        { s.base with lib := (step e s.base.lib (.sess h (.setPin (some old) (some new)))).1 } ∧
      ((s.at t (beginSet s.base.lib h old new).1).run e (List.replicate 9 (.go t))).sp = s.sp ∧
      (beginSet s.base.lib h old new).2.toList ++
        (s.at t (beginSet s.base.lib h old new).1).returns e (List.replicate 9 (.go t)) =
        [(step e s.base.lib (.sess h (.setPin (some old) (some new)))).2.rv] := by
    intro rv h1 hu h2
    rw [key _ h2 hu, h1]
    dsimp only
    rw [chg_at_id ht, (chg_idle_goes ht 9).1, (chg_idle_goes ht 9).2]
    exact ⟨rfl, rfl, rfl⟩
  by_cases h1 : s.base.lib.count ≤ 0
  · exact back .cryptokiNotInitialized (by unfold beginSet; rw [if_pos h1]) (by simp)
      (by simp only [callBody, if_pos h1])
  cases hg : getSession s.base.lib h with
  | none =>
    exact back .sessionHandleInvalid (by unfold beginSet; rw [if_neg h1, hg]) (by simp)
      (by simp only [callBody, if_neg h1, hg])
  | some x =>
    by_cases h2 : (!pinLenOk old) = true
    · exact back .pinIncorrect (by unfold beginSet; rw [if_neg h1, hg]; dsimp only; rw [if_pos h2]) (by simp)
        (by simp only [callBody, if_neg h1, hg, sessCall, setPin]; rw [if_pos h2])
    by_cases h3 : (!pinLenOk new) = true
    · exact back .pinIncorrect (by unfold beginSet; rw [if_neg h1, hg]; dsimp only; rw [if_neg h2, if_pos h3]) (by simp)
        (by simp only [callBody, if_neg h1, hg, sessCall, setPin]; rw [if_neg h2, if_pos h3])
    have hro : ∀ st, sessState s.base.lib x = st → st ≠ .rwSo → st ≠ .rwUser → st ≠ .rwPublic →
        beginSet s.base.lib h old new = (.idle, some .sessionReadOnly) ∧
        callBody e s.base.lib (.sess h (.setPin (some old) (some new))) =
          (s.base.lib, { rv := .sessionReadOnly }) := by
      intro st hst n1 n2 n3
      refine ⟨?_, ?_⟩
      · unfold beginSet; rw [if_neg h1, hg]; dsimp only; rw [if_neg h2, if_neg h3, hst]
        cases st <;> first | rfl | exact absurd rfl n1 | exact absurd rfl n2 | exact absurd rfl n3
      · simp only [callBody, if_neg h1, hg, sessCall, setPin]
        rw [if_neg h2, if_neg h3, hst]
        cases st <;> first | rfl | exact absurd rfl n1 | exact absurd rfl n2 | exact absurd rfl n3
    have hw : ∀ w : Who, beginSet s.base.lib h old new = (.old w old new, none) →
        callBody e s.base.lib (.sess h (.setPin (some old) (some new))) =
          (match checkPin e s.base.lib.token (w.acct s.base.lib.token) old with
          | .notSet => (s.base.lib, { rv := .userPinNotInitialized })
          | .invalid => (s.base.lib, { rv := .pinIncorrect })
          | .ok => pinSet (match w with
            | .so => setSoPin e s.base.lib new
            | .user => setUserPin e s.base.lib new)) →
        ((s.at t (beginSet s.base.lib h old new).1).run e (List.replicate 9 (.go t))).base =
          { s.base with lib := (step e s.base.lib (.sess h (.setPin (some old) (some new)))).1 } ∧
        ((s.at t (beginSet s.base.lib h old new).1).run e (List.replicate 9 (.go t))).sp = s.sp ∧
        (beginSet s.base.lib h old new).2.toList ++
          (s.at t (beginSet s.base.lib h old new).1).returns e (List.replicate 9 (.go t)) =
          [(step e s.base.lib (.sess h (.setPin (some old) (some new)))).2.rv] := by
      intro w hbg hcb
      obtain ⟨raw', hf⟩ := finish_old e s.base.lib s.raw w old new 0
      obtain ⟨g1, g2⟩ := chg_goes (e := e) (s := s.at t (.old w old new)) (t := t) 9 hb
      rw [hbg]
      dsimp only
      rw [g1, g2, chg_at_self]
      rw [show finishSet e 9 (s.at t (.old w old new)).base.lib (s.at t (.old w old new)).raw (.old w old new) = _ from hf]
      rw [key _ hcb (by
        split
        · simp
        · simp
        · exact pinSet_ub _)]
      have hsp : ∀ (b : Conc) (r : Who → Bytes), (Chg.at ⟨b, r, (s.at t (.old w old new)).sp⟩ t .idle).sp = s.sp := by
        intro b r
        show (Chg.at (Chg.at ⟨b, r, s.sp⟩ t (.old w old new)) t .idle).sp = _
        rw [chg_at_at, chg_at_id (s := ⟨b, r, s.sp⟩) ht]
      cases checkPin e s.base.lib.token (w.acct s.base.lib.token) old with
      | notSet => exact ⟨rfl, hsp _ _, rfl⟩
      | invalid => exact ⟨rfl, hsp _ _, rfl⟩
      | ok => exact ⟨rfl, hsp _ _, rfl⟩
    have hbg : ∀ st, sessState s.base.lib x = st → beginSet s.base.lib h old new =
        match st with
        | .rwSo => (.old .so old new, none)
        | .rwUser | .rwPublic => (.old .user old new, none)
        | _ => (.idle, some .sessionReadOnly) := by
      intro st hst
      unfold beginSet; rw [if_neg h1, hg]; dsimp only; rw [if_neg h2, if_neg h3, hst]
      cases st <;> rfl
    have hcb : ∀ st, sessState s.base.lib x = st → callBody e s.base.lib (.sess h (.setPin (some old) (some new))) =
        match st with
        | .rwSo => (match checkPin e s.base.lib.token s.base.lib.token.so old with
          | .notSet => (s.base.lib, { rv := .userPinNotInitialized })
          | .invalid => (s.base.lib, { rv := .pinIncorrect })
          | .ok => pinSet (setSoPin e s.base.lib new))
        | .rwUser | .rwPublic => (match checkPin e s.base.lib.token s.base.lib.token.user old with
          | .notSet => (s.base.lib, { rv := .userPinNotInitialized })
          | .invalid => (s.base.lib, { rv := .pinIncorrect })
          | .ok => pinSet (setUserPin e s.base.lib new))
        | _ => (s.base.lib, { rv := .sessionReadOnly }) := by
      intro st hst
      simp only [callBody, if_neg h1, hg, sessCall, setPin]
      rw [if_neg h2, if_neg h3, hst]
      cases st <;> rfl
    cases hst : sessState s.base.lib x with
    | rwSo => exact hw .so (hbg _ hst) (hcb _ hst)
    | rwUser => exact hw .user (hbg _ hst) (hcb _ hst)
    | rwPublic => exact hw .user (hbg _ hst) (hcb _ hst)
    | roPublic =>
      obtain ⟨r1, r2⟩ := hro _ hst (by simp) (by simp) (by simp)
      exact back _ r1 (by simp) r2
    | roUser =>
      obtain ⟨r1, r2⟩ := hro _ hst (by simp) (by simp) (by simp)
      exact back _ r1 (by simp) r2

/-! ## Two threads change the PIN of one account -/

namespace Demo

/-- The token is made, the user has a PIN, a read/write session is open. -/
def pinReady : List Call :=
  [.slot 1 (.initToken (some soPin) (some label)), openCall true, loginCall 65538 .so soPin 0,
   .sess 65538 (.initPin (some userPin)), .sess 65538 .logout]

/-- New PINs. -/
def pinA : Bytes := [49, 50, 51, 52, 53]
/-- Another one. -/
def pinB : Bytes := [54, 55, 56, 57, 48]

/-- Both threads check the old PIN; thread 1 draws its seed and hashes; thread 2 does all its
parts; thread 1 goes on. -/
def pinRace : List PEv :=
  [.setPin 1 65538 userPin pinA, .setPin 2 65538 userPin pinB,
   .go 1, .go 1, .go 1, .go 2, .go 2, .go 2, .go 1, .go 1,
   .go 2, .go 2, .go 2, .go 2, .go 2, .go 2, .go 1, .go 1, .go 1, .go 1]

/-- The threads change the PIN one after the other, a third one logs in meanwhile. -/
def pinTurns : List PEv :=
  [.setPin 1 65538 userPin pinA, .go 1, .go 1, .base (.login 3 65538 .so soPin 0), .go 1, .go 1, .base (.go 3), .go 1,
   .base (.go 3), .base (.go 3), .go 1, .go 1, .go 1, .base (.go 3), .go 1, .base (.go 3), .base (.go 3),
   .initPin 2 65538 pinB, .go 2, .go 2, .go 2, .go 2, .go 2, .go 2, .base (.call (.sess 65538 .logout))]

/-- The library in which the threads start. -/
def pinLib : Lib := run env (step env fresh .cInit).1 pinReady

end Demo

set_option maxRecDepth 20000 in
/-- C86 is violated: two threads call `C_SetPIN` at the same time with the right old PIN,
both calls return `CKR_OK`, and then the user can log in neither with one of the new PINs
nor with the old one, although nobody is logged in and no wrong PIN was ever given. -/
theorem c86_violated :
    ∃ (e : Env) (l₀ : Lib) (_ : Start l₀) (cs : List Call) (vs : List PEv) (old a b : Bytes),
      let l := (calm (run e l₀ cs)).run e vs |>.base.lib
      (∀ r ∈ Demo.rvs e l₀ cs, r = .ok) ∧
      (answer e (run e l₀ cs) (loginCall 65538 .user old 0)).rv = .ok ∧
      vs.head? = some (.setPin 1 65538 old a) ∧ vs[1]? = some (.setPin 2 65538 old b) ∧
      (∀ v ∈ vs.drop 2, v = .go 1 ∨ v = .go 2) ∧
      (calm (run e l₀ cs)).returns e vs = [.ok, .ok] ∧
      stateOf e l 65538 = some .rwPublic ∧ l.token.user.fails = 0 ∧
      ∀ pin ∈ [old, a, b], (answer e l (loginCall 65538 .user pin 0)).rv = .pinIncorrect := by
  refine ⟨Demo.env, Demo.fresh, Demo.fresh_start, .cInit :: Demo.pinReady, Demo.pinRace, Demo.userPin, Demo.pinA,
    Demo.pinB, by decide, by decide, rfl, rfl, ?_, by decide, by decide, by decide, by decide⟩
  intro v hv
  simp only [Demo.pinRace, List.drop_succ_cons, List.drop_zero, List.mem_cons, List.not_mem_nil, or_false] at hv
  rcases hv with h | h | h | h | h | h | h | h | h | h | h | h | h | h | h | h | h | h <;> simp [h]

namespace Demo

theorem pinTurns_only : OnlyParts pinTurns := by
  intro c hc
  simp only [pinTurns, List.mem_cons, List.not_mem_nil, or_false, reduceCtorEq, PEv.base.injEq, false_or] at hc
  simp only [Ev.call.injEq] at hc
  subst hc
  trivial

/-- The threads that change a PIN in this schedule are 1 and 2. -/
theorem only_two {s : Chg} (h : ∀ t, t ≠ 1 → t ≠ 2 → s.sp t = .idle) (h12 : s.sp 1 = .idle ∨ s.sp 2 = .idle) :
    ∀ t u w, (s.sp t).who = some w → (s.sp u).who = some w → t = u := by
  have hne : ∀ t w, (s.sp t).who = some w → t = 1 ∨ t = 2 := by
    intro t w ht
    by_cases h1 : t = 1
    · exact .inl h1
    by_cases h2 : t = 2
    · exact .inr h2
    rw [h t h1 h2] at ht; cases ht
  intro t u w ht hu
  rcases hne t w ht with rfl | rfl <;> rcases hne u w hu with rfl | rfl
  · rfl
  · rcases h12 with h | h
    · rw [h] at ht; cases ht
    · rw [h] at hu; cases hu
  · rcases h12 with h | h
    · rw [h] at hu; cases hu
    · rw [h] at ht; cases ht
  · rfl

/-- Events of threads other than 1 and 2 leave these alone, and the others are never inside
a PIN change. -/
theorem turns_idle (e : Env) {s : Chg} (v : PEv) (hv : ∀ t h o n, v = .setPin t h o n → t = 1 ∨ t = 2)
    (hv' : ∀ t h n, v = .initPin t h n → t = 1 ∨ t = 2) (h : ∀ t, t ≠ 1 → t ≠ 2 → s.sp t = .idle) :
    ∀ t, t ≠ 1 → t ≠ 2 → ((s.step e v).1).sp t = .idle := by
  intro t h1 h2
  have move : ∀ (s' : Chg) (u : Nat) (q : Sp), s'.sp = s.sp → (u = 1 ∨ u = 2 ∨ q = .idle) → (s'.at u q).sp t = .idle := by
    intro s' u q hs hu
    by_cases ht : t = u
    · subst ht
      rcases hu with rfl | rfl | rfl
      · exact absurd rfl h1
      · exact absurd rfl h2
      · rw [chg_at_self]
    · rw [chg_at_other _ ht, hs]; exact h t h1 h2
  cases v with
  | base v =>
    cases v with
    | login a b c d f => simp only [Chg.step]; split <;> exact h t h1 h2
    | call c => exact h t h1 h2
    | go u => exact h t h1 h2
  | setPin u a b c =>
    simp only [Chg.step]
    split; · exact h t h1 h2
    split
    · exact move s u _ rfl (by rcases hv u a b c rfl with x | x <;> simp [x])
    · exact h t h1 h2
  | initPin u a b =>
    simp only [Chg.step]
    split; · exact h t h1 h2
    split
    · exact move s u _ rfl (by rcases hv' u a b rfl with x | x <;> simp [x])
    · exact h t h1 h2
  | go u =>
    simp only [Chg.step]
    split; · exact h t h1 h2
    by_cases hu : u = 1 ∨ u = 2
    · exact move _ u _ rfl (by rcases hu with x | x <;> simp [x])
    · refine move _ u _ rfl (.inr (.inr ?_))
      rw [h u (fun x => hu (.inl x)) (fun x => hu (.inr x))]
      rfl

/-- Threads 1 and 2 take turns. -/
def Turns (e : Env) : Chg → List PEv → Prop
  | s, [] => s.sp 1 = .idle ∨ s.sp 2 = .idle
  | s, v :: vs => (s.sp 1 = .idle ∨ s.sp 2 = .idle) ∧ Turns e (s.step e v).1 vs

instance decTurns (e : Env) : (s : Chg) → (vs : List PEv) → Decidable (Turns e s vs)
  | s, [] => by unfold Turns; infer_instance
  | s, v :: vs => by
    unfold Turns
    have := decTurns e (s.step e v).1 vs
    infer_instance

theorem turns_apart (e : Env) (vs : List PEv) {s : Chg} (h : ∀ t, t ≠ 1 → t ≠ 2 → s.sp t = .idle)
    (hv : ∀ t h o n, .setPin t h o n ∈ vs → t = 1 ∨ t = 2) (hv' : ∀ t h n, .initPin t h n ∈ vs → t = 1 ∨ t = 2)
    (ht : Turns e s vs) : ChangesApart e s vs := by
  induction vs generalizing s with
  | nil => exact only_two h ht
  | cons v vs ih =>
    refine ⟨only_two h ht.1, ih ?_ ?_ ?_ ht.2⟩
    · exact turns_idle e v (fun t h o n hx => hv t h o n (by rw [hx]; exact List.mem_cons_self))
        (fun t h n hx => hv' t h n (by rw [hx]; exact List.mem_cons_self)) h
    · exact fun t h o n hx => hv t h o n (List.mem_cons_of_mem _ hx)
    · exact fun t h n hx => hv' t h n (List.mem_cons_of_mem _ hx)

end Demo

set_option maxRecDepth 20000 in
/-- The conditions of `c86_partial` are met by a schedule in which thread 1 changes the user's
PIN while thread 3 logs in as security officer, and then thread 2 sets it again: all four
calls succeed, and the PIN is thread 2's. -/
example :
    OneLife Demo.env (step Demo.env Demo.fresh .cInit).1 Demo.pinReady ∧
    (pinsAfter Demo.env (step Demo.env Demo.fresh .cInit).1 {} Demo.pinReady).so ≠ none ∧
    OnlyParts Demo.pinTurns ∧ ChangesApart Demo.env (calm Demo.pinLib) Demo.pinTurns ∧
    (calm Demo.pinLib).returns Demo.env Demo.pinTurns = [.ok, .ok, .ok, .ok] ∧
    (pinsAt Demo.env (calm Demo.pinLib) (pinsAfter Demo.env (step Demo.env Demo.fresh .cInit).1 {} Demo.pinReady)
      Demo.pinTurns).user = some Demo.pinB ∧
    (answer Demo.env ((calm Demo.pinLib).run Demo.env Demo.pinTurns).base.lib
      (loginCall 65538 .user Demo.pinB 0)).rv = .ok := by
  refine ⟨by simp only [OneLife, Demo.pinReady, Initialised]; decide, by decide, Demo.pinTurns_only, ?_, by decide,
    by decide, by decide⟩
  refine Demo.turns_apart _ _ (fun t _ _ => rfl) ?_ ?_ (by decide)
  · intro t h o n hx
    simp only [Demo.pinTurns, List.mem_cons, List.not_mem_nil, or_false, reduceCtorEq, false_or,
      PEv.setPin.injEq] at hx
    exact .inl hx.1
  · intro t h n hx
    simp only [Demo.pinTurns, List.mem_cons, List.not_mem_nil, or_false, reduceCtorEq, false_or,
      PEv.initPin.injEq] at hx
    exact .inr hx.1

end Verif
