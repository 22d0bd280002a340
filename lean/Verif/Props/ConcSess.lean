import Verif.Proofs.ConcSess

/-!
# C106: sessions opened and closed by several threads

Any number of threads, any schedule: the handles of open sessions differ, at most 70 are
open, and a session nobody closes stays open.  While no two threads close the same
session, `C_CloseSession` closes exactly its session and never touches freed memory.  Without
`C_CloseAllSessions`, if no session is open and no thread is inside `C_CloseSession`, nobody is
logged in.  But a thread that closes the last session may log out a session opened in the
meantime.
-/

namespace Verif

/-- Only thread `t` is inside `C_CloseSession`. -/
def Ssc.one (l : Lib) (t : Nat) (p : Sc) : Ssc := { lib := l, sc := fun u => if u = t then p else .idle }

theorem Ssc.one_sc (l : Lib) (t : Nat) (p : Sc) : (Ssc.one l t p).sc t = p := if_pos rfl

theorem Ssc.one_idle (l : Lib) (t : Nat) : Ssc.one l t .idle = { lib := l } := by
  simp [Ssc.one]

theorem Ssc.one_at (l : Lib) (t : Nat) (p q : Sc) : (Ssc.one l t p).at t q = Ssc.one l t q := by
  simp only [Ssc.one, Ssc.at, Ssc.mk.injEq, true_and]
  funext u
  split <;> rfl

theorem Ssc.one_put_at (l l' : Lib) (t : Nat) (p q : Sc) : ((Ssc.one l t p).put l').at t q = Ssc.one l' t q := by
  simp only [Ssc.one, Ssc.at, Ssc.put, Ssc.mk.injEq, true_and]
  funext u
  split <;> rfl

/-- A `C_CloseSession` that is not interrupted is the call of the sequential machine. -/
theorem close_alone (e : Env) (l : Lib) (hb : l.bad = false) (t h : Nat) :
    ∃ n, let vs := SEv.close t h :: List.replicate n (SEv.go t)
      ({ lib := l } : Ssc).run e vs = { lib := (Verif.step e l (closeCall h)).1 } ∧
      ({ lib := l } : Ssc).returns e vs = [(Verif.step e l (closeCall h)).2] := by
  have hnb : ¬ l.bad = true := by rw [hb]; exact Bool.noConfusion
  have h0 : ({ lib := l } : Ssc).step e (.close t h) = (Ssc.one l t (beginClose l h).1, (beginClose l h).2) := by
    simp only [Ssc.step, if_neg hnb, if_true]
    rfl
  by_cases hc : l.count ≤ 0
  · refine ⟨0, ?_⟩
    have hr : beginClose l h = (.idle, some { rv := .cryptokiNotInitialized }) := if_pos hc
    have hbody : callBody e l (closeCall h) = (l, { rv := .cryptokiNotInitialized }) := if_pos hc
    have hst : Verif.step e l (closeCall h) = (l, { rv := .cryptokiNotInitialized }) := by
      rw [step_eq hb (by rw [hbody]; exact RV.noConfusion), hbody]
    rw [hst]
    simp only [List.replicate, Ssc.run, Ssc.returns, h0, hr, Ssc.one_idle]
    exact ⟨trivial, rfl⟩
  cases hs : getSession l h with
  | none =>
    refine ⟨0, ?_⟩
    have hr : beginClose l h = (.idle, some { rv := .sessionHandleInvalid }) := by
      simp only [beginClose, if_neg hc, hs]
    have hbody : callBody e l (closeCall h) = (l, { rv := .sessionHandleInvalid }) := by
      simp only [callBody, closeCall, if_neg hc, hs]
    have hst : Verif.step e l (closeCall h) = (l, { rv := .sessionHandleInvalid }) := by
      rw [step_eq hb (by rw [hbody]; exact RV.noConfusion), hbody]
    rw [hst]
    simp only [List.replicate, Ssc.run, Ssc.returns, h0, hr, Ssc.one_idle]
    exact ⟨trivial, rfl⟩
  | some x =>
    have hr : beginClose l h = (.found h, none) := by
      simp only [beginClose, if_neg hc, hs]
    have hbody : callBody e l (closeCall h) = closeSession e l h := by
      simp only [callBody, closeCall, if_neg hc, hs, sessCall, (getSession_handle hs).1]
    have hst : Verif.step e l (closeCall h) = closeSession e l h := by
      rw [step_eq hb (by rw [hbody]; exact RV.noConfusion), hbody]
    have h1 : (Ssc.one l t (.found h)).step e (.go t) =
        (Ssc.one { l with sessions := closeOne l.sessions h } t .finalized, none) := by
      rw [Ssc.go_found (by exact hb) (Ssc.one_sc ..), Ssc.one_put_at]
      rfl
    rw [hst]
    unfold closeSession
    dsimp only
    by_cases hu : anyInUse (closeOne l.sessions h) = true
    · refine ⟨2, ?_⟩
      have h2 : (Ssc.one { l with sessions := closeOne l.sessions h } t .finalized).step e (.go t) =
          ({ lib := { l with sessions := closeOne l.sessions h } }, some { rv := .ok }) := by
        rw [Ssc.go_finalized (by exact hb) (Ssc.one_sc ..), Ssc.one_at, Ssc.one_idle]
        exact if_pos hu
      rw [if_pos hu]
      simp only [List.replicate, Ssc.run, Ssc.returns, h0, hr, h1, h2]
      exact ⟨trivial, rfl⟩
    · refine ⟨3, ?_⟩
      have h2 : (Ssc.one { l with sessions := closeOne l.sessions h } t .finalized).step e (.go t) =
          (Ssc.one { l with sessions := closeOne l.sessions h } t .leaving, none) := by
        rw [Ssc.go_finalized (by exact hb) (Ssc.one_sc ..), Ssc.one_at, Ssc.one_at]
        exact if_neg hu
      have h3 : (Ssc.one { l with sessions := closeOne l.sessions h } t .leaving).step e (.go t) =
          ({ lib := logout e { l with sessions := closeOne l.sessions h } }, some { rv := .ok }) := by
        rw [Ssc.go_leaving (by exact hb) (Ssc.one_sc ..), Ssc.one_put_at, Ssc.one_idle]
        rfl
      rw [if_neg hu]
      simp only [List.replicate, Ssc.run, Ssc.returns, h0, hr, h1, h2, h3]
      exact ⟨trivial, rfl⟩

/-- C106, first part: whatever the threads do, different open sessions have different handles
and at most 70 are open. -/
theorem c106_sessions (e : Env) (s : Ssc) (h₀ : Start s.lib) (hq : s.Quiet) (vs : List SEv) (hs : List Nat)
    (hn : hs.Nodup) (ho : ∀ h ∈ hs, IsOpen e (s.run e vs).lib h) :
    (((s.run e vs).lib.sessions.filter fun s => s.use != .no).map (·.handle)).Nodup ∧ hs.length ≤ 70 := by
  obtain ⟨hi, _⟩ := Ssc.inv_run h₀.sinv hq.held e vs
  refine ⟨hi.nodup.sublist (List.filter_sublist.map _), ?_⟩
  refine Nat.le_trans (open_count hi hs hn ho) (Nat.le_trans (List.length_filter_le ..) ?_)
  rcases hi.shape with ⟨_, h⟩ | ⟨_, n, _, h70, hh⟩
  · simp [h]
  · rw [show (s.run e vs).lib.sessions.length = n by rw [← length_down n, ← hh]; simp]
    exact h70

theorem openAs_sstep {e : Env} {s : Ssc} (hi : SInv s.lib) (hs : s.Held) {h : Nat} {rw' : Bool}
    (ho : OpenAs e s.lib h rw') (hno : ∀ t, s.sc t ≠ .found h) {v : SEv} (hv : ¬ Closes h v)
    (hb : (s.step e v).1.lib.bad = false) :
    OpenAs e (s.step e v).1.lib h rw' ∧ ∀ t, (s.step e v).1.sc t ≠ .found h := by
  have hi' := Ssc.sinv_step hi hs e v
  have hafter : ∀ l t, (s.sc t).after l ≠ .found h := by
    intro l t hc
    have := hno t
    cases hp : s.sc t <;> rw [hp] at hc this <;> simp only [Sc.after] at hc
    · cases hc
    · split at hc
      · cases hc; exact this rfl
      · cases hc
    all_goals split at hc <;> cases hc
  have hput : ∀ l t p, p ≠ .found h → ∀ u, ((s.put l).at t p).sc u ≠ .found h := by
    intro l t p hp u
    simp only [Ssc.at, Ssc.put]
    split
    · exact hp
    · exact hafter l u
  have hat : ∀ t p, p ≠ .found h → ∀ u, (s.at t p).sc u ≠ .found h := by
    intro t p hp u
    simp only [Ssc.at]
    split
    · exact hp
    · exact hno u
  cases v with
  | call c =>
    simp only [Closes, not_or] at hv
    exact ⟨openAs_step hi ho hv.1 hv.2.1 hv.2.2 hb, hafter _⟩
  | close t k =>
    simp only [Closes] at hv
    simp only [Ssc.step]
    split
    · exact ⟨ho, hno⟩
    · split
      · refine ⟨ho, hat t _ ?_⟩
        rcases beginClose_cases s.lib k with ⟨h1, _⟩ | ⟨h1, _⟩ <;> rw [h1]
        · exact Sc.noConfusion
        · intro hc; cases hc; exact hv rfl
      · exact ⟨ho, hno⟩
  | go t =>
    simp only [Ssc.step] at hb hi' ⊢
    split
    · exact ⟨ho, hno⟩
    rename_i hb0
    rw [if_neg hb0] at hi' hb
    split
    · exact ⟨ho, hno⟩
    · rename_i k ht
      rw [ht] at hi' hb
      have hc : 0 < s.lib.count := hs t (by rw [ht]; exact Sc.noConfusion) (by rw [ht]; exact Sc.noConfusion)
      have hk : h ≠ k := fun hk => hno t (by rw [ht, hk])
      refine ⟨?_, hput _ t _ Sc.noConfusion⟩
      obtain ⟨hb1, x, hx, hrw⟩ := (openAs_iff hi).mp ho
      refine (openAs_iff hi').mpr ⟨hb, x, ?_, hrw⟩
      exact ((getSession_closeOne hi hc k).2 h hk).trans hx
    · rename_i ht
      rw [ht] at hb
      cases hb
    · rename_i ht
      split
      · exact ⟨ho, hat t _ Sc.noConfusion⟩
      · exact ⟨ho, hat t _ Sc.noConfusion⟩
    · rename_i ht
      rw [ht] at hi' hb
      refine ⟨?_, hput _ t _ Sc.noConfusion⟩
      obtain ⟨hb1, x, hx, hrw⟩ := (openAs_iff hi).mp ho
      exact (openAs_iff hi').mpr ⟨hb, x, hx, hrw⟩

/-- C106, second part: whatever the threads do, a session that nobody closes stays open with its
mode. -/
theorem c106_stays_open (e : Env) (s : Ssc) (h₀ : Start s.lib) (hq : s.Quiet) (us vs : List SEv) (h : Nat)
    (rw' : Bool) (ho : OpenAs e (s.run e us).lib h rw') (hno : ∀ t, (s.run e us).sc t ≠ .found h)
    (hv : ∀ v ∈ vs, ¬ Closes h v) (hb : (s.run e (us ++ vs)).lib.bad = false) :
    OpenAs e (s.run e (us ++ vs)).lib h rw' := by
  obtain ⟨hi, hs⟩ := Ssc.inv_run h₀.sinv hq.held e us
  rw [Ssc.run_append] at hb ⊢
  generalize s.run e us = s at *
  induction vs generalizing s with
  | nil => exact ho
  | cons v vs ih =>
    have hg := Ssc.run_good (vs := vs) hb
    obtain ⟨h1, h2⟩ := openAs_sstep hi hs ho hno (hv v (by simp)) hg
    exact ih (fun w hw => hv w (by simp [hw])) _ h1 h2 hb (Ssc.sinv_step hi hs e v) (Ssc.held_step hs e v)

/-- What separates the threads in a schedule without quarrels. -/
structure Ssc.Own (s : Ssc) : Prop where
  isOpen : ∀ t h, s.sc t = .found h → ∃ x, getSession s.lib h = some x
  only : ∀ t u h, s.sc t = .found h → s.sc u = .found h → t = u
  valid : ∀ t, s.sc t ≠ .dangling

theorem Sc.after_found {l : Lib} {p : Sc} {h : Nat} (hp : p.after l = .found h) : p = .found h := by
  cases p <;> simp only [Sc.after] at hp
  · cases hp
  · split at hp
    · exact hp
    · cases hp
  all_goals split at hp <;> cases hp

theorem Ssc.Own.put {s : Ssc} (ho : s.Own) {l : Lib} (hi : SInv l) (t : Nat) {p : Sc} (hp : ∀ h, p ≠ .found h)
    (hd : p ≠ .dangling)
    (hopen : ∀ u h, u ≠ t → s.sc u = .found h → ∃ x, getSession l h = some x)
    (hc : ∀ u, u ≠ t → s.sc u ≠ .idle → 0 < l.count) : ((s.put l).at t p).Own := by
  constructor
  · intro u h hu
    simp only [Ssc.at, Ssc.put] at hu
    split at hu
    · exact absurd hu (hp h)
    · rename_i hne
      exact hopen u h hne (Sc.after_found hu)
  · intro u v h hu hv
    simp only [Ssc.at, Ssc.put] at hu hv
    split at hu
    · exact absurd hu (hp h)
    split at hv
    · exact absurd hv (hp h)
    exact ho.only u v h (Sc.after_found hu) (Sc.after_found hv)
  · intro u hu
    simp only [Ssc.at, Ssc.put] at hu
    split at hu
    · exact hd hu
    rename_i hne
    have hv := ho.valid u
    have h1 := hopen u
    have h2 := hc u hne
    cases hq : s.sc u <;> rw [hq] at hu hv h1 h2 <;> simp only [Sc.after] at hu
    · cases hu
    · rename_i h
      split at hu
      · cases hu
      · rename_i hn
        obtain ⟨x, hx⟩ := h1 h hne rfl
        obtain ⟨hm, he, _⟩ := (getSession_iff hi).mp hx
        exact hn ⟨h2 Sc.noConfusion, List.any_eq_true.mpr ⟨x, hm, by simp [he]⟩⟩
    · exact hv rfl
    all_goals
      split at hu
      · cases hu
      · rename_i hn; exact hn (h2 Sc.noConfusion)

theorem Ssc.Own.put' {s : Ssc} (ho : s.Own) {l : Lib} (hi : SInv l)
    (hopen : ∀ u h, s.sc u = .found h → ∃ x, getSession l h = some x)
    (hc : ∀ u, s.sc u ≠ .idle → 0 < l.count) : (s.put l).Own := by
  constructor
  · intro u h hu
    exact hopen u h (Sc.after_found hu)
  · intro u v h hu hv
    exact ho.only u v h (Sc.after_found hu) (Sc.after_found hv)
  · intro u hu
    simp only [Ssc.put] at hu
    have hv := ho.valid u
    have h1 := hopen u
    have h2 := hc u
    cases hq : s.sc u <;> rw [hq] at hu hv h1 h2 <;> simp only [Sc.after] at hu
    · cases hu
    · rename_i h
      split at hu
      · cases hu
      · rename_i hn
        obtain ⟨x, hx⟩ := h1 h rfl
        obtain ⟨hm, he, _⟩ := (getSession_iff hi).mp hx
        exact hn ⟨h2 Sc.noConfusion, List.any_eq_true.mpr ⟨x, hm, by simp [he]⟩⟩
    · exact hv rfl
    all_goals
      split at hu
      · cases hu
      · rename_i hn; exact hn (h2 Sc.noConfusion)

theorem Ssc.Own.at {s : Ssc} (ho : s.Own) (t : Nat) {p : Sc} (hp : ∀ h, p ≠ .found h) (hd : p ≠ .dangling) :
    (s.at t p).Own := by
  constructor
  · intro u h hu
    simp only [Ssc.at] at hu
    split at hu
    · exact absurd hu (hp h)
    · exact ho.isOpen u h hu
  · intro u v h hu hv
    simp only [Ssc.at] at hu hv
    split at hu
    · exact absurd hu (hp h)
    split at hv
    · exact absurd hv (hp h)
    exact ho.only u v h hu hv
  · intro u hu
    simp only [Ssc.at] at hu
    split at hu
    · exact hd hu
    · exact ho.valid u hu

theorem own_step {e : Env} {s : Ssc} (hi : SInv s.lib) (hs : s.Held) (ho : s.Own) {v : SEv} (ha : s.ApartAt v)
    (hb : (s.step e v).1.lib.bad = false) : (s.step e v).1.Own := by
  have hi' := Ssc.sinv_step hi hs e v
  have hb0 := Ssc.step_good hb
  have hnb : ¬ s.lib.bad = true := by rw [hb0]; exact Bool.noConfusion
  have hcnt : ∀ u, s.sc u ≠ .idle → 0 < s.lib.count := fun u hu => hs u hu (ho.valid u)
  cases v with
  | call c =>
    refine ho.put' hi' ?_ ?_
    · intro u h hu
      have hv := ha.1 u h hu
      simp only [Closes, not_or] at hv
      obtain ⟨x, hx⟩ := ho.isOpen u h hu
      have h1 : OpenAs e s.lib h (x.use == .rw) := (openAs_iff hi).mpr ⟨hb0, x, hx, rfl⟩
      obtain ⟨_, y, hy, _⟩ := (openAs_iff hi').mp (openAs_step hi h1 hv.1 hv.2.1 hv.2.2 hb)
      exact ⟨y, hy⟩
    · intro u hu
      have h1 := hcnt u hu
      by_cases hf : c = .cFinal
      · exact absurd (ha.2 (by rw [hf]) u) hu
      · obtain ⟨_, _, he⟩ := Verif.step_good hb
        have h2 := callBody_count e s.lib c
        rw [he]
        cases c <;> simp_all <;> omega
  | close t k =>
    simp only [Ssc.step, if_neg hnb]
    split
    · rcases beginClose_cases s.lib k with ⟨h1, _⟩ | ⟨h1, _, h2, x, hx⟩ <;> rw [h1]
      · exact ho.at t (fun _ => Sc.noConfusion) Sc.noConfusion
      · constructor
        · intro u h hu
          simp only [Ssc.at] at hu
          split at hu
          · cases hu; exact ⟨x, hx⟩
          · exact ho.isOpen u h hu
        · intro u v h hu hv
          simp only [Ssc.at] at hu hv
          split at hu
          · rename_i hut
            split at hv
            · rename_i hvt; rw [hut, hvt]
            · cases hu; exact absurd rfl (ha.1 v k hv)
          · split at hv
            · cases hv; exact absurd rfl (ha.1 u k hu)
            · exact ho.only u v h hu hv
        · intro u hu
          simp only [Ssc.at] at hu
          split at hu
          · cases hu
          · exact ho.valid u hu
    · exact ho
  | go t =>
    cases ht : s.sc t with
    | idle => rw [Ssc.go_idle hb0 ht]; exact ho
    | found h =>
      rw [Ssc.go_found hb0 ht] at hi' ⊢
      have hc := hcnt t (by rw [ht]; exact Sc.noConfusion)
      refine ho.put hi' t (fun _ => Sc.noConfusion) Sc.noConfusion ?_ (fun _ _ _ => hc)
      intro u k hne hu
      have hk : k ≠ h := by
        intro hk
        exact hne (ho.only u t h (hk ▸ hu) ht)
      obtain ⟨x, hx⟩ := ho.isOpen u k hu
      exact ⟨x, ((getSession_closeOne hi hc h).2 k hk).trans hx⟩
    | dangling => exact absurd ht (ho.valid t)
    | finalized =>
      rw [Ssc.go_finalized hb0 ht]
      split
      · exact ho.at t (fun _ => Sc.noConfusion) Sc.noConfusion
      · exact ho.at t (fun _ => Sc.noConfusion) Sc.noConfusion
    | leaving =>
      rw [Ssc.go_leaving hb0 ht] at hi' ⊢
      refine ho.put hi' t (fun _ => Sc.noConfusion) Sc.noConfusion ?_ (fun u _ hu => hcnt u hu)
      intro u k _ hu
      exact ho.isOpen u k hu

theorem own_run {e : Env} {s : Ssc} (hi : SInv s.lib) (hs : s.Held) (ho : s.Own) {vs : List SEv} (ha : s.Apart e vs)
    (hb : (s.run e vs).lib.bad = false) : (s.run e vs).Own := by
  induction vs generalizing s with
  | nil => exact ho
  | cons v vs ih =>
    exact ih (Ssc.sinv_step hi hs e v) (Ssc.held_step hs e v) (own_step hi hs ho ha.1 (Ssc.run_good hb)) ha.2 hb

/-- C106, third part: while no two threads close one session and nobody calls `C_Finalize` during a
`C_CloseSession`, every part of a `C_CloseSession` works on valid memory, its answer is `CKR_OK`, and
it closes exactly the session it was asked to close. -/
theorem c106_apart (e : Env) (s : Ssc) (h₀ : Start s.lib) (hq : s.Quiet) (vs : List SEv) (ha : s.Apart e vs)
    (hb : (s.run e vs).lib.bad = false) (t : Nat) :
    let s' := s.run e vs
    let r := s'.step e (.go t)
    r.1.lib.bad = false ∧ (∀ x, r.2 = some x → x = { rv := .ok }) ∧
    (∀ h, s'.sc t = .found h → IsOpen e s'.lib h ∧ ¬ IsOpen e r.1.lib h ∧
      r.1.lib.token = s'.lib.token ∧ ∀ k, k ≠ h → getSession r.1.lib k = getSession s'.lib k) ∧
    ((∀ h, s'.sc t ≠ .found h) → ∀ k, getSession r.1.lib k = getSession s'.lib k) := by
  intro s' r
  obtain ⟨hi, hs⟩ := Ssc.inv_run h₀.sinv hq.held e vs
  have hown : s'.Own := own_run h₀.sinv hq.held
    ⟨fun t h hc => by (rw [hq t] at hc; cases hc), fun t u h hc => by (rw [hq t] at hc; cases hc),
      fun t hc => by (rw [hq t] at hc; cases hc)⟩ ha hb
  have hi' : SInv r.1.lib := Ssc.sinv_step hi hs e (.go t)
  have hne : ∀ {p q : Sc}, s'.sc t = p → p ≠ q → s'.sc t ≠ q := fun h1 h2 h3 => h2 (h1.symm.trans h3)
  match hp : s'.sc t with
  | .idle =>
    have hr : r = _ := Ssc.go_idle hb hp
    rw [hr]
    exact ⟨hb, fun x hx => (nomatch hx), fun h hh => (nomatch hh), fun _ _ => rfl⟩
  | .found h =>
    have hr : r = _ := Ssc.go_found hb hp
    have hc : 0 < s'.lib.count := hs t (hne hp Sc.noConfusion) (hne hp Sc.noConfusion)
    obtain ⟨g1, g2⟩ := getSession_closeOne hi hc h
    refine ⟨by rw [hr]; exact hb, by rw [hr]; exact fun x hx => (nomatch hx), ?_, fun hh => absurd rfl (hh h)⟩
    intro k hk
    obtain rfl : h = k := by simpa using hk
    refine ⟨(isOpen_iff hi).mpr ⟨hb, hown.isOpen t h hp⟩, ?_, by rw [hr]; rfl, by rw [hr]; exact g2⟩
    rw [isOpen_iff hi']
    rintro ⟨_, x, hx⟩
    rw [hr] at hx
    exact nomatch (g1.symm.trans hx)
  | .dangling => exact absurd hp (hown.valid t)
  | .finalized =>
    have hr : r = _ := Ssc.go_finalized hb hp
    refine ⟨?_, ?_, fun h hh => (nomatch hh), ?_⟩
    all_goals
      rw [hr]
      split
    · exact hb
    · exact hb
    · intro x hx; cases hx; rfl
    · intro x hx; cases hx
    · exact fun _ _ => rfl
    · exact fun _ _ => rfl
  | .leaving =>
    have hr : r = _ := Ssc.go_leaving hb hp
    refine ⟨?_, ?_, fun h hh => (nomatch hh), ?_⟩
    all_goals rw [hr]
    · exact hb
    · intro x hx; cases hx; rfl
    · exact fun _ _ => rfl

/-- Somebody is past the point where the session is closed. -/
def Ssc.Past (s : Ssc) : Prop := ∃ t, s.sc t = .finalized ∨ s.sc t = .leaving ∨ s.sc t = .dangling

/-- Nobody is logged in without a session, unless a thread is about to see to it. -/
def Ssc.Tidy (s : Ssc) : Prop :=
  s.lib.bad = true ∨ s.lib.count ≤ 0 ∨ anyInUse s.lib.sessions = true ∨ s.lib.token.login = .pub ∨ s.Past

theorem Ssc.Past.put {s : Ssc} (h : s.Past) (l : Lib) : (s.put l).Past := by
  obtain ⟨t, ht⟩ := h
  refine ⟨t, ?_⟩
  simp only [Ssc.put]
  rcases ht with ht | ht | ht <;> rw [ht] <;> simp only [Sc.after] <;> split <;> simp

theorem Ssc.Past.at {s : Ssc} (h : s.Past) {t : Nat} (ht : s.sc t = .idle ∨ ∃ k, s.sc t = .found k) (p : Sc) :
    (s.at t p).Past := by
  obtain ⟨u, hu⟩ := h
  refine ⟨u, ?_⟩
  have hne : u ≠ t := by
    rintro rfl
    rcases ht with ht | ⟨k, ht⟩ <;> rw [ht] at hu <;> rcases hu with hu | hu | hu <;> cases hu
  simp only [Ssc.at, if_neg hne]
  exact hu

/-- With no session in use a whole call, other than `C_CloseAllSessions`, logs nobody in. -/
theorem tidy_call {e : Env} {l : Lib} {c : Call} (hc : ∀ i, c ≠ .slot i .closeAll)
    (h : l.count ≤ 0 ∨ anyInUse l.sessions = true ∨ l.token.login = .pub) :
    (callBody e l c).1.count ≤ 0 ∨ anyInUse (callBody e l c).1.sessions = true ∨
      (callBody e l c).1.token.login = .pub := by
  cases c with
  | cInit =>
    simp only [callBody, cInitialize]
    split
    · exact .inr (.inr (loadToken_login ..))
    · rename_i h0
      rcases h with h | h | h
      · left; omega
      · exact .inr (.inl h)
      · exact .inr (.inr h)
  | cFinal =>
    simp only [callBody, cFinalize]
    split
    · exact .inr (.inr rfl)
    · rcases h with h | h | h
      · left; dsimp only; omega
      · exact .inr (.inl h)
      · exact .inr (.inr h)
  | slot id c =>
    simp only [callBody]
    split
    · exact h
    split
    · exact h
    rename_i h0 _
    have h' : anyInUse l.sessions = true ∨ l.token.login = .pub := by
      rcases h with h | h | h
      · exact absurd h h0
      · exact .inl h
      · exact .inr h
    cases c with
    | tokenInfo p n => simp only [slotCall]; split <;> exact .inr h'
    | initToken p lab =>
      obtain ⟨h1, _, h3⟩ := initToken_sessions e l p lab
      simp only [slotCall]
      rw [h1]
      rcases h3 with h3 | h3 <;> rw [h3]
      · exact .inr h'
      · exact .inr (.inr rfl)
    | openSession rw s p =>
      simp only [slotCall]
      split
      · exact .inr h'
      split
      · exact .inr h'
      unfold openSession
      dsimp only
      split
      · exact .inr h'
      split
      · rename_i t ht
        refine .inr (.inl (anyInUse_iff.mpr ⟨{ t with use := if rw then .rw else .ro }, ?_, ?_⟩))
        · exact List.mem_map.mpr ⟨t, List.mem_of_find?_eq_some ht, by simp⟩
        · cases rw <;> exact Use.noConfusion
      split
      · exact .inr h'
      split
      · refine .inr (.inl (anyInUse_iff.mpr ⟨_, List.mem_cons_self .., ?_⟩))
        cases rw <;> exact Use.noConfusion
      · exact .inr h'
    | closeAll => exact absurd rfl (hc id)
  | sess k c =>
    simp only [callBody]
    split
    · exact h
    split
    · exact h
    rename_i h0 _ s hs
    by_cases hcl : c = .close
    · subst hcl
      simp only [sessCall, closeSession]
      split
      · rename_i hu; exact .inr (.inl hu)
      · exact .inr (.inr (logout_login ..))
    · have hf := frame_sessCall e l s c hcl
      obtain ⟨hsh, _, _⟩ := getSession_handle hs
      obtain ⟨s', hs', hu⟩ := hf.getSession_eq (hsh.symm ▸ hs)
      obtain ⟨_, hu', hm⟩ := getSession_handle hs'
      exact .inr (.inl (anyInUse_iff.mpr ⟨s', hm, hu'⟩))

theorem tidy_step {e : Env} {s : Ssc} (h : s.Tidy) {v : SEv}
    (hv : ∀ i, v ≠ .call (.slot i .closeAll)) : (s.step e v).1.Tidy := by
  cases hb : s.lib.bad with
  | true =>
    left
    cases hb' : (s.step e v).1.lib.bad with
    | true => rfl
    | false => rw [Ssc.step_good hb'] at hb; cases hb
  | false =>
    cases v with
    | call c =>
      simp only [Ssc.step]
      cases hb' : (Verif.step e s.lib c).1.bad with
      | true => exact .inl hb'
      | false =>
        obtain ⟨_, _, he⟩ := Verif.step_good hb'
        rcases h with h | h | h | h | h
        · rw [hb] at h; cases h
        · have := tidy_call (e := e) (c := c) (fun i hc => hv i (by rw [hc])) (.inl h)
          rw [← he] at this
          exact .inr (this.elim .inl fun h => .inr (h.elim .inl fun h => .inr (.inl h)))
        · have := tidy_call (e := e) (c := c) (fun i hc => hv i (by rw [hc])) (.inr (.inl h))
          rw [← he] at this
          exact .inr (this.elim .inl fun h => .inr (h.elim .inl fun h => .inr (.inl h)))
        · have := tidy_call (e := e) (c := c) (fun i hc => hv i (by rw [hc])) (.inr (.inr h))
          rw [← he] at this
          exact .inr (this.elim .inl fun h => .inr (h.elim .inl fun h => .inr (.inl h)))
        · exact .inr (.inr (.inr (.inr (h.put _))))
    | close t k =>
      have hnb : ¬ s.lib.bad = true := by rw [hb]; exact Bool.noConfusion
      simp only [Ssc.step, if_neg hnb]
      split
      · rename_i ht
        rcases h with h | h | h | h | h
        · exact .inl h
        · exact .inr (.inl h)
        · exact .inr (.inr (.inl h))
        · exact .inr (.inr (.inr (.inl h)))
        · exact .inr (.inr (.inr (.inr (h.at (.inl ht) _))))
      · exact h
    | go t =>
      cases ht : s.sc t with
      | idle => rw [Ssc.go_idle hb ht]; exact h
      | found k =>
        rw [Ssc.go_found hb ht]
        exact .inr (.inr (.inr (.inr ⟨t, .inl (by simp [Ssc.at])⟩)))
      | dangling => rw [Ssc.go_dangling hb ht]; exact .inl rfl
      | finalized =>
        rw [Ssc.go_finalized hb ht]
        split
        · rename_i hu; exact .inr (.inr (.inl hu))
        · exact .inr (.inr (.inr (.inr ⟨t, .inr (.inl (by simp [Ssc.at]))⟩)))
      | leaving =>
        rw [Ssc.go_leaving hb ht]
        exact .inr (.inr (.inr (.inl (logout_login ..))))

theorem tidy_run {e : Env} {s : Ssc} (hi : SInv s.lib) (hs : s.Held) (h : s.Tidy) {vs : List SEv}
    (hv : NoCloseAll vs) : (s.run e vs).Tidy := by
  induction vs generalizing s with
  | nil => exact h
  | cons v vs ih =>
    exact ih (Ssc.sinv_step hi hs e v) (Ssc.held_step hs e v)
      (tidy_step h fun i hc => hv i (by rw [hc]; exact List.mem_cons_self ..))
      fun i hc => hv i (List.mem_cons_of_mem _ hc)

/-- C106, fourth part: whatever the threads do, when no thread is inside `C_CloseSession` any more and
no session is open, nobody is logged in: a session opened next is public.
(`C_CloseAllSessions` is excluded: by C06 it leaves the login as it is.) -/
theorem c106_logged_out (e : Env) (s : Ssc) (h₀ : Start s.lib) (hq : s.Quiet) (vs : List SEv) (hv : NoCloseAll vs)
    (hq' : (s.run e vs).Quiet) (hin : Initialised e (s.run e vs).lib)
    (hno : ∀ k, ¬ IsOpen e (s.run e vs).lib k) (rw' : Bool) :
    let l := (s.run e vs).lib
    ∃ k, answer e l (openCall rw') = { rv := .ok, handle := some k } ∧
      sessionInfo e (step e l (openCall rw')).1 k =
        { rv := .ok, state := some (if rw' then .rwPublic else .roPublic, rw') } := by
  intro l
  obtain ⟨hi, _⟩ := Ssc.inv_run h₀.sinv hq.held e vs
  have hb : l.bad = false := by
    cases hb : l.bad with
    | false => rfl
    | true =>
      unfold Initialised answer at hin
      rw [show (s.run e vs).lib = l from rfl, step_bad hb] at hin; cases hin
  have hc : 0 < l.count := (initialised_iff hb).mp hin
  have hunused : ∀ s ∈ l.sessions, s.use = .no := by
    intro t ht
    apply Decidable.byContradiction
    intro hu
    exact hno t.handle ((isOpen_iff hi).mpr ⟨hb, t, (getSession_iff hi).mpr ⟨ht, rfl, hu⟩⟩)
  have hp : l.token.login = .pub := by
    rcases tidy_run (e := e) h₀.sinv hq.held (.inr (.inl (by rw [h₀.count]; omega))) hv with h | h | h | h | h
    · exact nomatch hb.symm.trans h
    · exact absurd hc (by show ¬ 0 < (s.run e vs).lib.count; omega)
    · obtain ⟨t, ht, hu⟩ := anyInUse_iff.mp h
      exact absurd (hunused t ht) hu
    · exact h
    · obtain ⟨t, ht⟩ := h
      rw [hq' t] at ht
      rcases ht with ht | ht | ht <;> cases ht
  obtain ⟨hb3, hsp⟩ := openSession_spec (e := e) hi hb hc rw'
  rcases hsp with ⟨_, hso, _⟩ | ⟨_, h70, hall, _⟩ | ⟨_, _, k, hr2, _, ⟨t, ht, hrw, _⟩, _, htok, hcnt2⟩
  · rw [show (s.run e vs).lib.token.login = .pub from hp] at hso; cases hso
  · exfalso
    cases hss : l.sessions with
    | nil => rw [show (s.run e vs).lib.sessions = [] from hss] at h70; simp at h70
    | cons a as =>
      have ha : a ∈ l.sessions := by rw [hss]; simp
      exact hall a ha (hunused a ha)
  · refine ⟨k, hr2, ?_⟩
    rw [sessionInfo_eq hb3 (by rw [hcnt2]; exact hc), ht]
    simp only [sessState, htok, hrw]
    rw [show (s.run e vs).lib.token.login = .pub from hp]
    cases rw'
    · have : ¬ t.use = .rw := by simpa using hrw
      simp [this]
    · have : t.use = .rw := by simpa using hrw
      simp [this]

/-- The library of the examples, nobody inside a call. -/
def Demo.sscFresh : Ssc := { lib := Demo.fresh }

/-- Whole calls. -/
def Ssc.calls (cs : List Call) : List SEv := cs.map .call

/-- Three sessions, the user logged in; two threads close a session each, in turns. -/
def Demo.closing : List SEv :=
  Ssc.calls (Demo.setup ++ [openCall true, openCall false]) ++ [.close 0 65538, .close 1 65537, .go 0]

/-- They finish, and one of them closes the last session. -/
def Demo.twoClose : List SEv :=
  Demo.closing ++ [.go 1, .go 0, .go 1, .close 0 65539, .go 0, .go 0, .go 0]

/-- Non-vacuity of `c106_apart` and `c106_stays_open`: two threads inside `C_CloseSession`, one of them
with its session still open; session 65539 is nobody's concern. -/
example : Demo.sscFresh.Apart Demo.env Demo.closing ∧ (Demo.sscFresh.run Demo.env Demo.closing).lib.bad = false ∧
    (Demo.sscFresh.run Demo.env Demo.closing).sc 1 = .found 65537 ∧
    (Demo.sscFresh.run Demo.env Demo.closing).sc 0 = .finalized ∧
    OpenAs Demo.env (Demo.sscFresh.run Demo.env Demo.closing).lib 65539 false :=
  ⟨(Ssc.apart_of (n := 2) (fun _ _ => rfl) (by decide)).1, by decide, by decide, by decide, ⟨.roUser, by decide⟩⟩

/-- Non-vacuity of `c106_logged_out`: all have finished, all said `CKR_OK`, no session is open; before the last of
them was closed it was in use by the user. -/
example : NoCloseAll Demo.twoClose ∧ (Demo.sscFresh.run Demo.env Demo.twoClose).Quiet ∧
    Initialised Demo.env (Demo.sscFresh.run Demo.env Demo.twoClose).lib ∧
    (∀ k, ¬ IsOpen Demo.env (Demo.sscFresh.run Demo.env Demo.twoClose).lib k) ∧
    (Demo.sscFresh.returns Demo.env Demo.twoClose).all (·.rv = .ok) = true := by
  have hap := Ssc.apart_of (n := 2) (s := Demo.sscFresh) (fun _ _ => rfl) (e := Demo.env) (vs := Demo.twoClose) (by decide)
  refine ⟨?_, ?_, by unfold Initialised; decide, ?_, by decide⟩
  · intro i hi
    simp [Demo.twoClose, Demo.closing, Ssc.calls, Demo.setup, openCall] at hi
  · intro t
    match t with
    | 0 => decide
    | 1 => decide
    | t + 2 => exact hap.2 _ (by omega)
  · intro k ho
    have hq : Demo.sscFresh.Quiet := fun _ => rfl
    obtain ⟨hi, _⟩ := Ssc.inv_run (s := Demo.sscFresh) Demo.fresh_start.sinv hq.held Demo.env Demo.twoClose
    obtain ⟨_, x, hx⟩ := (isOpen_iff hi).mp ho
    obtain ⟨hm, _, hu⟩ := (getSession_iff hi).mp hx
    have : anyInUse (Demo.sscFresh.run Demo.env Demo.twoClose).lib.sessions = false := by decide
    rw [anyInUse_iff.mpr ⟨x, hm, hu⟩] at this
    cases this

/-- Thread 0 closes the last session and has seen that no session is open; then another thread opens a
session and logs in. -/
def Demo.lateLogout : List SEv :=
  Ssc.calls (Demo.setup.take 6) ++ [.close 0 65538, .go 0, .go 0] ++
    Ssc.calls [openCall true, .sess 65538 (.login .user (some Demo.userPin) 0)]

/-- Two threads close the same session; in between it is closed and opened anew. -/
def Demo.sameClose : List SEv :=
  Ssc.calls (Demo.setup ++ [openCall true]) ++ [.close 0 65538, .close 1 65538, .go 0] ++ Ssc.calls [openCall true]

/-- Two threads close the same session, which has been added to the first two. -/
def Demo.sameFree : List SEv :=
  Ssc.calls (Demo.setup ++ [openCall true, openCall true]) ++ [.close 0 65539, .close 1 65539, .go 0]

/-- C106 fails in three ways.  A login that said `CKR_OK` in a session that is open and that nobody closes is
undone by a thread that closes another session.  A session just opened is closed by a thread that had
asked to close the one before it.  And two threads that close the same session may use memory that is
freed. -/
theorem c106_violated :
    (let s := Demo.sscFresh.run Demo.env Demo.lateLogout
     (Demo.sscFresh.returns Demo.env Demo.lateLogout).all (·.rv = .ok) = true ∧
     sessionInfo Demo.env s.lib 65538 = { rv := .ok, state := some (.rwUser, true) } ∧
     sessionInfo Demo.env (s.step Demo.env (.go 0)).1.lib 65538 = { rv := .ok, state := some (.rwPublic, true) }) ∧
    (let s := Demo.sscFresh.run Demo.env Demo.sameClose
     (Demo.sscFresh.returns Demo.env Demo.sameClose).all (·.rv = .ok) = true ∧
     ((Demo.sscFresh.returns Demo.env Demo.sameClose).getLast?.bind (·.handle)) = some 65538 ∧
     sessionInfo Demo.env (s.step Demo.env (.go 1)).1.lib 65538 = { rv := .sessionHandleInvalid }) ∧
    (let s := Demo.sscFresh.run Demo.env Demo.sameFree
     s.lib.bad = false ∧ (s.step Demo.env (.go 1)).2 = some { rv := .ub }) := by
  refine ⟨⟨?_, ?_, ?_⟩, ⟨?_, ?_, ?_⟩, ?_, ?_⟩ <;> decide

end Verif
