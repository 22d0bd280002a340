import Verif.Proofs.TokFrame

/-!
# The invariant of the list of sessions
-/

namespace Verif

/-- The handles of `n` sessions from the head of the list on. -/
def down : Nat → List Nat
  | 0 => []
  | n + 1 => (65536 + (n + 1)) :: down n

theorem mem_down {h n : Nat} : h ∈ down n ↔ 65536 < h ∧ h ≤ 65536 + n := by
  induction n with
  | zero => simp only [down, List.not_mem_nil, false_iff]; omega
  | succ n ih => simp only [down, List.mem_cons, ih]; omega

theorem length_down (n : Nat) : (down n).length = n := by
  induction n with
  | zero => rfl
  | succ n ih => simp [down, ih]

theorem nodup_down (n : Nat) : (down n).Nodup := by
  induction n with
  | zero => simp [down]
  | succ n ih =>
    simp only [down, List.nodup_cons, ih, and_true, mem_down]
    omega

/-- Handles of a list of sessions. -/
abbrev handles (ss : List Session) : List Nat := ss.map (·.handle)

/-- The invariant. -/
structure SInv (l : Lib) : Prop where
  shape : (l.count ≤ 0 ∧ l.sessions = []) ∨
    (0 < l.count ∧ ∃ n, 2 ≤ n ∧ n ≤ 70 ∧ handles l.sessions = down n)
  idle : ∀ s ∈ l.sessions, s.use = .no → s.objs = [] ∧ s.curr = none
  so : l.token.login = .so → ∀ s ∈ l.sessions, s.use ≠ .ro

theorem SInv.nodup {l : Lib} (h : SInv l) : (handles l.sessions).Nodup := by
  rcases h.shape with ⟨_, h⟩ | ⟨_, n, _, _, h⟩
  · simp [handles, h]
  · rw [h]; exact nodup_down n

/-! ## Looking up a session -/

theorem find_iff {ss : List Session} (hn : (handles ss).Nodup) {h : Nat} {s : Session} :
    ss.find? (fun t => t.handle == h) = some s ↔ s ∈ ss ∧ s.handle = h := by
  induction ss with
  | nil => simp
  | cons t ss ih =>
    simp only [handles, List.map_cons, List.nodup_cons] at hn
    simp only [List.find?_cons]
    by_cases ht : t.handle = h
    · simp only [ht, beq_self_eq_true, Option.some.injEq]
      constructor
      · rintro rfl; simp [ht]
      · rintro ⟨hm, hs⟩
        rcases List.mem_cons.mp hm with rfl | hm
        · rfl
        · exact absurd (List.mem_map.mpr ⟨s, hm, hs.trans ht.symm⟩) hn.1
    · have : (t.handle == h) = false := by simp [ht]
      rw [this, ih hn.2]
      simp only [List.mem_cons]
      constructor
      · rintro ⟨hm, hs⟩; exact ⟨.inr hm, hs⟩
      · rintro ⟨rfl | hm, hs⟩
        · exact absurd hs ht
        · exact ⟨hm, hs⟩

theorem find_none_iff {ss : List Session} {h : Nat} :
    ss.find? (fun t => t.handle == h) = none ↔ h ∉ handles ss := by
  simp [handles]

/-- A valid handle is that of a session in use. -/
theorem getSession_iff {l : Lib} (hi : SInv l) {h : Nat} {s : Session} :
    getSession l h = some s ↔ s ∈ l.sessions ∧ s.handle = h ∧ s.use ≠ .no := by
  have hr : ∀ t ∈ l.sessions, t.handle / 65536 = 1 := by
    intro t ht
    rcases hi.shape with ⟨_, h⟩ | ⟨_, n, _, hn, h⟩
    · simp [h] at ht
    · have hm : t.handle ∈ handles l.sessions := List.mem_map.mpr ⟨t, ht, rfl⟩
      rw [h] at hm
      have := mem_down.mp hm
      omega
  unfold getSession
  by_cases hh : h / 65536 ≠ 1
  · rw [if_pos hh]
    constructor
    · simp
    · rintro ⟨hm, rfl, _⟩; exact absurd (hr s hm) hh
  · rw [if_neg hh]
    cases hf : l.sessions.find? (fun t => t.handle == h) with
    | none =>
      simp only [Option.bind_none, reduceCtorEq, false_iff]
      rintro ⟨hm, hs, _⟩
      exact find_none_iff.mp hf (List.mem_map.mpr ⟨s, hm, hs⟩)
    | some t =>
      obtain ⟨hm, ht⟩ := (find_iff hi.nodup).mp hf
      simp only [Option.bind_some]
      by_cases hu : t.use = .no
      · simp only [hu, if_true, reduceCtorEq, false_iff]
        rintro ⟨hm', hs, hu'⟩
        have := (find_iff hi.nodup).mpr ⟨hm', hs⟩
        rw [hf] at this
        cases this
        exact hu' hu
      · simp only [hu, if_false, Option.some.injEq]
        constructor
        · rintro rfl; exact ⟨hm, ht, hu⟩
        · rintro ⟨hm', hs, _⟩
          have := (find_iff hi.nodup).mpr ⟨hm', hs⟩
          rw [hf] at this
          exact Option.some.inj this

theorem getSession_handle {l : Lib} {h : Nat} {s : Session} (hs : getSession l h = some s) :
    s.handle = h ∧ s.use ≠ .no ∧ s ∈ l.sessions := by
  unfold getSession at hs
  split at hs
  · cases hs
  · cases hf : l.sessions.find? (fun t => t.handle == h) with
    | none => simp [hf] at hs
    | some t =>
      simp only [hf, Option.bind_some] at hs
      split at hs
      · cases hs
      · rename_i hu
        cases hs
        exact ⟨find_handle hf, hu, List.mem_of_find?_eq_some hf⟩

/-- `getSession` depends only on the list of sessions. -/
theorem getSession_congr {l l' : Lib} (h : l'.sessions = l.sessions) (k : Nat) :
    getSession l' k = getSession l k := by unfold getSession; rw [h]

theorem find_map_ne {ss : List Session} {h k : Nat} {g : Session → Session}
    (hg : ∀ t, (g t).handle = t.handle) (hk : k ≠ h) :
    (ss.map fun t => if t.handle = h then g t else t).find? (fun t => t.handle == k) =
      ss.find? (fun t => t.handle == k) := by
  induction ss with
  | nil => rfl
  | cons t ss ih =>
    simp only [List.map_cons, List.find?_cons]
    by_cases ht : t.handle = h
    · have hne : (h == k) = false := by simp; omega
      simp only [ht, if_true, hg, hne, ih]
    · simp only [ht, if_false, ih]

theorem find_map_eq {ss : List Session} {h : Nat} {g : Session → Session}
    (hg : ∀ t, (g t).handle = t.handle) :
    (ss.map fun t => if t.handle = h then g t else t).find? (fun t => t.handle == h) =
      (ss.find? (fun t => t.handle == h)).map g := by
  induction ss with
  | nil => rfl
  | cons t ss ih =>
    simp only [List.map_cons, List.find?_cons]
    by_cases ht : t.handle = h
    · simp [ht, hg]
    · have hne : (t.handle == h) = false := by simp [ht]
      simp only [ht, if_false, ih, hne]

/-- A call in the frame of `h` leaves every other session. -/
theorem Frame.getSession_ne {h k : Nat} {l l' : Lib} (hf : Frame h l l') (hk : k ≠ h) :
    getSession l' k = getSession l k := by
  obtain ⟨_, g, hg, hs⟩ := hf
  unfold getSession
  rw [hs, find_map_ne (fun t => (hg t).1) hk]

/-- A call in the frame of `h` leaves that session's handle and mode. -/
theorem Frame.getSession_eq {h : Nat} {l l' : Lib} (hf : Frame h l l') {s : Session}
    (hs : getSession l h = some s) : ∃ s', getSession l' h = some s' ∧ s'.use = s.use := by
  obtain ⟨_, g, hg, he⟩ := hf
  refine ⟨g s, ?_, (hg s).2⟩
  unfold getSession at hs ⊢
  split at hs
  · cases hs
  · rename_i hh
    rw [if_neg hh, he, find_map_eq (fun t => (hg t).1)]
    cases hc : l.sessions.find? (fun t => t.handle == h) with
    | none => simp [hc] at hs
    | some t =>
      simp only [hc, Option.bind_some] at hs
      split at hs
      · cases hs
      · rename_i hu
        cases hs
        simp [(hg s).2, hu]

/-! ## Invariance -/

theorem Frame.handles {h : Nat} {l l' : Lib} (hf : Frame h l l') :
    handles l'.sessions = handles l.sessions := by
  obtain ⟨_, g, hg, he⟩ := hf
  rw [he, Verif.handles, List.map_map]
  refine List.map_congr_left fun t _ => ?_
  simp only [Function.comp_apply]
  split
  · exact (hg t).1
  · rfl

theorem Frame.mem {h : Nat} {l l' : Lib} (hf : Frame h l l') {s' : Session} (hs : s' ∈ l'.sessions) :
    ∃ s ∈ l.sessions, s'.handle = s.handle ∧ s'.use = s.use ∧ (s.handle ≠ h → s' = s) := by
  obtain ⟨_, g, hg, he⟩ := hf
  rw [he] at hs
  obtain ⟨s, hm, rfl⟩ := List.mem_map.mp hs
  refine ⟨s, hm, ?_⟩
  by_cases ht : s.handle = h
  · simp [ht, (hg s).1, (hg s).2]
  · simp [ht]

theorem SInv.frame {h : Nat} {l l' : Lib} (hi : SInv l) (hf : Frame h l l') {s : Session}
    (hs : getSession l h = some s)
    (hso : l'.token.login = .so → ∀ s ∈ l.sessions, s.use ≠ .ro) : SInv l' := by
  obtain ⟨rfl, hu, hm⟩ := getSession_handle hs
  constructor
  · rw [hf.count, hf.handles]
    rcases hi.shape with ⟨_, h⟩ | h
    · simp [h] at hm
    · exact .inr h
  · intro t' ht' hn
    obtain ⟨t, ht, h1, h2, h3⟩ := hf.mem ht'
    have hne : t.handle ≠ s.handle := by
      intro he
      have := (find_iff hi.nodup).mpr ⟨ht, he⟩
      rw [(find_iff hi.nodup).mpr ⟨hm, rfl⟩] at this
      cases this
      exact hu (h2 ▸ hn)
    rw [h3 hne] at hn ⊢
    exact hi.idle t ht hn
  · intro hl t' ht'
    obtain ⟨t, ht, _, h2, _⟩ := hf.mem ht'
    rw [h2]
    exact hso hl t ht

theorem sessFinal_handle (s : Session) : (sessFinal s).handle = s.handle := rfl
theorem sessFinal_use (s : Session) : (sessFinal s).use = .no := rfl

theorem dropUnused_suffix (ss : List Session) : dropUnused ss <:+ ss := by
  induction ss with
  | nil => exact List.suffix_rfl
  | cons s ss ih =>
    simp only [dropUnused]
    split
    · exact ih.trans (List.suffix_cons s ss)
    · exact List.suffix_rfl

theorem sessId_down {n : Nat} (h : n ≤ 70) : sessId (65536 + n) = n := by
  unfold sessId; omega

theorem dropUnused_handles {ss : List Session} {n : Nat} (hn : 2 ≤ n) (h70 : n ≤ 70)
    (h : handles ss = down n) : ∃ m, 2 ≤ m ∧ m ≤ n ∧ handles (dropUnused ss) = down m := by
  induction ss generalizing n with
  | nil =>
    have := congrArg List.length h
    simp [handles, length_down] at this
    omega
  | cons s ss ih =>
    obtain ⟨n, rfl⟩ : ∃ k, n = k + 1 := ⟨n - 1, by omega⟩
    simp only [handles, List.map_cons, down, List.cons.injEq] at h
    simp only [dropUnused]
    split
    · rename_i hc
      rw [h.1, sessId_down h70] at hc
      have : 2 ≤ n := by have := hc.2; unfold sessMin at this; omega
      obtain ⟨m, h1, h2, h3⟩ := ih this (by omega) h.2
      exact ⟨m, h1, by omega, h3⟩
    · exact ⟨n + 1, hn, Nat.le_refl _, by simp [handles, h.1, h.2, down]⟩

/-- Sessions in use are not dropped. -/
theorem dropUnused_mem {ss : List Session} {s : Session} (hs : s ∈ ss) (hu : s.use ≠ .no) :
    s ∈ dropUnused ss := by
  induction ss with
  | nil => cases hs
  | cons t ss ih =>
    simp only [dropUnused]
    split
    · rename_i hc
      rcases List.mem_cons.mp hs with rfl | hs
      · exact absurd hc.1 hu
      · exact ih hs
    · exact hs

theorem mem_dropUnused {ss : List Session} {s : Session} (hs : s ∈ dropUnused ss) : s ∈ ss :=
  (dropUnused_suffix ss).subset hs

/-- What closing one session does to the list. -/
theorem closeOne_spec {ss : List Session} {n : Nat} (hn : 2 ≤ n) (h70 : n ≤ 70)
    (h : handles ss = down n) (k : Nat) :
    (∃ m, 2 ≤ m ∧ m ≤ 70 ∧ handles (closeOne ss k) = down m) ∧
    (∀ s ∈ ss, s.handle ≠ k → s.use ≠ .no → s ∈ closeOne ss k) ∧
    (∀ s ∈ closeOne ss k, s.handle ≠ k → s ∈ ss) ∧
    (∀ s ∈ closeOne ss k, s.handle = k → ∃ t ∈ ss, s = sessFinal t) := by
  cases ss with
  | nil =>
    have := congrArg List.length h
    simp [handles, length_down] at this
    omega
  | cons s ss =>
    have hnd : (handles (s :: ss)).Nodup := h ▸ nodup_down n
    obtain ⟨n, rfl⟩ : ∃ k, n = k + 1 := ⟨n - 1, by omega⟩
    have h' := h
    simp only [handles, List.map_cons, down, List.cons.injEq] at h'
    simp only [closeOne]
    split
    · rename_i hc
      obtain ⟨rfl, hid⟩ := hc
      have h2 : 2 ≤ n := by rw [h'.1, sessId_down h70] at hid; unfold sessMin at hid; omega
      obtain ⟨m, h3, h4, h5⟩ := dropUnused_handles h2 (by omega) h'.2
      refine ⟨⟨m, h3, by omega, h5⟩, ?_, ?_, ?_⟩
      · intro t ht hne hu
        rcases List.mem_cons.mp ht with rfl | ht
        · exact absurd rfl hne
        · exact dropUnused_mem ht hu
      · intro t ht _
        exact List.mem_cons_of_mem _ (mem_dropUnused ht)
      · intro t ht he
        simp only [handles, List.map_cons, List.nodup_cons] at hnd
        exact absurd (List.mem_map.mpr ⟨t, mem_dropUnused ht, he⟩) hnd.1
    · refine ⟨⟨n + 1, hn, h70, ?_⟩, ?_, ?_, ?_⟩
      · rw [← h, handles, handles, List.map_map]
        refine List.map_congr_left fun t _ => ?_
        simp only [Function.comp_apply]
        split
        · exact sessFinal_handle t
        · rfl
      · intro t ht hne _
        exact List.mem_map.mpr ⟨t, ht, by simp [hne]⟩
      · intro t ht hne
        obtain ⟨u, hu, rfl⟩ := List.mem_map.mp ht
        by_cases he : u.handle = k
        · simp only [he, if_true] at hne; exact absurd he hne
        · simpa [he] using hu
      · intro t ht he
        obtain ⟨u, hu, rfl⟩ := List.mem_map.mp ht
        by_cases hk : u.handle = k
        · exact ⟨u, hu, by simp [hk]⟩
        · simp only [hk, if_false] at he

theorem closeDown_handles {ss : List Session} {n : Nat} (hn : 2 ≤ n) (h70 : n ≤ 70)
    (h : handles ss = down n) (f : Nat) (hf : n ≤ f + 2) :
    handles (closeDown f ss) = down 2 ∧ closeDown f ss <:+ ss := by
  induction f generalizing ss n with
  | zero =>
    have : n = 2 := by omega
    subst this
    exact ⟨h, List.suffix_rfl⟩
  | succ f ih =>
    cases ss with
    | nil =>
      have := congrArg List.length h
      simp [handles, length_down] at this
      omega
    | cons s ss =>
      obtain ⟨n, rfl⟩ : ∃ k, n = k + 1 := ⟨n - 1, by omega⟩
      have h' := h
      simp only [handles, List.map_cons, down, List.cons.injEq] at h'
      simp only [closeDown, h'.1, sessId_down h70]
      split
      · rename_i hc
        unfold sessMin at hc
        obtain ⟨m, h3, h4, h5⟩ := dropUnused_handles (ss := ss) (n := n) (by omega) (by omega) h'.2
        obtain ⟨h6, h7⟩ := ih h3 (by omega) h5 (by omega)
        exact ⟨h6, h7.trans ((dropUnused_suffix ss).trans (List.suffix_cons s ss))⟩
      · rename_i hc
        unfold sessMin at hc
        have : n = 1 := by omega
        subst this
        exact ⟨h, List.suffix_rfl⟩

/-- What closing all sessions does to the list: the two first sessions are left, the
second is finalized, the first untouched. -/
theorem closeAll_spec {ss : List Session} {n : Nat} (hn : 2 ≤ n) (h70 : n ≤ 70)
    (h : handles ss = down n) :
    ∃ s2 s1, s2 ∈ ss ∧ s1 ∈ ss ∧ s2.handle = 65538 ∧ s1.handle = 65537 ∧
      closeAll ss = [sessFinal s2, s1] := by
  have hl : ss.length = n := by rw [← length_down n, ← h]; simp
  obtain ⟨h1, h2⟩ := closeDown_handles hn h70 h ss.length (by omega)
  unfold closeAll
  generalize closeDown ss.length ss = r at h1 h2 ⊢
  rcases r with _ | ⟨a, _ | ⟨b, _ | ⟨c, r⟩⟩⟩
  · simp [handles, down] at h1
  · simp [handles, down] at h1
  · simp only [handles, List.map_cons, List.map_nil, down, List.cons.injEq, and_true] at h1
    exact ⟨a, b, h2.subset (by simp), h2.subset (by simp), h1.1, h1.2, rfl⟩
  · simp [handles, down] at h1

theorem loadToken_login (e : StoreExt) (d : Disk) (u : Nat) : (loadToken e d u).login = .pub := by
  unfold loadToken
  repeat' split
  all_goals rfl

/-! ## The login state -/

theorem logout_login (e : Env) (l : Lib) : (logout e l).token.login = .pub := rfl

/-- Of the calls on a session, only a login as security officer makes it log in, and
only with no read-only session open. -/
theorem sessCall_so (e : Env) (l : Lib) (s : Session) (c : SessCall) (hc : c ≠ .close)
    (hi : l.token.login = .so → ∀ s ∈ l.sessions, s.use ≠ .ro)
    (h : (sessCall e l s c).1.token.login = .so) : ∀ s ∈ l.sessions, s.use ≠ .ro := by
  by_cases ha : c.isAccount = false
  · rw [(tframe_sessCall e l s c ha).login] at h
    exact hi h
  · cases c <;> simp only [SessCall.isAccount, not_true_eq_false] at ha <;> simp only [sessCall] at h
    case close => exact absurd rfl hc
    case logout => cases h
    case login u pin now =>
      unfold login at h
      repeat' split at h
      · exact hi h
      · exact hi h
      · unfold soLogin at h; dsimp only at h
        repeat' split at h
        · exact hi h
        · exact hi h
        · exact hi h
        · exact hi h
        · exact hi h
        · rename_i hro _ _
          intro t ht hr
          exact hro (List.any_eq_true.mpr ⟨t, ht, by simp [hr]⟩)
      · unfold userLogin at h; dsimp only at h
        repeat' split at h
        all_goals first | exact hi h | cases h
      · exact hi h
      · exact hi h
    case initPin p =>
      unfold initPin at h
      repeat' split at h
      all_goals exact hi h
    case setPin o n =>
      unfold setPin at h
      repeat' split at h
      all_goals exact hi h

theorem closeSession_login (e : Env) (l : Lib) (h : Nat) :
    (closeSession e l h).1.token.login = l.token.login ∨ (closeSession e l h).1.token.login = .pub := by
  unfold closeSession; dsimp only
  split
  · exact .inl rfl
  · exact .inr rfl

theorem closeSession_sessions (e : Env) (l : Lib) (h : Nat) :
    (closeSession e l h).1.sessions = closeOne l.sessions h ∧ (closeSession e l h).1.count = l.count := by
  unfold closeSession; dsimp only
  split <;> exact ⟨rfl, rfl⟩

theorem initToken_sessions (e : Env) (l : Lib) (p lab : Option Bytes) :
    (initToken e l p lab).1.sessions = l.sessions ∧ (initToken e l p lab).1.count = l.count ∧
    ((initToken e l p lab).1.token.login = l.token.login ∨ (initToken e l p lab).1.token.login = .pub) := by
  unfold initToken pinSet setSoPin Lib.store
  repeat' split
  all_goals first
    | exact ⟨rfl, rfl, .inl rfl⟩
    | exact ⟨rfl, rfl, .inr rfl⟩

/-- The invariant holds after every call. -/
theorem SInv.callBody {l : Lib} (hi : SInv l) (e : Env) (c : Call) : SInv (callBody e l c).1 := by
  cases c with
  | cInit =>
    simp only [Verif.callBody, cInitialize]
    by_cases hc : l.count = 0
    · simp only [hc, if_true]
      refine ⟨.inr ⟨by simp, 2, by omega, by omega, rfl⟩, ?_, ?_⟩
      · intro s hs _
        simp only [addSession, List.mem_cons, List.not_mem_nil, or_false] at hs
        rcases hs with rfl | rfl <;> exact ⟨rfl, rfl⟩
      · intro h
        simp only [loadToken_login] at h
        cases h
    · simp only [hc, if_false]
      refine ⟨?_, hi.idle, hi.so⟩
      rcases hi.shape with ⟨h1, h2⟩ | ⟨h1, h2⟩
      · exact .inl ⟨by show l.count + 1 ≤ 0; omega, h2⟩
      · exact .inr ⟨by show 0 < l.count + 1; omega, h2⟩
  | cFinal =>
    simp only [Verif.callBody, cFinalize]
    split
    · rename_i hc
      have hc' : l.count - 1 = 0 := hc
      refine ⟨.inl ⟨?_, rfl⟩, ?_, ?_⟩
      · show l.count - 1 ≤ 0; omega
      · intro s hs; cases hs
      · intro h; cases h
    · rename_i hc
      have hc' : l.count - 1 ≠ 0 := hc
      refine ⟨?_, hi.idle, hi.so⟩
      rcases hi.shape with ⟨h1, h2⟩ | ⟨h1, h2⟩
      · exact .inl ⟨by show l.count - 1 ≤ 0; omega, h2⟩
      · exact .inr ⟨by show 0 < l.count - 1; omega, h2⟩
  | slot id sc =>
    simp only [Verif.callBody]
    split
    · exact hi
    split
    · exact hi
    rename_i hc _
    have hsh : ∃ n, 2 ≤ n ∧ n ≤ 70 ∧ handles l.sessions = down n := by
      rcases hi.shape with ⟨h1, _⟩ | ⟨_, h2⟩
      · exact absurd h1 hc
      · exact h2
    cases sc with
    | tokenInfo => simp only [slotCall]; split <;> exact hi
    | initToken p lab =>
      obtain ⟨h1, h2, h3⟩ := initToken_sessions e l p lab
      simp only [slotCall]
      refine ⟨by rw [h1, h2]; exact hi.shape, by rw [h1]; exact hi.idle, ?_⟩
      intro h
      rw [h1]
      rcases h3 with h3 | h3
      · exact hi.so (h3 ▸ h)
      · rw [h3] at h; cases h
    | openSession rw serial ptr =>
      simp only [slotCall]
      split
      · exact hi
      split
      · exact hi
      unfold openSession; dsimp only
      split
      · exact hi
      rename_i hso
      have hso' : ∀ u, u = (if rw then Use.rw else Use.ro) → l.token.login = .so → u ≠ .ro := by
        rintro u rfl hl
        cases rw
        · simp [hl] at hso
        · simp
      split
      · rename_i s hs
        refine ⟨?_, ?_, ?_⟩
        · have : handles (l.upd s.handle fun t => { t with use := if rw then Use.rw else Use.ro }).sessions =
              handles l.sessions := by
            simp only [Lib.upd, handles, List.map_map]
            refine List.map_congr_left fun t _ => ?_
            simp only [Function.comp_apply]
            split <;> rfl
          show (l.count ≤ 0 ∧ _) ∨ (0 < l.count ∧ _)
          refine .inr ⟨by omega, ?_⟩
          rw [this]; exact hsh
        · intro t ht hu
          obtain ⟨t0, ht0, rfl⟩ := List.mem_map.mp ht
          by_cases he : t0.handle = s.handle
          · simp only [he, if_true] at hu
            cases rw <;> cases hu
          · simp only [he, if_false] at hu ⊢
            exact hi.idle t0 ht0 hu
        · intro hl t ht
          obtain ⟨t0, ht0, rfl⟩ := List.mem_map.mp ht
          by_cases he : t0.handle = s.handle
          · simp only [he, if_true]
            exact hso' _ rfl hl
          · simp only [he, if_false]
            exact hi.so hl t0 ht0
      · split
        · exact hi
        rename_i hmax
        obtain ⟨n, h2, h70, hh⟩ := hsh
        cases hss : l.sessions with
        | nil =>
          have := congrArg List.length hh
          simp [handles, length_down, hss] at this
          omega
        | cons s ss =>
          simp only [addSession]
          rw [hss] at hh
          obtain ⟨n, rfl⟩ : ∃ k, n = k + 1 := ⟨n - 1, by omega⟩
          have hh' := hh
          simp only [handles, List.map_cons, down, List.cons.injEq] at hh'
          have hlt : n + 1 < 70 := by
            rw [hss] at hmax
            simp only [List.head?_cons, Option.any_some, hh'.1, sessId_down h70, sessMax, beq_iff_eq] at hmax
            omega
          refine ⟨.inr ⟨by simpa using hc, n + 2, by omega, by omega, ?_⟩, ?_, ?_⟩
          · simp only [handles, List.map_cons, down, List.cons.injEq]
            exact ⟨by rw [hh'.1]; rfl, hh'⟩
          · intro t ht hu
            rcases List.mem_cons.mp ht with rfl | ht
            · cases rw <;> cases hu
            · exact hi.idle t (hss ▸ ht) hu
          · intro hl t ht
            rcases List.mem_cons.mp ht with rfl | ht
            · exact hso' _ rfl hl
            · exact hi.so hl t (hss ▸ ht)
    | closeAll =>
      simp only [slotCall]
      obtain ⟨n, h2, h70, hh⟩ := hsh
      obtain ⟨s2, s1, m2, m1, e2, e1, hcl⟩ := closeAll_spec h2 h70 hh
      refine ⟨.inr ⟨by simpa using hc, 2, by omega, by omega, ?_⟩, ?_, ?_⟩
      · rw [hcl]; simp [handles, down, sessFinal_handle, e1, e2]
      · rw [hcl]
        intro t ht hu
        simp only [List.mem_cons, List.not_mem_nil, or_false] at ht
        rcases ht with rfl | rfl
        · refine ⟨?_, rfl⟩
          simp only [sessFinal]
          split
          · rename_i hno; exact (hi.idle s2 m2 hno).1
          · rfl
        · exact hi.idle t m1 hu
      · rw [hcl]
        intro hl t ht
        simp only [List.mem_cons, List.not_mem_nil, or_false] at ht
        rcases ht with rfl | rfl
        · simp [sessFinal_use]
        · exact hi.so hl t m1
  | sess h sc =>
    simp only [Verif.callBody]
    split
    · exact hi
    rename_i hc
    split
    · exact hi
    rename_i s hs
    have hsh := (getSession_handle hs).1
    by_cases hcl : sc = .close
    · subst hcl
      simp only [sessCall]
      obtain ⟨h1, h2⟩ := closeSession_sessions e l s.handle
      obtain ⟨n, hn2, h70, hh⟩ : ∃ n, 2 ≤ n ∧ n ≤ 70 ∧ handles l.sessions = down n := by
        rcases hi.shape with ⟨h1, _⟩ | ⟨_, h2⟩
        · exact absurd h1 hc
        · exact h2
      obtain ⟨c1, c2, c3, c4⟩ := closeOne_spec hn2 h70 hh s.handle
      refine ⟨?_, ?_, ?_⟩
      · rw [h1, h2]; exact .inr ⟨by omega, c1⟩
      · rw [h1]
        intro t ht hu
        by_cases he : t.handle = s.handle
        · obtain ⟨u, hum, rfl⟩ := c4 t ht he
          refine ⟨?_, rfl⟩
          simp only [sessFinal]
          split
          · rename_i hno; exact (hi.idle u hum hno).1
          · rfl
        · exact hi.idle t (c3 t ht he) hu
      · rw [h1]
        intro hl t ht
        rcases closeSession_login e l s.handle with h3 | h3
        · by_cases he : t.handle = s.handle
          · obtain ⟨u, hum, rfl⟩ := c4 t ht he
            simp [sessFinal_use]
          · exact hi.so (h3 ▸ hl) t (c3 t ht he)
        · rw [h3] at hl; cases hl
    · exact hi.frame (frame_sessCall e l s sc hcl) (hsh.symm ▸ hs)
        (sessCall_so e l s sc hcl hi.so)

/-- `bad` is not part of the invariant. -/
theorem SInv.bad {l : Lib} (hi : SInv l) (b : Bool) : SInv { l with bad := b } :=
  ⟨hi.shape, hi.idle, hi.so⟩

theorem SInv.step {l : Lib} (hi : SInv l) (e : Env) (c : Call) : SInv (step e l c).1 := by
  unfold Verif.step
  split
  · exact hi
  · dsimp only
    split
    · exact (hi.callBody e c).bad true
    · exact hi.callBody e c

theorem SInv.run {l : Lib} (hi : SInv l) (e : Env) (cs : List Call) : SInv (run e l cs) := by
  induction cs generalizing l with
  | nil => exact hi
  | cons c cs ih => exact ih (hi.step e c)

theorem Start.sinv {l : Lib} (h : Start l) : SInv l :=
  ⟨.inl ⟨by rw [h.count]; omega, h.sessions⟩, by simp [h.sessions], by simp [h.sessions]⟩

end Verif
