import Verif.Props.Objs
import Verif.Props.Usage

/-!
# Operations by calls: what an Init and the next data call do
-/

namespace Verif

variable {e : Env}

/-- Session `h` works with the key `o`. -/
structure Running (l : Lib) (h : Nat) (s : Session) (o : Obj) : Prop where
  good : l.bad = false
  on : 0 < l.count
  sess : getSession l h = some s
  key : currKey l s = .obj o

/-- The handle of an object denotes it. -/
theorem addressed_find {n : Nat} {l : Lib} (hi : HInv n l) (hn : n < 2 ^ 28) {h k : Nat} {s : Session} {o : Obj}
    (hs : getSession l h = some s) (ha : Addressed l h k o) : findObj l s k = some o := by
  obtain ⟨ha, hk⟩ := ha
  subst hk
  have hso : sessObjs l h = s.objs := by unfold sessObjs; rw [hs]; rfl
  rw [hso] at ha
  have find : ∀ os : List Obj, (os.map (·.handle)).Nodup → o ∈ os → os.find? (fun p => p.handle == o.handle) = some o := by
    intro os
    induction os with
    | nil => intro _ h; cases h
    | cons p os ih =>
      intro hnd hm
      rw [List.map_cons, List.nodup_cons] at hnd
      rcases List.mem_cons.mp hm with rfl | hm
      · exact List.find?_cons_of_pos (by simp)
      · rw [List.find?_cons_of_neg]
        · exact ih hnd.2 hm
        · simp only [beq_iff_eq]
          intro hp
          exact hnd.1 (hp ▸ List.mem_map_of_mem hm)
  have hmap : ∀ os : List Obj, (os.map Obj.hb).map (·.1) = os.map (·.handle) := by
    intro os; rw [List.map_map]; rfl
  unfold findObj
  have hsm := (getSession_handle hs).2.2
  rcases List.mem_append.mp ha with hm | hm
  · have hr := ((hi.sess s hsm).range o.hb (List.mem_map_of_mem hm)).2
    simp only [Obj.hb] at hr
    rw [sess_handle (by omega)]
    simp only [Bool.false_eq_true, if_false]
    exact find _ (by rw [← hmap]; exact (hi.sess s hsm).nodup) hm
  · have hr := hi.tok.range o.hb (List.mem_map_of_mem hm)
    simp only [Obj.hb] at hr
    rw [tok_handle (by omega) (by omega)]
    simp only [if_true]
    exact find _ (by rw [← hmap]; exact hi.tok.nodup) hm

/-- The object with the identity of `o` is `o`. -/
theorem uid_find {l : Lib} (hp : l.PopA) {s : Session} (hm : s ∈ l.sessions) {o : Obj} (ho : o ∈ s.objs ++ l.token.objs) :
    (s.objs ++ l.token.objs).find? (fun p => p.uid == o.uid) = some o := by
  cases hf : (s.objs ++ l.token.objs).find? (fun p => p.uid == o.uid) with
  | none =>
    have := List.find?_eq_none.mp hf o ho
    simp at this
  | some q =>
    have hq := List.mem_of_find?_eq_some hf
    have hu : q.uid = o.uid := by simpa using List.find?_some hf
    have hu' := hp.uidOk
    have hd : ∀ a ∈ s.objs, ∀ b ∈ l.token.objs, a.uid ≠ b.uid := fun a ha b hb =>
      hp.dTok s.key (List.mem_map_of_mem hm) a.key (List.mem_map_of_mem ha) b.key (List.mem_map_of_mem hb)
    congr 1
    rcases List.mem_append.mp hq with hq | hq <;> rcases List.mem_append.mp ho with ho | ho
    · exact uid_inj (hu'.2 s hm) hq ho hu
    · exact absurd hu (hd q hq o ho)
    · exact absurd hu.symm (hd o ho q hq)
    · exact uid_inj hu'.1 hq ho hu

theorem findObj_memAll {l : Lib} {s : Session} {k : Nat} {o : Obj} (h : findObj l s k = some o) : o ∈ s.objs ++ l.token.objs := by
  unfold findObj at h
  have := List.mem_of_find?_eq_some h
  split at this
  · exact List.mem_append_right _ this
  · exact List.mem_append_left _ this

/-- A successful Init. -/
theorem init_running {l : Lib} (hp : l.PopA) {h k : Nat} {kd : Kind} {m : Mech} {p : MechParam}
    (hok : (answer e l (.sess h (.cryptInit kd (some (m, p)) k))).rv = .ok) :
    Kept l (step e l (.sess h (.cryptInit kd (some (m, p)) k))).1 ∧
    ∃ s o s', getSession l h = some s ∧ findObj l s k = some o ∧ initCall e.crypto kd s.op o m p = (s'.op, .ok) ∧
      Running (step e l (.sess h (.cryptInit kd (some (m, p)) k))).1 h s' o := by
  obtain ⟨hb, hc, s, hs, heq⟩ := sess_step hok
  unfold answer at hok
  rw [heq] at hok ⊢
  simp only [sessCall, cCryptInit] at hok ⊢
  cases ho : findObj l s k with
  | none => rw [ho] at hok; cases hok
  | some o =>
    rw [ho] at hok
    dsimp only at hok ⊢
    obtain ⟨hh, _, hm⟩ := getSession_handle hs
    subst hh
    by_cases hub : (initCall e.crypto kd s.op o m p).2 = .ok ∧ o.cls = CKO_CERTIFICATE
    · rw [if_pos hub] at hok; cases hok
    rw [if_neg hub] at hok ⊢
    dsimp only at hok ⊢
    refine ⟨.upd _ _ _ (fun _ => rfl), s, o, { s with op := (initCall e.crypto kd s.op o m p).1, curr := some o.uid }, hs, ho,
      Prod.ext rfl hok, hb, hc, ?_, ?_⟩
    · rw [getSession_upd_eq (by intro _; exact ⟨rfl, rfl⟩), hs]
      simp only [Option.map_some, hok, if_true]
    · unfold currKey
      dsimp only
      have hf := uid_find hp hm (findObj_memAll ho)
      show (match (s.objs ++ l.token.objs).find? (fun p => p.uid == o.uid) with
        | none => CurrKey.freed
        | some o => .obj o) = _
      rw [hf]

/-- The next data call. -/
theorem data_running {l : Lib} {h : Nat} {s : Session} {o : Obj} (hr : Running l h s o) (c : DataCall) :
    answer e l (.sess h (.crypt c)) =
      { rv := (c.run e.crypto s.op (some o)).2.rv, out := some (c.run e.crypto s.op (some o)).2 } ∧
    ((c.run e.crypto s.op (some o)).2.rv = .ok → Kept l (step e l (.sess h (.crypt c))).1) := by
  obtain ⟨hb, hc, hs, hk⟩ := hr
  have hbody : callBody e l (.sess h (.crypt c)) =
      (l.upd s.handle fun u => { u with op := (c.run e.crypto s.op (some o)).1 },
        { rv := (c.run e.crypto s.op (some o)).2.rv, out := some (c.run e.crypto s.op (some o)).2 }) := by
    simp only [callBody]
    rw [if_neg (by omega), hs]
    simp only [sessCall, cCrypt, hk]
  refine ⟨by unfold answer; rw [step_resp hb, hbody], fun hok => ?_⟩
  rw [step_eq hb (by rw [hbody]; simp only; rw [hok]; simp), hbody]
  exact .upd _ _ _ (fun _ => rfl)

theorem Kept.popA {l l' : Lib} (h : Kept l l') (hp : l.PopA) : l'.PopA := by
  unfold Lib.PopA at hp ⊢
  have : l'.sessions.map Session.key = l.sessions.map Session.key := by
    have := congrArg (List.map fun x : Nat × Use × List Obj => (x.1, x.2.1, x.2.2.map Obj.key)) h.sess
    simp only [List.map_map] at this
    exact this
  rw [h.tok, this, h.uid]; exact hp

/-- What a handle denotes stays. -/
theorem Kept.findObj {l l' : Lib} (h : Kept l l') {j k : Nat} {s s' : Session} (hs : Verif.getSession l j = some s)
    (hs' : Verif.getSession l' j = some s') : Verif.findObj l' s' k = Verif.findObj l s k := by
  obtain ⟨t, h1, h2⟩ := h.getSession hs
  rw [hs'] at h1
  cases h1
  unfold Verif.findObj
  rw [h.tok, h2]

end Verif
