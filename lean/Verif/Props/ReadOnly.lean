import Verif.Proofs.ReadOnly
/-!
# Read-only sessions

C21: calls on a read-only session change neither objects nor PINs.
-/
namespace Verif

variable {e : Env}

theorem SameObject.refl (o : Obj) : SameObject o o := rfl

theorem AllPairs.refl {α : Type} {R : α → α → Prop} (h : ∀ a, R a a) (l : List α) : AllPairs R l l := by
  induction l with
  | nil => exact .nil
  | cons a l ih => exact .cons (h a) ih

/-- An object without what logging in and out changes. -/
def Obj.bare (o : Obj) : Obj := { o with data := .symm [], encoded := false, keyData := none }

theorem sameObject_of {o o' : Obj} (h : o'.bare = o.bare) : SameObject o o' := by
  cases o; cases o'
  simp only [Obj.bare, Obj.mk.injEq] at h
  simp only [SameObject, Obj.mk.injEq]
  simp [h]

theorem encodeObj_same (x : StoreExt) (k : Bytes) (p : Bool) (o : Obj) : SameObject o (encodeObj x k p o).2 := by
  have h1 : (encodeKey x k o).2.bare = o.bare := by
    unfold encodeKey encodeRsa encodeEcc encodeDh encodeSymm
    dsimp only
    repeat' split
    all_goals rfl
  have h2 : ∀ o : Obj, (cleared o).bare = o.bare := by
    intro o
    unfold cleared
    repeat' split
    all_goals rfl
  refine sameObject_of ?_
  unfold encodeObj
  dsimp only
  split
  · rfl
  · split
    · exact (h2 _).trans h1
    · exact h1

theorem decodeObj_same (x : StoreExt) (k : Bytes) (o : Obj) : SameObject o (decodeObj x k o).2 := by
  refine sameObject_of ?_
  show (decodeKey x k o).2.bare = o.bare
  unfold decodeKey decodeRsa decodeEcc decodeDh decodeSymm decoded
  dsimp only
  repeat' split
  all_goals rfl

theorem decodeAll_same (x : StoreExt) (k : Bytes) (os : List Obj) : AllPairs SameObject os (decodeAll x k os).2 := by
  induction os with
  | nil => exact .nil
  | cons o os ih =>
    simp only [decodeAll]
    split
    · exact .cons (decodeObj_same x k o) ih
    · exact .cons (decodeObj_same x k o) (.refl .refl os)

theorem encodeAll_same (x : StoreExt) (k : Bytes) (os : List Obj) : AllPairs SameObject os (encodeAll x k os) := by
  induction os with
  | nil => exact .nil
  | cons o os ih =>
    simp only [encodeAll]
    split
    · exact .cons (encodeObj_same x k true o) ih
    · exact .cons (encodeObj_same x k true o) (.refl .refl os)

theorem failed_pin (a : Account) (n t : Int) : (failed a n t).pin = a.pin ∧ (failed a n t).seed = a.seed := by
  unfold failed
  repeat' split
  all_goals exact ⟨rfl, rfl⟩

theorem login_same (l : Lib) (u : UserType) (p : Option Bytes) (n : Int) :
    (login e l u p n).1.disk = l.disk ∧ SamePins l (login e l u p n).1 ∧
    AllPairs SameObject l.token.objs (login e l u p n).1.token.objs := by
  have hl : ∀ a b, lockCheck a n = some b → b.pin = a.pin ∧ b.seed = a.seed := by
    intro a b h
    unfold lockCheck at h
    repeat' split at h
    all_goals first | (cases h; done) | (cases h; exact ⟨rfl, rfl⟩)
  have hr := AllPairs.refl SameObject.refl l.token.objs
  have h0 : SamePins l l := ⟨rfl, rfl, rfl, rfl, rfl⟩
  unfold login
  split
  · exact ⟨rfl, h0, hr⟩
  split
  · exact ⟨rfl, h0, hr⟩
  split
  · unfold soLogin
    dsimp only
    split
    · exact ⟨rfl, h0, hr⟩
    split
    · exact ⟨rfl, h0, hr⟩
    rename_i h
    obtain ⟨h1, h2⟩ := hl _ _ h
    repeat' split
    all_goals first
      | exact ⟨rfl, ⟨h1, h2, rfl, rfl, rfl⟩, hr⟩
      | exact ⟨rfl, ⟨(failed_pin _ n 600).1.trans h1, (failed_pin _ n 600).2.trans h2, rfl, rfl, rfl⟩, hr⟩
  · unfold userLogin
    dsimp only
    have hd : ∀ (p : Bytes), AllPairs SameObject l.token.objs
        (decodeAll e.store (e.store.hash p l.token.seed) l.token.objs).2 := fun _ => decodeAll_same ..
    split
    · exact ⟨rfl, h0, hr⟩
    split
    · exact ⟨rfl, h0, hr⟩
    rename_i h
    obtain ⟨h1, h2⟩ := hl _ _ h
    split
    · exact ⟨rfl, ⟨rfl, rfl, h1, h2, rfl⟩, hr⟩
    · exact ⟨rfl, ⟨rfl, rfl, (failed_pin _ n 60).1.trans h1, (failed_pin _ n 60).2.trans h2, rfl⟩, hr⟩
    · split
      all_goals exact ⟨rfl, ⟨rfl, rfl, h1, h2, rfl⟩, hd _⟩
  · exact ⟨rfl, h0, hr⟩
  · exact ⟨rfl, h0, hr⟩

theorem logout_same (l : Lib) :
    (logout e l).disk = l.disk ∧ SamePins l (logout e l) ∧
    AllPairs SameObject l.token.objs (logout e l).token.objs := by
  refine ⟨rfl, ⟨rfl, rfl, rfl, rfl, rfl⟩, ?_⟩
  unfold logout
  dsimp only
  split
  · exact encodeAll_same ..
  · exact .refl .refl _

/-- **C21**: whatever call is made on a read-only session, after whatever history: what
is stored, the PINs and the objects of all sessions are the same afterwards; the token
has the same objects, and unless the call logs in or out their values are the same too. -/
theorem c21_read_only {l₀ : Lib} (h₀ : Start l₀) (cs : List Call) (h : Nat)
    (ho : OpenAs e (run e l₀ cs) h false) (c : SessCall) :
    let l := run e l₀ cs
    let l' := (step e l (.sess h c)).1
    l'.disk = l.disk ∧ SamePins l l' ∧ (∀ k, sessObjs l' k = sessObjs l k) ∧
    AllPairs SameObject (tokenObjs l) (tokenObjs l') ∧
    (c.logsInOut = false → l'.token = l.token) := by
  intro l l'
  have hi : SInv l := h₀.sinv.run e cs
  have hr : RoEmpty l := RoEmpty.run h₀.sinv (Start.roEmpty h₀) cs
  obtain ⟨hb, s, hs, hmode⟩ := (openAs_iff hi).mp ho
  obtain ⟨hsh, hsu, hsm⟩ := getSession_handle hs
  have hcnt := count_pos_of_open hi hs
  have hro : s.use ≠ .rw := by intro h; rw [h] at hmode; cases hmode
  have hro' : s.use = .ro := by cases h : s.use <;> simp_all
  have hso : l.token.login ≠ .so := fun h => hi.so h s hsm hro'
  have hbody : callBody e l (.sess h c) = sessCall e l s c := by
    simp only [callBody, hs]; rw [if_neg (by omega)]
  obtain ⟨es, _, et, ed⟩ := step_sessions hb (e := e) (.sess h c)
  rw [hbody] at es et ed
  have hobj : ∀ k, sessObjs l' k = sessObjs l k := by
    intro k
    by_cases hk : k = h
    · subst hk
      have h1 : sessObjs l k = [] := by unfold sessObjs; rw [hs]; exact hr s hsm hro
      rw [h1]
      have hr' : RoEmpty l' := RoEmpty.step hi hr _
      have hi' : SInv l' := hi.step e _
      unfold sessObjs
      cases hg : getSession l' k with
      | none => rfl
      | some s' =>
        obtain ⟨hsh', hsu', hsm'⟩ := getSession_handle hg
        refine hr' s' hsm' ?_
        by_cases hcl : c = .close
        · subst hcl
          have := (close_spec (e := e) hi ((isOpen_iff hi).mpr ⟨hb, s, hs⟩)).2.2.1
          rw [show getSession l' k = none from this] at hg
          cases hg
        · have hf := frame_sessCall e l s c hcl
          rw [hsh] at hf
          obtain ⟨g, hg1, hg2⟩ := hf.sess
          rw [es, hg2] at hsm'
          obtain ⟨t, ht, rfl⟩ := List.mem_map.mp hsm'
          have hth : t.handle = k := by
            by_cases he : t.handle = k
            · exact he
            · rw [if_neg he] at hsh'; exact hsh'
          have := session_unique hi.nodup ht hsm (hth.trans hsh.symm)
          subst this
          rw [if_pos hth, (hg1 t).2]
          exact hro
    · unfold sessObjs
      rw [other_session hi h k hk c]
  have hrefl := AllPairs.refl SameObject.refl l.token.objs
  have h0 : ∀ {a : Lib}, a.token = l.token → SamePins l a := fun h => by
    unfold SamePins; rw [h]; exact ⟨rfl, rfl, rfl, rfl, rfl⟩
  unfold tokenObjs
  by_cases hl : c.logsInOut = true
  · have key : (sessCall e l s c).1.disk = l.disk ∧ SamePins l (sessCall e l s c).1 ∧
        AllPairs SameObject l.token.objs (sessCall e l s c).1.token.objs := by
      cases c with
      | login u p n => exact login_same ..
      | logout => exact logout_same l
      | close =>
        simp only [sessCall, closeSession]
        split
        · exact ⟨rfl, h0 rfl, hrefl⟩
        · exact logout_same (e := e) { l with sessions := closeOne l.sessions s.handle }
      | _ => cases hl
    refine ⟨ed.trans key.1, ?_, hobj, ?_, fun h => by rw [hl] at h; cases h⟩
    · have := key.2.1
      unfold SamePins at this ⊢
      rw [et]; exact this
    · rw [et]; exact key.2.2
  · have hk := ro_kept (e := e) hro hso c (by simpa using hl)
    have htok : l'.token = l.token := et.trans hk.tok
    exact ⟨ed.trans hk.disk, h0 htok, hobj, by rw [htok]; exact hrefl, fun _ => htok⟩

namespace Demo

/-- Non-vacuity: a read-only session next to one that has a session object and has made
a token object. -/
example :
    (sessionInfo env (run env fresh (setup ++ [createCall 65538 (aesTmpl true 1), createCall 65538 (aesTmpl false 2),
      openCall false])) 65537).state.map (·.2) = some false ∧
    (answer env (run env fresh (setup ++ [createCall 65538 (aesTmpl true 1), createCall 65538 (aesTmpl false 2),
      openCall false])) (.sess 65537 (.destroy (2 ^ 28 + 1)))).rv = .sessionReadOnly ∧
    (tokenObjs (run env fresh (setup ++ [createCall 65538 (aesTmpl true 1), createCall 65538 (aesTmpl false 2),
      openCall false]))).length = 1 := by decide

end Demo

end Verif
