import Verif.Proofs.Look

/-!
# What the calls that create objects do
-/

namespace Verif

variable {e : Env} {ok : Nat → Prop}

/-- A call that creates at most one object. -/
inductive Made (e : Env) (ok : Nat → Prop) (l : Lib) (s : Session) : Lib × Resp → Prop
  | kept {l' : Lib} {r : Resp} : Kept l l' → (r.rv = .ok → r.handle = none) → r.priv = none → Made e ok l s (l', r)
  | one {l₀ l' : Lib} {on k : Nat} {o : Obj} {r : Resp} : Kept l l₀ → sessAddObject e l₀ s on o = (l', some k) →
      ok on → r.rv = .ok → r.handle = some k → r.priv = none → Made e ok l s (l', r)

/-- A call that creates two objects; when it goes wrong half way the library is broken. -/
inductive Made2 (e : Env) (ok : Nat → Prop) (l : Lib) (s : Session) : Lib × Resp → Prop
  | kept {l' : Lib} {r : Resp} : Kept l l' → r.rv ≠ .ok → Made2 e ok l s (l', r)
  | broken {l' : Lib} {r : Resp} : l'.bad = true → r.rv ≠ .ok → Made2 e ok l s (l', r)
  | ub {l' : Lib} {r : Resp} : r.rv = .ub → Made2 e ok l s (l', r)
  | two {l₀ l₁ l' : Lib} {s₁ : Session} {on₁ on₂ k₁ k₂ : Nat} {o₁ o₂ : Obj} {r : Resp} : Kept l l₀ →
      sessAddObject e l₀ s on₁ o₁ = (l₁, some k₁) → ok on₁ → o₁.iv.length = 12 →
      l₁.sessions.find? (fun t => t.handle == s.handle) = some s₁ →
      sessAddObject e l₁ s₁ on₂ o₂ = (l', some k₂) → ok on₂ → o₂.iv.length = 12 →
      r.rv = .ok → r.handle = some k₁ → r.priv = some k₂ → Made2 e ok l s (l', r)

theorem tokenByte_error {t : List Entry} {n : Nat} {rv : RV} (h : tokenByte t n = .error rv) :
    rv = .attributeValueInvalid := by
  unfold tokenByte at h
  repeat' split at h
  all_goals first | (cases h; rfl) | cases h

/-- Adding an object fails without a change, or adds it. -/
theorem addObject_cases (l₀ : Lib) (s : Session) (t : List Entry) (o : Obj) (ht : TokOk ok t) :
    ((addObject e l₀ s t o).2.rv ≠ .ok ∧ (addObject e l₀ s t o).2.handle = none ∧
      (addObject e l₀ s t o).2.priv = none ∧ (addObject e l₀ s t o).1 = l₀) ∨
    ∃ on k l', ok on ∧ sessAddObject e l₀ s on o = (l', some k) ∧
      addObject e l₀ s t o = (l', { rv := .ok, handle := some k }) := by
  unfold addObject
  split
  · rename_i rv hrv
    rw [tokenByte_error hrv]
    exact .inl ⟨by simp, rfl, rfl, rfl⟩
  · rename_i on hon
    split
    · rename_i heq
      exact .inl ⟨by simp, rfl, rfl, sessAdd_none heq⟩
    · rename_i l' k heq
      exact .inr ⟨on, k, l', ht on hon, heq, rfl⟩

theorem made_addObject {l l₀ : Lib} {s : Session} {t : List Entry} (o : Obj) (hk : Kept l l₀) (ht : TokOk ok t) :
    Made e ok l s (addObject e l₀ s t o) := by
  unfold addObject
  split
  · rename_i rv hrv
    refine .kept hk (fun _ => rfl) rfl
  · rename_i on hon
    split
    · rename_i heq
      rw [sessAdd_none heq]
      exact .kept hk (fun _ => rfl) rfl
    · rename_i heq
      exact .one hk heq (ht on hon) rfl rfl rfl

theorem made_cCreate (l : Lib) (s : Session) (t : Option (List Entry)) (p : Bool)
    (ht : ∀ q, t = some q → TokOk ok q) : Made e ok l s (cCreate e l s t p) := by
  unfold cCreate
  split
  · exact .kept (.refl l) (fun _ => rfl) rfl
  split
  · exact .kept (.refl l) (fun _ => rfl) rfl
  split
  · exact .kept (.refl l) (fun _ => rfl) rfl
  split
  · exact made_addObject _ (.refl l) (ht _ rfl)
  · exact .kept (.refl l) (fun _ => rfl) rfl

theorem made_cCopy (l : Lib) (s : Session) (h : Nat) (t : Option (List Entry)) (p : Bool)
    (ht : ∀ q, t = some q → TokOk ok q) : Made e ok l s (cCopy e l s h t p) := by
  unfold cCopy
  split
  · exact .kept (.refl l) (fun _ => rfl) rfl
  split
  · exact .kept (.refl l) (fun _ => rfl) rfl
  split
  · exact .kept (.refl l) (fun _ => rfl) rfl
  split
  · exact .kept (.refl l) (fun _ => rfl) rfl
  split
  · exact .kept (.refl l) (fun _ => rfl) rfl
  rename_i on hon
  dsimp only
  split
  · exact .kept (.refl l) (fun _ => rfl) rfl
  split
  · exact .kept (.refl l) (fun _ => rfl) rfl
  split
  · rename_i heq
    rw [sessAdd_none heq]
    exact .kept (.refl l) (fun _ => rfl) rfl
  · rename_i heq
    exact .one (.refl l) heq (ht _ rfl on hon) rfl rfl rfl

theorem made_cGenKey (l : Lib) (s : Session) (m : Option (Mech × MechParam)) (t : Option (List Entry)) (p : Bool)
    (ht : ∀ q, t = some q → TokOk ok q) : Made e ok l s (cGenKey e l s m t p) := by
  unfold cGenKey
  split
  rotate_left; · exact .kept (.refl l) (fun _ => rfl) rfl
  split
  · exact .kept (.refl l) (fun _ => rfl) rfl
  split
  · exact .kept (.refl l) (fun _ => rfl) rfl
  split
  · exact .kept (.refl l) (fun _ => rfl) rfl
  split
  · exact made_addObject _ ⟨rfl, rfl, rfl, rfl, rfl, rfl⟩ (ht _ rfl)
  · exact .kept (.refl l) (fun _ => rfl) rfl

theorem made_cDerive (l : Lib) (s : Session) (m : Option DeriveMech) (b : Nat) (t : Option (List Entry)) (p : Bool)
    (ht : ∀ q, t = some q → TokOk ok q) : Made e ok l s (cDerive e l s m b t p) := by
  unfold cDerive
  split
  rotate_left; · exact .kept (.refl l) (fun _ => rfl) rfl
  split
  · exact .kept (.refl l) (fun _ => rfl) rfl
  split
  · exact .kept (.refl l) (fun _ => rfl) rfl
  split
  · exact .kept (.refl l) (fun _ => rfl) rfl
  split
  rotate_left; · exact .kept (.refl l) (fun _ => rfl) rfl
  dsimp only
  split
  · exact .kept (.refl l) (fun _ => rfl) rfl
  · exact made_addObject _ (.refl l) (ht _ rfl)

theorem made_addRsaPrivate {l l₀ : Lib} {s : Session} {t : List Entry} (d : Bytes) (hk : Kept l l₀)
    (ht : TokOk ok t) : Made e ok l s (addRsaPrivate e l₀ s t d) := by
  unfold addRsaPrivate
  split
  · split
    · exact .kept hk (fun h => by cases h) rfl
    · dsimp only
      rcases addObject_cases (e := e) l₀ s t _ ht with ⟨h1, _, h2, h3⟩ | ⟨on, k, l', h1, h2, h3⟩
      · exact .kept (by rw [h3]; exact hk) (fun h => absurd h h1) h2
      · rw [h3]
        exact .one hk h2 h1 rfl rfl rfl
  · rename_i hne _
    exact .kept hk (fun h => absurd h hne) rfl

theorem made_cUnwrap (l : Lib) (s : Session) (m : Option (Mech × MechParam)) (wk : Nat) (d : Option Bytes)
    (t : Option (List Entry)) (p : Bool) (ht : ∀ q, t = some q → TokOk ok q) :
    Made e ok l s (cUnwrap e l s m wk d t p) := by
  unfold cUnwrap
  split
  · exact .kept (.refl l) (fun _ => rfl) rfl
  split
  rotate_left; · exact .kept (.refl l) (fun _ => rfl) rfl
  split
  · exact .kept (.refl l) (fun _ => rfl) rfl
  split
  · exact .kept (.refl l) (fun h => by cases h) rfl
  split
  · exact .kept (.refl l) (fun h => by cases h) rfl
  dsimp only
  split
  · rename_i hne; exact .kept (.refl l) (fun h => absurd h hne) rfl
  split
  · exact .kept (.refl l) (fun h => by cases h) rfl
  split
  · rename_i hne; exact .kept (.upd _ _ _ (fun _ => rfl)) (fun h => absurd h hne) rfl
  split
  · rename_i hne; exact .kept (.upd _ _ _ (fun _ => rfl)) (fun h => absurd h hne) rfl
  exact made_addRsaPrivate _ (.upd _ _ _ (fun _ => rfl)) (ht _ rfl)

theorem made_addPair {l l₀ : Lib} {s : Session} {tp tq : List Entry} {a b : Obj} (hk : Kept l l₀)
    (h1 : TokOk ok tp) (h2 : TokOk ok tq) (ha : a.iv.length = 12) (hb : b.iv.length = 12) :
    Made2 e ok l s (addPair e l₀ s tp tq a b) := by
  unfold addPair
  dsimp only
  rcases addObject_cases (e := e) l₀ s tp a h1 with ⟨g1, _, _, g2⟩ | ⟨on, k, l1, g1, g2, g3⟩
  · rw [if_pos g1, g2]
    exact .kept hk g1
  · rw [g3]
    dsimp only
    rw [if_neg (by simp)]
    split
    · exact .ub rfl
    · rename_i s1 hf
      rcases addObject_cases (e := e) l1 s1 tq b h2 with ⟨f1, _, _, f2⟩ | ⟨on', k', l2, f1, f2, f3⟩
      · rw [if_pos f1]
        exact .broken rfl f1
      · rw [f3]
        dsimp only
        rw [if_neg (by simp)]
        exact .two hk g2 g1 ha hf f2 f1 hb rfl rfl rfl

theorem made_cGenPair (l : Lib) (s : Session) (m : Option (Mech × MechParam)) (tp tq : Option (List Entry))
    (p : Bool) (h1 : ∀ q, tp = some q → TokOk ok q) (h2 : ∀ q, tq = some q → TokOk ok q) :
    Made2 e ok l s (cGenPair e l s m tp tq p) := by
  unfold cGenPair
  split
  rotate_left; · exact .kept (.refl l) (by simp)
  split
  · exact .kept (.refl l) (by simp)
  split
  · exact .kept (.refl l) (by simp)
  rename_i hg
  split
  · exact .kept (.refl l) (by simp)
  split
  rotate_left
  · rename_i hne _
    exact .kept (.refl l) hne
  rename_i pub hp1
  split
  rotate_left
  · rename_i hne _
    exact .kept (.refl l) hne
  rename_i priv hp2
  split
  · rename_i a b hgen
    obtain ⟨i1, i2⟩ := pairGen_iv hg hgen
    exact made_addPair ⟨rfl, rfl, rfl, rfl, rfl, rfl⟩ (h1 _ rfl) (h2 _ rfl) (by rw [i1]; exact newObject_iv' hp1)
      (by rw [i2]; exact newObject_iv' hp2)
  · exact .ub rfl
  · exact .kept ⟨rfl, rfl, rfl, rfl, rfl, rfl⟩ (by simp)

end Verif
