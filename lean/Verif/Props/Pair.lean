import Verif.Props.Objs
import Verif.Props.KeyGen
import Verif.Props.SignVerify
import Verif.Proofs.AllObj
import Verif.Spec.Derive

/-!
# The two keys of a generated pair (C79)
-/

namespace Verif

variable {e : Env}

theorem addObject_ok {l : Lib} {s : Session} {t : List Entry} {o : Obj} (hok : (addObject e l s t o).2.rv = .ok) :
    ∃ on l' k, tokenByte t 0 = .ok on ∧ sessAddObject e l s on o = (l', some k) ∧
      addObject e l s t o = (l', { rv := .ok, handle := some k }) := by
  unfold addObject at hok ⊢
  cases hon : tokenByte t 0 with
  | error rv =>
    rw [hon, tokenByte_error hon] at hok; cases hok
  | ok on =>
    rw [hon] at hok
    dsimp only at hok ⊢
    cases hadd : sessAddObject e l s on o with
    | mk l' k =>
      rw [hadd] at hok
      cases k with
      | none => cases hok
      | some k => exact ⟨on, l', k, rfl, hadd, rfl⟩

theorem addPair_ok {l : Lib} {s : Session} {tp tq : List Entry} {a b : Obj} (hok : (addPair e l s tp tq a b).2.rv = .ok) :
    ∃ on₁ on₂ l₁ l' s₁ k₁ k₂, tokenByte tp 0 = .ok on₁ ∧ tokenByte tq 0 = .ok on₂ ∧
      sessAddObject e l s on₁ a = (l₁, some k₁) ∧
      l₁.sessions.find? (fun t => t.handle == s.handle) = some s₁ ∧
      sessAddObject e l₁ s₁ on₂ b = (l', some k₂) ∧
      addPair e l s tp tq a b = (l', { rv := .ok, handle := some k₁, priv := some k₂ }) := by
  unfold addPair at hok ⊢
  dsimp only at hok ⊢
  split at hok
  · rename_i hne
    exact absurd hok hne
  rename_i h1
  rw [if_neg h1]
  obtain ⟨on₁, l₁, k₁, t1, a1, e1⟩ := addObject_ok (Decidable.not_not.mp h1)
  rw [e1] at hok ⊢
  dsimp only at hok ⊢
  cases hf : l₁.sessions.find? (fun t => t.handle == s.handle) with
  | none => rw [hf] at hok; cases hok
  | some s₁ =>
    rw [hf] at hok
    dsimp only at hok ⊢
    split at hok
    · rename_i hne
      exact absurd hok hne
    rename_i h2
    rw [if_neg h2]
    obtain ⟨on₂, l', k₂, t2, a2, e2⟩ := addObject_ok (Decidable.not_not.mp h2)
    rw [e2]
    exact ⟨on₁, on₂, l₁, l', s₁, k₁, k₂, t1, t2, a1, hf, a2, rfl⟩

/-- What a successful `C_GenerateKeyPair` did. -/
theorem pair_answer {l : Lib} {s : Session} {m : Mech} {p : MechParam} {tp tq : List Entry}
    (hok : (cGenPair e l s (some (m, p)) (some tp) (some tq) true).2.rv = .ok) :
    ∃ typ gen pub₀ priv₀ pub priv, pairGen e l.rng m = some (typ, gen) ∧ newObject e s typ CKO_PUBLIC_KEY tp = (.ok, pub₀) ∧
      newObject e s typ CKO_PRIVATE_KEY tq = (.ok, priv₀) ∧ gen pub₀ priv₀ = (.ok, pub, priv) ∧
      ∃ on₁ on₂ l₁ l' s₁ k₁ k₂, tokenByte tp 0 = .ok on₁ ∧ tokenByte tq 0 = .ok on₂ ∧
      sessAddObject e { l with rng := l.rng + 1 } s on₁ pub = (l₁, some k₁) ∧
      l₁.sessions.find? (fun t => t.handle == s.handle) = some s₁ ∧
      sessAddObject e l₁ s₁ on₂ priv = (l', some k₂) ∧
      cGenPair e l s (some (m, p)) (some tp) (some tq) true = (l', { rv := .ok, handle := some k₁, priv := some k₂ }) := by
  revert hok
  unfold cGenPair
  simp only [Bool.not_true, Bool.false_eq_true, if_false]
  split
  · intro h; cases h
  rename_i typ gen hg
  split
  · intro h; cases h
  split
  rotate_left
  · rename_i hne _
    intro h; exact absurd h hne
  rename_i pub₀ hp1
  split
  rotate_left
  · rename_i hne _
    intro h; exact absurd h hne
  rename_i priv₀ hp2
  split
  · rename_i a b hgen
    intro hok
    obtain ⟨on₁, on₂, l₁, l', s₁, k₁, k₂, t1, t2, a1, hf, a2, heq⟩ := addPair_ok hok
    exact ⟨typ, gen, pub₀, priv₀, a, b, hg, hp1, hp2, hgen, on₁, on₂, l₁, l', s₁, k₁, k₂, t1, t2, a1, hf, a2, heq⟩
  · intro h; cases h
  · intro h; cases h

theorem look_addressed {l : Lib} {h k : Nat} {q : Obj} (hl : look l h k = some (some q)) :
    ∃ o, Addressed l h k o ∧ o.view = q := by
  unfold look at hl
  cases hg : getSession l h with
  | none => rw [hg] at hl; cases hl
  | some s =>
    rw [hg] at hl
    obtain ⟨o, ho, rfl⟩ := Option.map_eq_some_iff.mp (Option.some.inj hl)
    have hk : o.handle = k := by
      have := List.find?_some ho
      simpa using this
    have hmem := List.mem_of_find?_eq_some ho
    refine ⟨o, ⟨?_, hk⟩, rfl⟩
    unfold sessObjs tokenObjs
    rw [hg, List.mem_append]
    split at hmem
    · exact .inr hmem
    · exact .inl hmem

theorem pairGen_together (hg : GenLawful e) {n typ : Nat} {m : Mech} {gen} {pub₀ priv₀ pub priv : Obj}
    (h1 : pairGen e n m = some (typ, gen)) (h2 : gen pub₀ priv₀ = (.ok, pub, priv)) :
    BelongTogether e m pub priv ∧ (pub.local' = true ∧ priv.local' = true) ∧
      pub.keyGenMech = m.num ∧ priv.keyGenMech = m.num := by
  unfold pairGen at h1
  split at h1
  · cases h1
    have hloc : (pub.local' = true ∧ priv.local' = true) ∧ pub.keyGenMech = 0 ∧ priv.keyGenMech = 0 := by
      unfold rsaGenerate at h2
      dsimp only at h2
      repeat' split at h2
      all_goals cases h2
      all_goals exact ⟨⟨rfl, rfl⟩, rfl, rfl⟩
    refine ⟨fun hp => ?_, hloc⟩
    have hgen : ∃ b x, e.rsaGen n b x = some priv.rsa := by
      unfold rsaGenerate at h2
      dsimp only at h2
      repeat' split at h2
      all_goals cases h2
      all_goals exact ⟨_, _, by assumption⟩
    have hpe : pub.rsa.e = if pub₀.rsa.e = 0 then 65537 else pub₀.rsa.e := by
      unfold rsaGenerate at h2
      dsimp only at h2
      repeat' split at h2
      all_goals cases h2
      · rename_i he _ _ _ _
        rw [if_neg he]; rfl
      · rename_i he _ _ _
        rw [if_pos (by simpa using he)]; rfl
    have hp0 : (mpBytes pub₀.rsa.e).reverse = mpBytes pub₀.rsa.e ∧ pub₀.rsa.e < 2 ^ 63 := by
      by_cases h0 : pub₀.rsa.e = 0
      · rw [h0]; decide
      · rw [if_neg h0] at hpe; rw [← hpe]; exact hp
    obtain ⟨b, x, hgen⟩ := hgen
    obtain ⟨q1, q2, q3⟩ := c59_exponent_partial (e.rsaGen n) (fun b x k hk => (hg.rsa n b x k hk).1) _ _ _ _ hp0.1 hp0.2 h2
    exact (hg.rsa _ _ _ _ hgen).2 _ q3 q2
  · cases h1
    unfold ecGenerate at h2
    split at h2
    · cases h2
    rename_i c hc
    split at h2
    · cases h2
    rename_i k hk
    cases h2
    exact ⟨⟨c, hg.ec _ _ _ hk _ hc rfl rfl⟩, ⟨rfl, rfl⟩, rfl, rfl⟩
  · cases h1
    unfold dhGenerate at h2
    dsimp only at h2
    split at h2
    · cases h2
    rename_i sk pk hk
    cases h2
    exact ⟨⟨rfl, rfl, hg.dh _ _ _ _ _ hk⟩, ⟨rfl, rfl⟩, rfl, rfl⟩
  · cases h1

/-- The generators keep the class of both objects. -/
theorem pairGen_cls {rng : Nat} {m : Mech} {typ : Nat} {gen : Obj → Obj → IRet × Obj × Obj}
    (h : pairGen e rng m = some (typ, gen)) {a b a' b' : Obj} {r : IRet} (hg : gen a b = (r, a', b')) :
    a'.cls = a.cls ∧ b'.cls = b.cls := by
  unfold pairGen at h
  split at h
  · obtain ⟨_, rfl⟩ := Prod.mk.inj (Option.some.inj h)
    unfold rsaGenerate at hg
    dsimp only at hg
    repeat' split at hg
    all_goals obtain ⟨_, hh⟩ := Prod.mk.inj hg; obtain ⟨rfl, rfl⟩ := Prod.mk.inj hh; exact ⟨rfl, rfl⟩
  · obtain ⟨_, rfl⟩ := Prod.mk.inj (Option.some.inj h)
    unfold ecGenerate at hg
    repeat' split at hg
    all_goals obtain ⟨_, hh⟩ := Prod.mk.inj hg; obtain ⟨rfl, rfl⟩ := Prod.mk.inj hh; exact ⟨rfl, rfl⟩
  · obtain ⟨_, rfl⟩ := Prod.mk.inj (Option.some.inj h)
    unfold dhGenerate at hg
    dsimp only at hg
    repeat' split at hg
    all_goals obtain ⟨_, hh⟩ := Prod.mk.inj hg; obtain ⟨rfl, rfl⟩ := Prod.mk.inj hh; exact ⟨rfl, rfl⟩
  · cases h

/-- A template without `CKA_CLASS` keeps the class of the new object. -/
theorem newObject_class {s : Session} {typ cls : Nat} {t : List Entry} {rv : RV} {o : Obj}
    (h : newObject e s typ cls t = (rv, o)) (ht : ∀ en ∈ t, en.typ ≠ .cls) : o.cls = cls := by
  have := setAttributeValue_inv (P := fun o => o.cls = cls) e.key (s.use == .rw) { newObj 0 typ with cls } t
    (fun p v hp => by obtain ⟨d, z, h⟩ := setKey_frame e.key p v; rw [h]; exact hp)
    (fun p en hm hp => by rw [setAttr_cls p en (ht en hm)]; exact hp) rfl
  unfold newObject at h
  rw [h] at this
  exact this

/-- C79: the two handles a successful `C_GenerateKeyPair` returns denote a public key object and a
private key object that belong together, both marked as generated here by this mechanism.
Neither is a certificate, and their classes are those of a public and of a private key unless
a template names another one.
Missing: RSA keys whose exponent is not the same read backwards (`c59_violated`), templates
with `CKA_CLASS` (`c79_violated_class`). -/
theorem c79_partial (hh : HashLen e) (hr : RandLen e) (hg : GenLawful e) {l₀ : Lib} (h₀ : Start l₀) (hd : NoToken l₀)
    (cs : List Call) (h : Nat) (m : Mech) (p : MechParam) (tp tq : List Entry)
    (hb : BoolToken (cs ++ [pairCall h m p tp tq])) (hn : 2 * (cs.length + 1) < 2 ^ 28)
    (hok : (answer e (run e l₀ cs) (pairCall h m p tp tq)).rv = .ok) :
    ∃ k₁ k₂ pub priv, (answer e (run e l₀ cs) (pairCall h m p tp tq)).handle = some k₁ ∧
      (answer e (run e l₀ cs) (pairCall h m p tp tq)).priv = some k₂ ∧
      Addressed (run e l₀ (cs ++ [pairCall h m p tp tq])) h k₁ pub ∧
      Addressed (run e l₀ (cs ++ [pairCall h m p tp tq])) h k₂ priv ∧
      BelongTogether e m pub priv ∧ (pub.local' = true ∧ priv.local' = true) ∧
      (pub.keyGenMech = m.num ∧ priv.keyGenMech = m.num) ∧
      (pub.cls ≠ CKO_CERTIFICATE ∧ priv.cls ≠ CKO_CERTIFICATE) ∧
      ((∀ en ∈ tp, en.typ ≠ .cls) → pub.cls = CKO_PUBLIC_KEY) ∧
      ((∀ en ∈ tq, en.typ ≠ .cls) → priv.cls = CKO_PRIVATE_KEY) := by
  have hb1 : BoolToken cs := fun d hd => hb d (List.mem_append_left _ hd)
  obtain ⟨hi, hc, hx⟩ := reach_inv hh hr h₀ hd cs hb1 (by omega)
  have hrun : run e l₀ (cs ++ [pairCall h m p tp tq]) = (step e (run e l₀ cs) (pairCall h m p tp tq)).1 := by
    rw [run_append]; rfl
  rw [hrun]
  generalize run e l₀ cs = l at *
  obtain ⟨hbad, hpos, s, hs, hstep⟩ := sess_step hok
  have hstep : step e l (pairCall h m p tp tq) = cGenPair e l s (some (m, p)) (some tp) (some tq) true := hstep
  unfold answer at hok ⊢
  rw [hstep] at hok ⊢
  unfold HandleInv at hx
  rw [if_pos hpos] at hx
  have htok := boolToken_tokOk (c := .genPair (some (m, p)) (some tp) (some tq) true) hb
  obtain ⟨typ, gen, pub₀, priv₀, pub, priv, hgn, hp1, hp2, hgen, on₁, on₂, l₁, l', s₁, k₁, k₂, t1, t2, a1, hf, a2, heq⟩ :=
    pair_answer hok
  rw [heq]
  obtain ⟨i1, i2⟩ := pairGen_iv hgn hgen
  obtain ⟨_, _, _, ⟨u, d⟩, ⟨v, f⟩, _⟩ := two_look hr (l := l) (l₀ := { l with rng := l.rng + 1 }) ⟨rfl, rfl, rfl, rfl, rfl, rfl⟩ a1
    (htok tp (by simp [SessCall.creates]) _ t1) (by rw [i1]; exact newObject_iv' hp1) hf a2
    (htok tq (by simp [SessCall.creates]) _ t2) hx hi hc.pop (by omega) hs
  obtain ⟨q₁, ha1, hv1⟩ := look_addressed d
  obtain ⟨q₂, ha2, hv2⟩ := look_addressed f
  obtain ⟨r1, ⟨r2, r3⟩, r4, r5⟩ := pairGen_together hg hgn hgen
  have d1 : q₁.data = pub.data := by have := congrArg (fun o : Obj => o.data) hv1; exact this
  have d2 : q₂.data = priv.data := by have := congrArg (fun o : Obj => o.data) hv2; exact this
  obtain ⟨w1, w2⟩ := pairGen_cls hgn hgen
  have c1 : q₁.cls = pub₀.cls := (congrArg (fun o : Obj => o.cls) hv1).trans w1
  have c2 : q₂.cls = priv₀.cls := (congrArg (fun o : Obj => o.cls) hv2).trans w2
  refine ⟨k₁, k₂, q₁, q₂, rfl, rfl, ha1, ha2, ?_, ⟨(congrArg (fun o : Obj => o.local') hv1).trans r2,
    (congrArg (fun o : Obj => o.local') hv2).trans r3⟩, ⟨(congrArg (fun o : Obj => o.keyGenMech) hv1).trans r4,
    (congrArg (fun o : Obj => o.keyGenMech) hv2).trans r5⟩, ⟨?_, ?_⟩, fun ht => ?_, fun ht => ?_⟩
  rotate_left
  · rw [c1]; exact (newObject_kept (by decide) hp1).2
  · rw [c2]; exact (newObject_kept (by decide) hp2).2
  · rw [c1]; exact newObject_class hp1 ht
  · rw [c2]; exact newObject_class hp2 ht
  have e1 : q₁.rsa = pub.rsa := by unfold Obj.rsa; rw [d1]
  have e2 : q₂.rsa = priv.rsa := by unfold Obj.rsa; rw [d2]
  have e3 : q₁.ec = pub.ec := by unfold Obj.ec; rw [d1]
  have e4 : q₂.ec = priv.ec := by unfold Obj.ec; rw [d2]
  have e5 : q₁.dh = pub.dh := by unfold Obj.dh; rw [d1]
  have e6 : q₂.dh = priv.dh := by unfold Obj.dh; rw [d2]
  unfold BelongTogether at r1 ⊢
  cases m <;> simp only [e1, e2, e3, e4, e5, e6] <;> exact r1

/-- An environment that generates pairs: RSA keys with the exponent asked for, EC keys on
curves of the sizes wolfCrypt knows, DH keys with the private value 3. -/
def Demo.pairEnv : Env := { Demo.env with
  crypto := { Demo.x with rsa := Demo.blockRsa }
  rsaGen := fun _ _ x => if 0 ≤ x then some { n := 3233, e := x.toNat, d := 17 } else none
  ecGen := fun _ c => if 0 < c.size ∧ c.size ≤ 124 then some { k := 5, x := 1, y := 2 } else none
  dhGen := fun _ p g => some ([3], mpBytes (g ^ 3 % p)) }

theorem Demo.pair_gen : GenLawful Demo.pairEnv where
  rsa n bits x k h := by
    simp only [Demo.pairEnv] at h
    split at h
    · injection h with h
      subst h
      refine ⟨by simp only []; omega, fun pub h1 _ => Demo.blockRsa_pair' _ _ h1⟩
    · cases h
  ec n c k h pub h1 h2 h3 := by
    simp only [Demo.pairEnv] at h
    split at h
    · rename_i hs
      exact Demo.ecdsa_pair' _ _ _ rfl h1 hs
    · cases h
  dh n p g x y h := by
    simp only [Demo.pairEnv] at h
    injection h with h
    obtain ⟨h1, h2⟩ := Prod.mk.inj h
    subst h1 h2
    rw [ofBytes_mpBytes]
    rfl

set_option maxRecDepth 20000 in
/-- Non-vacuity of `c79_partial`: an RSA and a DH pair. -/
example :
    GenLawful Demo.pairEnv ∧ HashLen Demo.pairEnv ∧ RandLen Demo.pairEnv ∧
    BoolToken (Demo.setup ++ [pairCall 65538 .rsaKeyPairGen (.null 0) Demo.rsaPub []]) ∧
    (answer Demo.pairEnv (run Demo.pairEnv Demo.fresh Demo.setup)
      (pairCall 65538 .rsaKeyPairGen (.null 0) Demo.rsaPub [])).rv = .ok ∧
    PlainExponent 65537 ∧
    (answer Demo.pairEnv (run Demo.pairEnv Demo.fresh Demo.setup)
      (pairCall 65538 .dhKeyPairGen (.null 0) [.of .prime [23], .of .base [5]] [])).rv = .ok :=
  ⟨Demo.pair_gen, Demo.hashLen, Demo.randLen, by unfold BoolToken; decide, by decide, by unfold PlainExponent; decide,
    by decide⟩

set_option maxRecDepth 20000 in
/-- The class that a private key's template names replaces the right one: after
`C_GenerateKeyPair` succeeds, both handles read as public keys, and the private value, which
the template calls sensitive, is shown. -/
theorem c79_violated_class :
    ∃ (e : Env) (l₀ : Lib) (cs : List Call) (tp tq : List Entry), HashLen e ∧ RandLen e ∧ GenLawful e ∧ Start l₀ ∧ NoToken l₀ ∧
      Entry.of .sensitive [1] ∈ tq ∧ BoolToken (cs ++ [pairCall 65538 .dhKeyPairGen (.null 0) tp tq]) ∧
      answer e (run e l₀ cs) (pairCall 65538 .dhKeyPairGen (.null 0) tp tq) = { rv := .ok, handle := some 1, priv := some 2 } ∧
      Shows e (run e l₀ (cs ++ [pairCall 65538 .dhKeyPairGen (.null 0) tp tq])) 65538 2 .cls (ulong CKO_PUBLIC_KEY) ∧
      Shows e (run e l₀ (cs ++ [pairCall 65538 .dhKeyPairGen (.null 0) tp tq])) 65538 2 .value [3] :=
  ⟨Demo.pairEnv, Demo.fresh, Demo.setup, [.of .prime [23], .of .base [5]], [.of .sensitive [1], .of .cls (ulong CKO_PUBLIC_KEY)],
    Demo.hashLen, Demo.randLen, Demo.pair_gen, Demo.fresh_start, Demo.noToken, by decide, by unfold BoolToken; decide, by decide,
    by unfold Shows; decide, by unfold Shows; decide⟩

end Verif
