import Verif.Proofs.Marks
import Verif.Proofs.AtRest
import Verif.Spec.Origin

/-!
# The marks of all objects, in memory and in storage
-/

namespace Verif

variable {e : Env} {A : Bool × Nat → Prop}

/-- The mark is allowed. -/
def Marked (A : Bool × Nat → Prop) (o : Obj) : Prop := o.iv.length = 12 ∧ A o.mark

/-- The marks in the object files are allowed. -/
def MarkedDisk (A : Bool × Nat → Prop) (d : Disk) : Prop :=
  ∀ i b, d (.object, i) = some b → b = [] ∨ ∃ p, Marked A p ∧ b = wrObject p

theorem Marked.of {o p : Obj} (h : Marked A o) (h1 : p.iv = o.iv) (h2 : p.mark = o.mark) : Marked A p := by
  unfold Marked; rw [h1, h2]; exact h

theorem rdObject_mark {p o o' : Obj} {rest : Bytes} (hi : p.iv.length = 12) (hm : p.keyGenMech < 2 ^ 64)
    (h : rdObject o (wrObject p) = some (o', rest)) : o'.iv.length = 12 ∧ o'.mark = p.mark := by
  unfold rdObject at h
  obtain ⟨iv, b1, e1, h⟩ := rd_bind h
  obtain ⟨hd, b2, e2, h⟩ := rd_bind h
  obtain ⟨cls, b3, e3, h⟩ := rd_bind h
  obtain ⟨kg, b4, e4, h⟩ := rd_bind h
  obtain ⟨ot, b5, e5, h⟩ := rd_bind h
  obtain ⟨lo, b6, e6, h⟩ := rd_bind h
  have hl := fixed_length e1
  have hw : wrObject p = p.iv ++ (wrUlong p.handle ++ (wrUlong p.cls ++ (wrUlong p.keyGenMech ++
      (wrBool p.onToken ++ (wrBool p.local' ++ (wrWord32 p.flag ++ (wrWord32 p.opFlag ++
      (p.startDate ++ (p.endDate ++ (wrArray p.keyId ++ wrArray p.label)))))))))) := by
    simp only [wrObject, List.append_assoc]
  have r1 : ∀ r, Rd.fixed 12 (p.iv ++ r) = some (p.iv, r) := by
    intro r; unfold Rd.fixed
    rw [if_pos (by rw [List.length_append]; omega), ← hi, List.take_left' rfl, List.drop_left' rfl]
  rw [hw, r1] at e1
  cases e1
  rw [(readsBack_ulong p.handle).1] at e2
  cases e2
  rw [(readsBack_ulong p.cls).1] at e3
  cases e3
  rw [(readsBack_ulong p.keyGenMech).1] at e4
  cases e4
  have hb : ∀ (v : Bool) r, Rd.byte (wrBool v ++ r) = some ((if v then 1 else 0 : UInt8), r) := by
    intro v r; rfl
  rw [hb] at e5
  cases e5
  rw [hb] at e6
  cases e6
  obtain ⟨_, _, _, h⟩ := rd_bind h
  obtain ⟨_, _, _, h⟩ := rd_bind h
  obtain ⟨_, _, _, h⟩ := rd_bind h
  obtain ⟨_, _, _, h⟩ := rd_bind h
  obtain ⟨_, _, _, h⟩ := rd_bind h
  obtain ⟨_, _, _, h⟩ := rd_bind h
  cases h
  refine ⟨hl, ?_⟩
  show ((if p.local' = true then 1 else 0 : UInt8) != 0, ofBytes (beBytes 8 p.keyGenMech)) = (p.local', p.keyGenMech)
  rw [ofBytes_beBytes_mod, Nat.mod_eq_of_lt hm]
  cases p.local' <;> rfl

theorem MarkedDisk.put {d : Disk} (h : MarkedDisk A d) {w : Write}
    (hw : w.1.1 = .object → w.2 = [] ∨ ∃ p, Marked A p ∧ w.2 = wrObject p) : MarkedDisk A (d.put w) := by
  intro i b hb
  unfold Disk.put at hb
  split at hb
  · rename_i hf
    cases hb
    exact hw (by rw [← hf])
  · exact h i b hb

theorem storeObj_marked (hr : RandLen e) (k : Bytes) (r : Nat) {o : Obj} (i : Nat) (h : Marked A o) :
    Marked A (storeObj e.store k r o i).obj := by
  refine ⟨(storeObj_key e.store k r o i).2 (fun n => hr n 12) h.1, ?_⟩
  have := congrArg (fun o : Obj => o.mark) (storeObj_view e.store k r o i)
  have : (storeObj e.store k r o i).obj.mark = o.mark := this
  rw [this]; exact h.2

theorem storeObj_markedDisk (k : Bytes) (r : Nat) {o : Obj} (i : Nat) (h : Marked A o) {d : Disk} (hd : MarkedDisk A d) :
    MarkedDisk A (d.puts (storeObj e.store k r o i).wr) := by
  have hw : MarkedDisk A (d.put ((.object, i), wrObject o)) := hd.put fun _ => .inr ⟨o, h, rfl⟩
  have hne : ∀ {f b}, keyFile o = some f → MarkedDisk A ((d.put ((.object, i), wrObject o)).put ((f, i), b)) :=
    fun hf => hw.put fun hx => absurd hx (keyFile_ne hf).2
  unfold storeObj
  dsimp only
  repeat' split
  all_goals first
    | exact hw
    | exact hne (by assumption)

theorem marked_closed (hr : RandLen e) (h0 : A plainMark) (hlt : ∀ b n, A (b, n) → n < 2 ^ 64)
    (hp : ∀ r m typ gen a b a' b', pairGen e r m = some (typ, gen) → gen a b = (.ok, a', b') → A (true, m.num)) :
    Closed e (Marked A) (fun _ => True) (MarkedDisk A) (fun _ => True) (fun _ => True) where
  name := fun _ _ _ _ h => h
  new := fun typ cls b t _ _ _ _ => by
    refine ⟨newObject_iv (e := e) { handle := 0, use := if b then .rw else .no } typ cls t |> fun h => ?_, ?_⟩
    · cases b <;> exact h
    · rw [hm_mark (setAttributeValue_hm ..)]; exact h0
  set := fun o b t _ h => h.of (setAttributeValue_key e.key b o t).2 (hm_mark (setAttributeValue_hm ..))
  copy := fun o t _ _ _ => by
    refine Marked.of (o := newObj 0 o.typ) ⟨rfl, h0⟩ (setAttributeValue_key ..).2 (hm_mark (setAttributeValue_hm ..))
  enc := fun o k b _ h => h.of (encodeObj_key ..).2 (hm_mark (encodeObj_hm ..))
  dec := fun o k h => h.of (decodeObj_key ..).2 (hm_mark (decodeObj_hm ..))
  sto := fun o k r i _ h => storeObj_marked hr k r i h
  symm := fun _ _ _ _ h => h
  rsa := fun _ _ _ _ _ h _ => h
  pair := fun r m typ gen a b a' b' h1 h2 _ _ _ _ ha hb => by
    obtain ⟨i1, i2⟩ := pairGen_iv h1 h2
    obtain ⟨m1, m2⟩ := pairGen_mark h1 h2
    have := hp r m typ gen a b a' b' h1 h2
    exact ⟨⟨by rw [i1]; exact ha.1, by rw [m1]; exact this⟩, ⟨by rw [i2]; exact hb.1, by rw [m2]; exact this⟩⟩
  der := fun _ _ _ _ h hd => h.of (deriveTail_iv hd) (hm_mark (deriveTail_hm hd))
  load := by
    intro d u typ i o _ hd h
    unfold loadObj at h
    obtain ⟨o1, h1, h⟩ := Option.bind_eq_some_iff.mp h
    unfold readFile at h1
    obtain ⟨b, hb, h1⟩ := Option.bind_eq_some_iff.mp h1
    obtain ⟨⟨p, rest⟩, h2, rfl⟩ := Option.map_eq_some_iff.mp h1
    dsimp only at h
    have hm : Marked A p := by
      rcases hd i b hb with rfl | ⟨q, hq, rfl⟩
      · cases h2
      · obtain ⟨g1, g2⟩ := rdObject_mark hq.1 (hlt _ _ hq.2) h2
        exact ⟨g1, by rw [g2]; exact hq.2⟩
    split at h
    · cases h
    split at h
    · obtain ⟨r, _, h⟩ := Option.bind_eq_some_iff.mp h
      obtain ⟨pg, _, rfl⟩ := Option.map_eq_some_iff.mp h
      exact hm
    · obtain ⟨kd, hk, rfl⟩ := Option.map_eq_some_iff.mp h
      exact hm
  key0 := trivial
  keyH := fun _ _ _ => trivial
  tokFile := fun _ _ hd => hd.put fun h => by cases h
  objFile := fun d o k r i _ h hd => storeObj_markedDisk k r i h hd
  delFile := by
    intro d o i _ hd
    unfold unstore
    split
    · exact (hd.put (w := ((.object, i), [])) (fun _ => .inl rfl)).put (fun _ => .inl rfl)
    · exact hd.put (fun _ => .inl rfl)

/-! ## Generation with some mechanisms only -/

/-- The environment in which the generation of pairs works only for some mechanisms. -/
def Env.only (e : Env) (ok : Mech → Bool) : Env :=
  { e with rsaGen := fun n b x => if ok .rsaKeyPairGen then e.rsaGen n b x else none
           ecGen := fun n c => if ok .ecKeyPairGen then e.ecGen n c else none
           dhGen := fun n p g => if ok .dhKeyPairGen then e.dhGen n p g else none }

theorem only_pairGen {ok : Mech → Bool} {m : Mech} (h : ok m = true) (r : Nat) :
    pairGen (e.only ok) r m = pairGen e r m := by
  cases m <;> first | rfl | (simp only [pairGen, Env.only, h, if_true])

theorem only_ok {ok : Mech → Bool} {r : Nat} {m : Mech} {typ : Nat} {gen : Obj → Obj → IRet × Obj × Obj} {a b a' b' : Obj}
    (h : pairGen (e.only ok) r m = some (typ, gen)) (hg : gen a b = (.ok, a', b')) : ok m = true := by
  cases hm : ok m with
  | true => rfl
  | false =>
    unfold pairGen at h
    split at h
    · obtain ⟨_, rfl⟩ := Prod.mk.inj (Option.some.inj h)
      unfold rsaGenerate at hg
      simp only [Env.only, hm, Bool.false_eq_true, if_false] at hg
      repeat' split at hg
      all_goals first | cases hg | skip
      all_goals simp_all
    · obtain ⟨_, rfl⟩ := Prod.mk.inj (Option.some.inj h)
      unfold ecGenerate at hg
      simp only [Env.only, hm, Bool.false_eq_true, if_false] at hg
      repeat' split at hg
      all_goals first | cases hg | skip
      all_goals simp_all
    · obtain ⟨_, rfl⟩ := Prod.mk.inj (Option.some.inj h)
      unfold dhGenerate at hg
      simp only [Env.only, hm, Bool.false_eq_true, if_false] at hg
      cases hg
    · cases h

theorem only_genPair {ok : Mech → Bool} {l : Lib} {s : Session} {m : Mech} (p : MechParam) (tp tq : Option (List Entry)) (b : Bool)
    (h : ok m = true) : cGenPair (e.only ok) l s (some (m, p)) tp tq b = cGenPair e l s (some (m, p)) tp tq b := by
  unfold cGenPair
  cases tp with
  | none => rfl
  | some tp =>
    cases tq with
    | none => rfl
    | some tq =>
      dsimp only
      rw [only_pairGen h]
      rfl

/-- Calls other than the generation of a pair with another mechanism do not notice. -/
theorem only_callBody {ok : Mech → Bool} (l : Lib) (c : Call)
    (hc : ∀ h m p tp tq b, c = .sess h (.genPair (some (m, p)) tp tq b) → ok m = true) :
    callBody (e.only ok) l c = callBody e l c := by
  cases c with
  | sess h c =>
    cases c with
    | genPair m tp tq b =>
      simp only [callBody]
      split
      · rfl
      · split
        · rfl
        · cases m with
          | none => rfl
          | some mp => exact only_genPair mp.2 tp tq b (hc h mp.1 mp.2 tp tq b rfl)
    | _ => rfl
  | _ => rfl

/-- A generation that fails without undefined behaviour leaves everything but the random
number generator alone. -/
theorem genPair_fails {l : Lib} {s : Session} {m : Option (Mech × MechParam)} {tp tq : Option (List Entry)} {p : Bool}
    (hg : (cGenPair e l s m tp tq p).1.bad = false) (hu : (cGenPair e l s m tp tq p).2.rv ≠ .ub)
    (hf : (cGenPair e l s m tp tq p).2.rv ≠ .ok) : ∃ n, (cGenPair e l s m tp tq p).1 = { l with rng := n } := by
  unfold cGenPair at hg hu hf ⊢
  split
  rotate_left; · exact ⟨l.rng, rfl⟩
  dsimp only at hg hu hf
  split
  · exact ⟨l.rng, rfl⟩
  rename_i hp
  rw [if_neg hp] at hg hu hf
  split
  · exact ⟨l.rng, rfl⟩
  rename_i heq
  rw [heq] at hg hu hf
  dsimp only at hg hu hf
  split
  · exact ⟨l.rng, rfl⟩
  rename_i hn
  rw [if_neg hn] at hg hu hf
  split
  rotate_left; · exact ⟨l.rng, rfl⟩
  rename_i h1
  rw [h1] at hg hu hf
  dsimp only at hg hu hf
  split
  rotate_left; · exact ⟨l.rng, rfl⟩
  rename_i h2
  rw [h2] at hg hu hf
  dsimp only at hg hu hf
  split
  · rename_i h3
    rw [h3] at hg hu hf
    dsimp only at hg hu hf
    unfold addPair at hg hu hf ⊢
    dsimp only at hg hu hf ⊢
    have hc : ∀ (l₀ : Lib) (t : List Entry) (o : Obj), ((addObject e l₀ s t o).2.rv ≠ .ok ∧ (addObject e l₀ s t o).1 = l₀) ∨
      ∃ k l', addObject e l₀ s t o = (l', { rv := .ok, handle := some k }) := by
      intro l₀ t o
      rcases addObject_cases (e := e) (ok := fun _ => True) l₀ s t o (fun _ _ => trivial) with ⟨g1, _, _, g2⟩ | ⟨on, k, l', _, g2, g3⟩
      · exact .inl ⟨g1, g2⟩
      · exact .inr ⟨k, l', g3⟩
    rcases hc _ _ _ with ⟨g1, g2⟩ | ⟨k, l', g3⟩
    · rw [if_pos g1, g2]
      exact ⟨_, rfl⟩
    · rw [g3] at hg hu hf ⊢
      dsimp only at hg hu hf ⊢
      rw [if_neg (by simp)] at hg hu hf ⊢
      split at hu
      · exact absurd rfl hu
      · rename_i s1 hs1
        try rw [hs1] at hg hf
        dsimp only at hg hf
        split at hf
        · rename_i hx
          rw [if_pos hx] at hg
          cases hg
        · exact absurd rfl hf
  · exact ⟨l.rng, rfl⟩
  · exact ⟨_, rfl⟩

theorem sess_not_ok {l : Lib} {h : Nat} {m : Option (Mech × MechParam)} {tp tq : Option (List Entry)} {p : Bool}
    (hn : tp = none ∨ tq = none) (hok : (callBody e l (.sess h (.genPair m tp tq p))).2.rv = .ok) : False := by
  simp only [callBody] at hok
  split at hok
  · cases hok
  split at hok
  · cases hok
  · simp only [sessCall, cGenPair] at hok
    split at hok
    · rcases hn with hn | hn <;> cases hn
    · cases hok

theorem sess_not_ok' {l : Lib} {h : Nat} {m : Option (Mech × MechParam)} {tp tq : Option (List Entry)} {p : Bool}
    (hn : m = none ∨ p = false) (hok : (callBody e l (.sess h (.genPair m tp tq p))).2.rv = .ok) : False := by
  simp only [callBody] at hok
  split at hok
  · cases hok
  split at hok
  · cases hok
  · simp only [sessCall, cGenPair] at hok
    split at hok
    · rcases hn with hn | rfl
      · cases hn
      · cases hok
    · cases hok

theorem sess_fails {l : Lib} {h : Nat} {m : Option (Mech × MechParam)} {tp tq : Option (List Entry)} {p : Bool}
    (hg : (callBody e l (.sess h (.genPair m tp tq p))).1.bad = false)
    (hu : (callBody e l (.sess h (.genPair m tp tq p))).2.rv ≠ .ub)
    (hf : (callBody e l (.sess h (.genPair m tp tq p))).2.rv ≠ .ok) :
    ∃ n, (callBody e l (.sess h (.genPair m tp tq p))).1 = { l with rng := n } := by
  simp only [callBody] at hg hu hf ⊢
  split
  · exact ⟨l.rng, rfl⟩
  rename_i hn
  rw [if_neg hn] at hg hu hf
  cases hs : getSession l h with
  | none => exact ⟨l.rng, rfl⟩
  | some s =>
    rw [hs] at hg hu hf
    exact genPair_fails hg hu hf

/-! ## Histories -/

/-- The marks the pairs generated so far account for. -/
def Accounted (e : Env) (l₀ : Lib) (cs : List Call) (x : Bool × Nat) : Prop :=
  x = plainMark ∨ ∃ m r, Generates e l₀ cs m r ∧ m.num < 2 ^ 64 ∧ x = (true, m.num)

theorem Accounted.mono {l₀ : Lib} {cs : List Call} {x : Bool × Nat} (h : Accounted e l₀ cs x) (c : Call) : Accounted e l₀ (cs ++ [c]) x := by
  rcases h with h | ⟨m, r, ⟨be, h, p, tp, tq, af, rfl, h1, h2⟩, h3⟩
  · exact .inl h
  · exact .inr ⟨m, r, ⟨be, h, p, tp, tq, af ++ [c], by simp, h1, h2⟩, h3⟩

theorem marked_mono {A B : Bool × Nat → Prop} {l : Lib} (hAB : ∀ x, A x → B x)
    (h : AllObj (Marked A) (fun _ => True) (MarkedDisk A) l) : AllObj (Marked B) (fun _ => True) (MarkedDisk B) l := by
  have hm : ∀ o, Marked A o → Marked B o := fun o ho => ⟨ho.1, hAB _ ho.2⟩
  refine ⟨fun o ho => hm o (h.objs o ho), fun s hs o ho => hm o (h.sess s hs o ho), trivial, fun i b hb => ?_⟩
  rcases h.disk i b hb with h | ⟨p, h1, h2⟩
  · exact .inl h
  · exact .inr ⟨p, hm p h1, h2⟩

theorem pairGen_num {r : Nat} {m : Mech} {x : Nat × (Obj → Obj → IRet × Obj × Obj)} (h : pairGen e r m = some x) : m.num < 2 ^ 64 := by
  unfold pairGen at h
  split at h <;> first | cases h; done | (simp only [Mech.num]; decide)

/-- After any history of a good library the mark of every object, in memory and in storage,
is plain or accounted for by an earlier generation. -/
theorem made_run (hr : RandLen e) {l₀ : Lib} (h₀ : Start l₀) (hd : NoToken l₀) (cs : List Call)
    (hg : (run e l₀ cs).bad = false) :
    AllObj (Marked (Accounted e l₀ cs)) (fun _ => True) (MarkedDisk (Accounted e l₀ cs)) (run e l₀ cs) := by
  induction hlen : cs.length generalizing cs with
  | zero =>
    obtain rfl := List.length_eq_zero_iff.mp hlen
    exact h₀.allObj trivial (fun i b hb => .inl (by rw [hd] at hb; cases hb))
  | succ n ih =>
    obtain ⟨cs, c, rfl⟩ : ∃ ds d, cs = ds ++ [d] := by
      rcases List.eq_nil_or_concat cs with rfl | ⟨ds, d, rfl⟩
      · cases hlen
      · exact ⟨ds, d, by simp⟩
    have hn : cs.length = n := by simpa using hlen
    rw [run_append] at hg ⊢
    have hb := run_good hg
    have hI := marked_mono (B := Accounted e l₀ (cs ++ [c])) (fun x hx => hx.mono c) (ih cs hb hn)
    have hst : run e (run e l₀ cs) [c] = (step e (run e l₀ cs) c).1 := rfl
    rw [hst] at hg ⊢
    obtain ⟨_, hu, hs⟩ := step_good hg
    have key : ∀ ok : Mech → Bool, (∀ h m p tp tq b, c = .sess h (.genPair (some (m, p)) tp tq b) → ok m = true) →
        (∀ m, ok m = true → m.num < 2 ^ 64 → Accounted e l₀ (cs ++ [c]) (true, m.num)) →
        AllObj (Marked (Accounted e l₀ (cs ++ [c]))) (fun _ => True) (MarkedDisk (Accounted e l₀ (cs ++ [c]))) (callBody e (run e l₀ cs) c).1 := by
      intro ok h1 h2
      have hr' : RandLen (e.only ok) := hr
      have hA : ∀ b n, Accounted e l₀ (cs ++ [c]) (b, n) → n < 2 ^ 64 := by
        rintro b n (h | ⟨m, r, _, h3, h4⟩)
        · cases h; decide
        · cases h4; exact h3
      have := all_callBody (marked_closed (e := e.only ok) hr' (.inl rfl) hA
        (fun r m typ gen a b a' b' g1 g2 => h2 m (only_ok g1 g2) (pairGen_num g1))) hI c (fun _ _ => trivial) (fun _ _ => trivial)
      rwa [only_callBody _ _ h1] at this
    rw [hs]
    by_cases hc : ∃ h m p tp tq, c = .sess h (.genPair (some (m, p)) tp tq true) ∧ (callBody e (run e l₀ cs) c).2.rv = .ok
    · obtain ⟨h, m, p, tp, tq, rfl, hok⟩ := hc
      refine key (fun n => n == m) ?_ ?_
      · intro h' m' p' tp' tq' b' heq
        cases heq
        simp
      · intro m' hm' hlt
        have hm' : m' = m := by simpa using hm'
        subst hm'
        have hs2 : (step e (run e l₀ cs) (.sess h (.genPair (some (m', p)) tp tq true))).2.rv = .ok := by rw [hs]; exact hok
        cases tp with
        | none =>
          exact (sess_not_ok (tp := none) (tq := tq) (.inl rfl) hok).elim
        | some tp =>
          cases tq with
          | none => exact (sess_not_ok (tp := some tp) (tq := none) (.inr rfl) hok).elim
          | some tq =>
            exact .inr ⟨m', _, ⟨cs, h, p, tp, tq, [], rfl, rfl, hs2⟩, hlt, rfl⟩
    · by_cases hp : ∃ h m tp tq b, c = .sess h (.genPair m tp tq b)
      · obtain ⟨h, m, tp, tq, b, rfl⟩ := hp
        have hok : (callBody e (run e l₀ cs) (.sess h (.genPair m tp tq b))).2.rv ≠ .ok := by
          intro hok
          cases m with
          | none => exact sess_not_ok' (.inl rfl) hok
          | some mp =>
            cases b with
            | false => exact sess_not_ok' (.inr rfl) hok
            | true => exact hc ⟨h, mp.1, mp.2, tp, tq, rfl, hok⟩
        rw [hs] at hg
        obtain ⟨n, hx⟩ := sess_fails hg hu hok
        rw [hx]
        exact hI.of rfl rfl rfl
      · refine key (fun _ => false) ?_ ?_
        · intro h m p tp tq b heq
          exact absurd ⟨h, _, tp, tq, b, heq⟩ hp
        · intro m hm; cases hm

/-- Without another `C_Initialize`, every object was there at the beginning under the same
handle and with the same mark, or is plain, or one of a pair generated since. -/
theorem from_run {l : Lib} (hi : SInv l) (cs : List Call) (hc : .cInit ∉ cs) (hg : (run e l cs).bad = false) :
    From (fun x => Plain x ∨ ∃ m r, Generates e l cs m r ∧ x.2 = (true, m.num) ∧ (r.handle = some x.1 ∨ r.priv = some x.1))
      l (run e l cs) := by
  induction cs generalizing l with
  | nil => exact .refl l
  | cons c cs ih =>
    have hg' : (run e (step e l c).1 cs).bad = false := hg
    obtain ⟨hb, hu, hs⟩ := step_good (run_good hg')
    have h1 := from_callBody hi c (fun h => hc (h ▸ List.mem_cons_self)) (by rw [← hs]; exact run_good hg') hu
    have h2 := ih (l := (step e l c).1) (hi.step e c) (fun h => hc (List.mem_cons_of_mem _ h)) hg'
    rw [hs] at h2
    show From _ l (run e (step e l c).1 cs)
    rw [hs]
    refine .trans (h1.mono ?_) (h2.mono ?_)
    · rintro x (h | ⟨k, m, p, tp, tq, rfl, h3, h4, h5⟩)
      · exact .inl h
      · refine .inr ⟨m, _, ⟨[], k, p, tp, tq, cs, rfl, rfl, ?_⟩, h4, ?_⟩
        · show (step e l _).2.rv = .ok
          unfold pairCall
          rw [hs]; exact h3
        · show (step e l _).2.handle = _ ∨ (step e l _).2.priv = _
          unfold pairCall
          rw [hs]; exact h5
    · rintro x (h | ⟨m, r, ⟨be, k, p, tp, tq, af, rfl, h3, h4⟩, h5⟩)
      · exact .inl h
      · refine .inr ⟨m, r, ⟨c :: be, k, p, tp, tq, af, rfl, ?_, h4⟩, h5⟩
        rw [← h3]
        show answer e (run e (step e l c).1 be) _ = _
        rw [hs]

end Verif
