import Verif.Proofs.SmallStep
import Verif.Props.EcSig
import Verif.Props.Copy

/-!
# Where undefined behaviour cannot happen
-/

namespace Verif

variable {e : Env}

/-! ## Setting attributes -/

/-- The entry neither dereferences NULL nor turns a key into a certificate or back. -/
structure SetSafe (c : Prop) (en : Entry) : Prop where
  noNull : en.typ = .id ∨ en.typ = .label → en.mem = none → en.len = 0
  cls : en.typ = .cls → (leNat en.val = CKO_CERTIFICATE ↔ c)

theorem setAttr_safe {o : Obj} {en : Entry} (h : SetSafe (o.cls = CKO_CERTIFICATE) en) :
    (setAttr o en).1 ≠ .ub ∧ ((setAttr o en).2.cls = CKO_CERTIFICATE ↔ o.cls = CKO_CERTIFICATE) := by
  have hnull : en.typ = .id ∨ en.typ = .label → ¬ (en.mem.isNone && en.len != 0) = true := by
    intro ht hx
    rw [Bool.and_eq_true] at hx
    have := h.noNull ht (Option.isNone_iff_eq_none.mp hx.1)
    rw [this] at hx
    exact absurd hx.2 (by decide)
  by_cases ht : en.typ = .cls
  · have hre : ¬ reinterprets o (leNat en.val) = true := by
      unfold reinterprets
      have := h.cls ht
      by_cases h1 : o.cls = CKO_CERTIFICATE
      · rw [h1, this.mpr h1]; decide
      · have h2 : leNat en.val ≠ CKO_CERTIFICATE := fun hh => h1 (this.mp hh)
        rw [beq_eq_false_iff_ne.mpr h1, beq_eq_false_iff_ne.mpr h2]; decide
    unfold setAttr
    rw [ht]
    dsimp only
    rw [if_neg hre]
    exact ⟨(fun h => by cases h), h.cls ht⟩
  · refine ⟨?_, by rw [setAttr_cls o en ht]⟩
    unfold setAttr Obj.setOp Obj.setFl
    dsimp only
    split
    case h_1 h => exact absurd h ht
    all_goals first
      | (intro hx; cases hx; done)
      | (split <;> (intro hx; cases hx; done))
      | (rename_i h1; rw [if_neg (hnull (.inl h1))]; exact fun h => by cases h)
      | (rename_i h1; rw [if_neg (hnull (.inr h1))]; exact fun h => by cases h)

theorem setAttrs_safe {t : List Entry} : ∀ {o : Obj}, (∀ en ∈ t, SetSafe (o.cls = CKO_CERTIFICATE) en) → (setAttrs o t).1 ≠ .ub := by
  induction t with
  | nil => intro o _ h; cases h
  | cons a t ih =>
    intro o h
    have h1 := setAttr_safe (h a List.mem_cons_self)
    unfold setAttrs
    dsimp only
    split
    · refine ih (fun en hen => ?_)
      have := h en (List.mem_cons_of_mem _ hen)
      exact ⟨this.noNull, fun ht => (this.cls ht).trans h1.2.symm⟩
    · exact fun h => by cases h
    · exact fun h => by cases h
    · rename_i hu; exact absurd hu h1.1
    · exact fun h => by cases h

theorem ecThen_safe {r : IRet × EcKey} {f : EcKey → IRet × EcKey} (h1 : r.1 ≠ .ub) (h2 : r.1 = .ok → (f r.2).1 ≠ .ub) :
    (ecThen r f).1 ≠ .ub := by
  unfold ecThen
  split
  · rename_i h; exact h2 h
  · exact h1

theorem setEcKey_safe {x : KeyExt} {o : Obj} {v : CKA → Option Bytes} (hc : v .ecPoint ≠ none → v .ecParams ≠ none) :
    (setEcKey x o v).1 ≠ .ub := by
  have s1 : (ecStep1 x (v .ecParams) {}).1 ≠ .ub := by
    unfold ecStep1
    split
    · exact fun h => by cases h
    · split
      · rename_i hr
        unfold ecSetParams at hr
        repeat' split at hr
        all_goals (cases hr; try exact fun h => by cases h)
      · exact fun h => by cases h
  have s1dp : (ecStep1 x (v .ecParams) {}).1 = .ok → v .ecParams ≠ none → (ecStep1 x (v .ecParams) {}).2.dp ≠ none := by
    intro hok hne
    unfold ecStep1 at hok ⊢
    split
    · rename_i h; exact absurd h hne
    · rename_i der h
      rw [h] at hok
      dsimp only at hok
      split at hok
      · rename_i r hr
        exfalso
        cases hok
        unfold ecSetParams at hr
        repeat' split at hr
        all_goals cases hr
      · exact fun h => by cases h
  have s2 : ∀ k, (ecStep2 x (v .value) k).1 ≠ .ub ∧ (ecStep2 x (v .value) k).2.dp = k.dp := by
    intro k
    unfold ecStep2
    split
    · exact ⟨(fun h => by cases h), rfl⟩
    · split <;> exact ⟨(fun h => by cases h), rfl⟩
  have h12 : (ecThen (ecStep1 x (v .ecParams) {}) (ecStep2 x (v .value))).1 ≠ .ub :=
    ecThen_safe s1 fun _ => (s2 _).1
  have hall : (ecThen (ecThen (ecStep1 x (v .ecParams) {}) (ecStep2 x (v .value))) (ecStep3 x (v .ecPoint))).1 ≠ .ub := by
    refine ecThen_safe h12 fun hok => ?_
    have h1 : (ecStep1 x (v .ecParams) {}).1 = .ok := by
      unfold ecThen at hok
      split at hok
      · assumption
      · exact hok
    have hdp : (ecThen (ecStep1 x (v .ecParams) {}) (ecStep2 x (v .value))).2.dp = (ecStep1 x (v .ecParams) {}).2.dp := by
      unfold ecThen
      rw [if_pos h1]
      exact (s2 _).2
    unfold ecStep3
    split
    · exact fun h => by cases h
    · rename_i der hv
      have hdp2 := s1dp h1 (hc (by rw [hv]; exact fun h => by cases h))
      rw [← hdp] at hdp2
      unfold ecSetPoint
      split
      · rename_i r hr
        unfold ecPointDer at hr
        repeat' split at hr
        all_goals (cases hr; try exact fun h => by cases h)
      · split
        · rename_i hn; exact absurd hn hdp2
        · split <;> exact fun h => by cases h
  unfold setEcKey
  dsimp only
  split
  · exact fun h => by cases h
  · exact hall

theorem setKey_safe {x : KeyExt} {o : Obj} {v : CKA → Option Bytes} (hc : v .ecPoint ≠ none → v .ecParams ≠ none)
    (hk : keyParams o ≠ none) (hf : o.cls ≠ CKO_CERTIFICATE → o.typ = CKK_AES ∨ o.typ = CKK_GENERIC_SECRET →
      (∀ b, v .value = some b → b.length ≤ 512) ∧ ∀ b, v .valueLen = some b → leNat b ≤ 512) :
    (setKey x o v).1 ≠ .ub := by
  unfold setKey
  unfold keyParams at hk
  split
  · unfold setCert
    dsimp only
    repeat' split
    all_goals exact fun h => by cases h
  rename_i h0
  rw [if_neg h0] at hk
  split
  · unfold setRsaKey
    dsimp only
    repeat' split
    all_goals exact fun h => by cases h
  rename_i h1
  rw [if_neg h1] at hk
  split
  · exact setEcKey_safe hc
  rename_i h2
  rw [if_neg h2] at hk
  split
  · unfold setDhKey
    dsimp only
    repeat' split
    all_goals exact fun h => by cases h
  rename_i h3
  rw [if_neg h3] at hk
  have ht : o.typ = CKK_AES ∨ o.typ = CKK_GENERIC_SECRET := Decidable.byContradiction fun hn => hk (if_neg hn)
  obtain ⟨f1, f2⟩ := hf h0 ht
  unfold setSecretKey
  split
  · rename_i r hr
    unfold secretLen at hr
    repeat' (first | split at hr | (dsimp only at hr; split at hr))
    all_goals (cases hr; try exact fun h => by cases h)
  · rename_i n hn
    have := secretLen_small hn f2 f1
    split
    · exact fun h => by cases h
    · have hg : ¬ n > maxSymKey := Nat.not_lt_of_le this
      rw [if_neg hg]
      exact fun h => by cases h

theorem checkEntry_safe (b : Bool) (en : Entry) : checkEntry b en ≠ .ub := by
  unfold checkEntry
  repeat' split
  all_goals exact fun h => by cases h

theorem checkAttributes_safe (b : Bool) (t : List Entry) : checkAttributes b t ≠ .ub := by
  induction t with
  | nil => exact fun h => by cases h
  | cons a t ih =>
    unfold checkAttributes
    split
    · exact ih
    · exact checkEntry_safe b a

theorem keyVals_some_iff {t : List Entry} {a : CKA} : keyVals t a ≠ none ↔ ∃ en ∈ t, en.typ = a := by
  unfold keyVals keyAttr
  constructor
  · intro h
    cases hf : t.find? (fun en => en.typ == a) with
    | none => rw [hf] at h; exact absurd rfl h
    | some en =>
      have h1 := List.find?_some hf
      exact ⟨en, List.mem_of_find?_eq_some hf, by simpa using h1⟩
  · rintro ⟨en, hm, ht⟩ hn
    rw [Option.map_eq_none_iff, List.find?_eq_none] at hn
    exact hn en hm (by simp [ht])

/-- Setting attributes has no undefined behaviour, if the template (when it passes the first
check) is safe for the object. -/
theorem setAttributeValue_safe {x : KeyExt} {b : Bool} {o : Obj} {t : List Entry} (hc : Curved t)
    (hs : checkAttributes true t = .ok → ∀ en ∈ t, SetSafe (o.cls = CKO_CERTIFICATE) en)
    (hf : checkAttributes true t = .ok → o.cls ≠ CKO_CERTIFICATE → o.typ = CKK_AES ∨ o.typ = CKK_GENERIC_SECRET → Fits t) :
    (setAttributeValue x b o t).1 ≠ .ub := by
  unfold setAttributeValue
  dsimp only
  split
  · exact fun h => by cases h
  split
  · exact checkAttributes_safe true t
  rename_i hchk
  have hchk := Decidable.not_not.mp hchk
  split
  · exact fun h => by cases h
  rename_i ps hps
  split
  · exact fun h => by cases h
  have hk : (setKey x o (keyVals t)).1 ≠ .ub := by
    refine setKey_safe ?_ (by rw [hps]; exact fun h => by cases h) ?_
    · intro h
      exact keyVals_some_iff.mpr (hc (keyVals_some_iff.mp h))
    · intro h1 h2
      have := hf hchk h1 h2
      refine ⟨fun b hb => ?_, fun b hb => ?_⟩
      · obtain ⟨en, hm, ht, rfl⟩ := keyVals_mem hb
        exact (this en hm).1 ht
      · obtain ⟨en, hm, ht, rfl⟩ := keyVals_mem hb
        exact (this en hm).2 ht
  split
  · obtain ⟨d, s, hfr⟩ := setKey_frame x o (keyVals t)
    refine setAttrs_safe ?_
    rw [hfr]
    exact hs hchk
  · rename_i hu; exact absurd hu hk
  · exact fun h => by cases h

theorem KeyTmpl.fits {t : List Entry} (h : KeyTmpl t) : Fits t := fun en hm => ⟨h.value en hm, h.len en hm⟩

theorem KeyTmpl.safe {t : List Entry} (h : KeyTmpl t) {x : KeyExt} {b : Bool} {o : Obj} (ho : o.cls ≠ CKO_CERTIFICATE) :
    (setAttributeValue x b o t).1 ≠ .ub := by
  refine setAttributeValue_safe h.curved (fun _ en hm => ⟨h.noNull en hm, fun ht => ?_⟩) (fun _ _ _ => h.fits)
  exact ⟨fun hv => absurd ⟨en, hm, ht, hv⟩ h.cls, fun hv => absurd hv ho⟩

theorem CertTmpl.safe {t : List Entry} (h : CertTmpl t) {x : KeyExt} {b : Bool} {o : Obj} (ho : o.cls = CKO_CERTIFICATE) :
    (setAttributeValue x b o t).1 ≠ .ub := by
  refine setAttributeValue_safe h.curved (fun _ en hm => ⟨h.noNull en hm, fun ht => ?_⟩) (fun _ hn => absurd ho hn)
  exact ⟨fun _ => ho, fun _ => h.cls.2 en hm ht⟩

/-! ## Reading attributes -/

theorem getData_safe (d : Bytes) (b : Bool) (n : Nat) : (getData d b n).ret ≠ .ub ∧ (getData d b n).wr.length ≤ n := by
  unfold getData
  split
  · exact ⟨(fun h => by cases h), Nat.zero_le _⟩
  split
  · exact ⟨(fun h => by cases h), Nat.zero_le _⟩
  · rename_i h; exact ⟨(fun h => by cases h), Nat.le_of_not_lt h⟩

/-- Reading an attribute that makes sense for the object. -/
theorem getAttr_safe {x : KeyExt} {o : Obj} {a : CKA} (ho : o.symm.length ≤ 512) (ha : Askable o a) (b : Bool) (n : Nat) :
    (getAttr x o a b n).ret ≠ .ub ∧ (a ≠ .ecPoint → (getAttr x o a b n).wr.length ≤ n) := by
  have z : ∀ r : GRet, r.ret ≠ .ub ∧ r.wr.length ≤ n → r.ret ≠ .ub ∧ (a ≠ .ecPoint → r.wr.length ≤ n) := fun r h => ⟨h.1, fun _ => h.2⟩
  have nn : getNone.ret ≠ .ub ∧ getNone.wr.length ≤ n := ⟨(fun h => by cases h), Nat.zero_le _⟩
  have na : (getNotAvail n).ret ≠ .ub ∧ (getNotAvail n).wr.length ≤ n := ⟨(fun h => by cases h), Nat.zero_le _⟩
  have key : (getKeyAttr x o a b n).ret ≠ .ub ∧ (a ≠ .ecPoint → (getKeyAttr x o a b n).wr.length ≤ n) := by
    unfold getKeyAttr
    split
    · exact z _ (getData_safe ..)
    split
    · rename_i hm
      exfalso
      unfold misread at hm
      rw [Bool.and_eq_true] at hm
      have hc : o.cls = CKO_CERTIFICATE := by simpa using hm.1
      refine ha.1 hc ?_
      have hm := hm.2
      rw [Bool.or_eq_true, Bool.and_eq_true, Bool.and_eq_true] at hm
      rcases hm with ⟨_, hm⟩ | ⟨_, hm⟩
      · rw [List.contains_iff_mem] at hm
        simp only [keyParts, List.mem_cons, List.not_mem_nil, or_false] at hm ⊢
        rcases hm with h | h | h | h | h | h | h | h | h <;> simp [h]
      · rw [List.contains_iff_mem] at hm
        simp only [keyParts, List.mem_cons, List.not_mem_nil, or_false] at hm ⊢
        rcases hm with h | h <;> simp [h]
    split
    · unfold rsaGetAttr
      dsimp only
      split <;> first
        | exact z _ (getData_safe ..)
        | exact z _ na
        | (split <;> first | exact z _ nn | exact z _ (getData_safe ..))
    split
    · rename_i ht
      unfold ecGetAttr
      dsimp only
      split
      · obtain ⟨k, c, hk, hc⟩ := ha.2 ht (.inl rfl)
        have : o.ec = k := by unfold Obj.ec; rw [hk]
        unfold getEcParams
        rw [this, hc]
        exact z _ (getData_safe ..)
      · split
        · exact z _ nn
        · exact z _ (getData_safe ..)
      · split
        · exact z _ nn
        · refine ⟨?_, fun h => absurd rfl h⟩
          obtain ⟨k, c, hk, hc⟩ := ha.2 ht (.inr rfl)
          have : o.ec = k := by unfold Obj.ec; rw [hk]
          unfold getEcPoint
          rw [this, hc]
          dsimp only
          repeat' split
          all_goals exact fun h => by cases h
      · exact z _ na
    split
    · unfold dhGetAttr
      split
      · exact z _ (getData_safe ..)
      · exact z _ (getData_safe ..)
      · split
        · exact z _ (getData_safe ..)
        · exact z _ nn
      · exact z _ na
    split
    · unfold secretGetAttr
      split
      · split
        · exact z _ nn
        split
        · rename_i h
          exfalso
          simp only [Bool.and_eq_true, decide_eq_true_eq] at h
          exact Nat.not_lt_of_le ho h.1.1
        · exact z _ (getData_safe ..)
      · exact z _ (getData_safe ..)
      · exact z _ na
    · exact z _ na
  unfold getAttr
  split
  all_goals first
    | exact z _ (getData_safe ..)
    | exact z _ na
    | exact key
    | (split <;> first | exact z _ (getData_safe ..) | exact ⟨(fun h => by cases h), fun _ => Nat.zero_le _⟩)

theorem getEntry_safe {x : KeyExt} {o : Obj} {en : Entry} (ho : o.symm.length ≤ 512) (ha : Askable o en.typ) :
    (getEntry x o en).1 ≠ .ub := by
  have h := (getAttr_safe (x := x) ho ha en.mem.isSome en.len).1
  unfold getEntry
  dsimp only
  split
  all_goals first
    | (intro hx; cases hx; done)
    | (rename_i hu; exact absurd hu h)

theorem getEntries_safe {x : KeyExt} {o : Obj} {t : List Entry} (ho : o.symm.length ≤ 512) (ha : ∀ en ∈ t, Askable o en.typ) :
    (getEntries x o t).1 ≠ .ub := by
  induction t with
  | nil => exact fun h => by cases h
  | cons a t ih =>
    unfold getEntries
    dsimp only
    split
    · exact ih fun en hm => ha en (List.mem_cons_of_mem _ hm)
    · exact getEntry_safe ho (ha a List.mem_cons_self)

theorem getAttributeValue_safe {x : KeyExt} {o : Obj} {t : List Entry} (ho : o.symm.length ≤ 512) (ha : ∀ en ∈ t, Askable o en.typ) :
    (getAttributeValue x o t).1 ≠ .ub := by
  unfold getAttributeValue
  dsimp only
  split
  · exact checkAttributes_safe false t
  · exact getEntries_safe ho ha

/-- Comparing with an attribute. -/
theorem matchAttr_safe {x : KeyExt} {o : Obj} {en : Entry} (ho : o.symm.length ≤ 512) (ha : Askable o en.typ)
    (hp : en.typ ≠ .ecPoint) (hn : en.mem = none → en.len = 0) : matchAttr x o en ≠ none := by
  have h := getAttr_safe (x := x) ho ha true en.len
  unfold matchAttr
  dsimp only
  split
  · exact fun h => by cases h
  split
  · rename_i hu
    rcases hu with hu | hu
    · exact absurd hu h.1
    · exact absurd (h.2 hp) (Nat.not_le_of_lt hu)
  split
  · exact fun h => by cases h
  split
  · rename_i hm
    rw [Bool.and_eq_true] at hm
    rw [hn (Option.isNone_iff_eq_none.mp hm.1)] at hm
    exact absurd hm.2 (by decide)
  · exact fun h => by cases h

theorem matchAll_safe {x : KeyExt} {o : Obj} {t : List Entry} (ho : o.symm.length ≤ 512)
    (h : ∀ en ∈ t, en.typ ≠ .ecPoint ∧ (en.mem = none → en.len = 0) ∧ Askable o en.typ) : matchAll x o t ≠ none := by
  induction t with
  | nil => exact fun h => by cases h
  | cons a t ih =>
    obtain ⟨h1, h2, h3⟩ := h a List.mem_cons_self
    unfold matchAll
    split
    · rename_i hn; exact absurd hn (matchAttr_safe ho h3 h1 h2)
    · exact fun h => by cases h
    · exact ih fun en hm => h en (List.mem_cons_of_mem _ hm)

theorem hidden_shown {login : Login} {o : Obj} (h : ¬ hidden login o = true) : Shown login o := by
  unfold hidden at h
  rw [Bool.or_eq_true, not_or] at h
  refine ⟨by simpa using h.1, fun hl => ?_⟩
  have h2 := h.2
  rw [hl] at h2
  simp only [beq_self_eq_true, Bool.and_true, decide_eq_true_eq] at h2
  refine ⟨fun h0 => h2 ?_, fun h0 => h2 ?_⟩
  · rw [h0]; decide
  · rw [h0]; decide

theorem findLoop_safe {x : KeyExt} {login : Login} {t : List Entry} {os : List Obj} {acc : List Nat}
    (ho : ∀ o ∈ os, o.symm.length ≤ 512)
    (h : ∀ en ∈ t, en.typ ≠ .ecPoint ∧ (en.mem = none → en.len = 0) ∧ ∀ o ∈ os, Shown login o → Askable o en.typ) :
    findLoop x login t os acc ≠ none := by
  induction os generalizing acc with
  | nil => exact fun h => by cases h
  | cons o os ih =>
    have ih' : ∀ acc, findLoop x login t os acc ≠ none := fun acc => ih (acc := acc)
      (fun p hp => ho p (List.mem_cons_of_mem _ hp))
      (fun en hm => ⟨(h en hm).1, (h en hm).2.1, fun p hp => (h en hm).2.2 p (List.mem_cons_of_mem _ hp)⟩)
    unfold findLoop
    split
    · exact ih' acc
    rename_i hh
    split
    · rename_i hn
      exact absurd hn (matchAll_safe (ho o List.mem_cons_self) fun en hm =>
        ⟨(h en hm).1, (h en hm).2.1, (h en hm).2.2 o List.mem_cons_self (hidden_shown hh)⟩)
    · exact ih' acc
    · split
      · exact fun h => by cases h
      · exact ih' _

end Verif
