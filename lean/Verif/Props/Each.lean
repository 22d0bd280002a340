import Verif.Spec.Each
import Verif.Props.Copy

/-!
# C123: a template is answered attribute by attribute
-/

namespace Verif

variable {e : Env}

theorem checkAttributes_iff (set : Bool) (t : List Entry) :
    checkAttributes set t = .ok ↔ ∀ en ∈ t, checkEntry set en = .ok := by
  induction t with
  | nil => simp [checkAttributes]
  | cons en t ih =>
    simp only [checkAttributes, List.mem_cons, forall_eq_or_imp]
    split
    · rename_i h; rw [ih]; simp [h]
    · rename_i h; simp [h]

/-- Whether the session and the object are there. -/
theorem read_cases (e : Env) (l : Lib) (h o : Nat) :
    (∃ ob : Obj, ∀ t, (answer e l (readCall h o t)).rv = (getAttributeValue e.key ob t).1 ∧
      (answer e l (readCall h o t)).tmpl = some (getAttributeValue e.key ob t).2) ∨
    ∃ rv, rv ≠ .ok ∧ ∀ t, (answer e l (readCall h o t)).rv = rv ∧
      (answer e l (readCall h o t)).tmpl = none := by
  unfold answer
  by_cases hb : l.bad = true
  · exact .inr ⟨.ub, by decide, fun t => by rw [step_bad hb]; exact ⟨rfl, rfl⟩⟩
  · have hb : l.bad = false := by simpa using hb
    simp only [step_resp hb]
    dsimp only [callBody, readCall]
    by_cases hc : l.count ≤ 0
    · refine .inr ⟨.cryptokiNotInitialized, by decide, fun t => ?_⟩
      simp [hc]
    · cases hs : getSession l h with
      | none => refine .inr ⟨.sessionHandleInvalid, by decide, fun t => ?_⟩; simp [hc, hs]
      | some s =>
        cases ho : findObj l s o with
        | none =>
          refine .inr ⟨.objectHandleInvalid, by decide, fun t => ?_⟩
          simp [hc, hs, sessCall, cGetAttr, ho]
        | some ob =>
          refine .inl ⟨ob, fun t => ?_⟩
          simp [hc, hs, sessCall, cGetAttr, ho]

theorem getEntries_iff (x : KeyExt) (o : Obj) (t : List Entry) :
    (getEntries x o t).1 = .ok ↔ ∀ en ∈ t, (getEntry x o en).1 = .ok := by
  induction t with
  | nil => simp [getEntries]
  | cons en t ih =>
    simp only [getEntries, List.mem_cons, forall_eq_or_imp]
    split
    · rename_i h; rw [ih]; simp [h]
    · rename_i h; simp [h]

theorem getValue_iff (x : KeyExt) (o : Obj) (t : List Entry) :
    (getAttributeValue x o t).1 = .ok ↔
      ∀ en ∈ t, checkEntry false en = .ok ∧ (getEntry x o en).1 = .ok := by
  unfold getAttributeValue
  dsimp only
  by_cases hc : checkAttributes false t = .ok
  · rw [if_neg (by simp [hc]), getEntries_iff]
    have := (checkAttributes_iff false t).1 hc
    exact ⟨fun h en hm => ⟨this en hm, h en hm⟩, fun h en hm => (h en hm).2⟩
  · rw [if_pos hc]
    exact ⟨fun h => absurd h hc, fun h => absurd ((checkAttributes_iff false t).2 fun en hm => (h en hm).1) hc⟩

theorem getValue_one (x : KeyExt) (o : Obj) (en : Entry) :
    (getAttributeValue x o [en]).1 = .ok ↔
      checkEntry false en = .ok ∧ (getEntry x o en).1 = .ok := by
  rw [getValue_iff]; simp

theorem getValue_alone (x : KeyExt) (o : Obj) (en : Entry) (h : checkEntry false en = .ok) :
    getAttributeValue x o [en] = ((getEntry x o en).1, [(getEntry x o en).2]) := by
  unfold getAttributeValue
  simp only [checkAttributes, h, if_true, ne_eq, not_true, if_false, getEntries]
  split
  · rename_i h1; rw [h1]
  · rfl

/-- C123: a call of `C_GetAttributeValue` succeeds exactly if it would for each of the
attributes alone, and then it answers each as it would be answered alone. -/
theorem c123_each (e : Env) (l : Lib) (h o : Nat) (t : List Entry) :
    (askStatus e l h o t = .ok ↔ askStatus e l h o [] = .ok ∧ ∀ en ∈ t, Had e l h o en) ∧
    (askStatus e l h o t = .ok → filled e l h o t = t.map (alone e l h o)) := by
  unfold Had alone filled askStatus
  rcases read_cases e l h o with ⟨ob, hr⟩ | ⟨rv, hne, hr⟩
  · simp only [hr, getValue_one, Option.getD_some]
    rw [getValue_iff, getValue_iff]
    refine ⟨⟨fun h => ⟨by simp, h⟩, fun h => h.2⟩, fun h => ?_⟩
    have hg : (getAttributeValue e.key ob t).2 = t.map (fun en => (getEntry e.key ob en).2) := by
      unfold getAttributeValue
      dsimp only
      rw [if_neg (by simp [(checkAttributes_iff false t).2 fun en hm => (h en hm).1])]
      exact (getEntries_all ((getEntries_iff _ _ _).2 fun en hm => (h en hm).2)).1
    rw [hg]
    refine List.map_congr_left fun en hm => ?_
    rw [getValue_alone _ _ _ (h en hm).1]
    rfl
  · simp only [hr]
    exact ⟨⟨fun h => absurd h hne, fun h => absurd h.1 hne⟩, fun h => absurd h hne⟩

/-- C123: the order of the attributes does not matter. -/
theorem c123_order (e : Env) (l : Lib) (h o : Nat) {t t' : List Entry} (hp : t.Perm t')
    (hok : askStatus e l h o t = .ok) :
    askStatus e l h o t' = .ok ∧ (filled e l h o t).Perm (filled e l h o t') := by
  have h1 := (c123_each e l h o t).1.1 hok
  have h2 : askStatus e l h o t' = .ok :=
    (c123_each e l h o t').1.2 ⟨h1.1, fun en hm => h1.2 en (hp.mem_iff.2 hm)⟩
  rw [(c123_each e l h o t).2 hok, (c123_each e l h o t').2 h2]
  exact ⟨h2, hp.map _⟩

theorem getEntries_first (x : KeyExt) (o : Obj) : ∀ (t : List Entry), (getEntries x o t).1 ≠ .ok →
    ∃ a en c, t = a ++ en :: c ∧ (∀ x' ∈ a, (getEntry x o x').1 = .ok) ∧
      (getEntries x o t).1 = (getEntry x o en).1 ∧
      (getEntries x o t).2 = a.map (fun en => (getEntry x o en).2) ++ (getEntry x o en).2 :: c
  | [], h => by simp [getEntries] at h
  | en :: t, h => by
    unfold getEntries at h ⊢
    dsimp only at h ⊢
    by_cases h1 : (getEntry x o en).1 = .ok
    · rw [if_pos h1] at h ⊢
      obtain ⟨a, en', c, rfl, ha, hr, hf⟩ := getEntries_first x o t h
      exact ⟨en :: a, en', c, rfl, by simp [h1]; exact ha, hr, by simp [hf]⟩
    · rw [if_neg h1] at h ⊢
      exact ⟨[], en, t, rfl, by simp, rfl, by simp⟩

/-- C123, the part that holds when an attribute is refused: either nothing is answered,
because some attribute is of an unknown type or its buffer has the wrong size, or the
attributes before the first one refused are answered as they would be alone, that one is
refused as it would be alone, and the rest is left as it was.  Missing: the rest, see
`c123_violated`. -/
theorem c123_refused_partial (e : Env) (l : Lib) (h o : Nat) (t : List Entry)
    (hno : askStatus e l h o t ≠ .ok) :
    filled e l h o t = t ∨
    ∃ a en c, t = a ++ en :: c ∧ (∀ x ∈ a, Had e l h o x) ∧
      askStatus e l h o [en] = askStatus e l h o t ∧
      filled e l h o t = a.map (alone e l h o) ++ alone e l h o en :: c := by
  unfold Had alone filled askStatus at *
  rcases read_cases e l h o with ⟨ob, hr⟩ | ⟨rv, hne, hr⟩
  · simp only [hr, Option.getD_some] at hno ⊢
    by_cases hc : checkAttributes false t = .ok
    · right
      have hg : getAttributeValue e.key ob t = getEntries e.key ob t := by
        unfold getAttributeValue; simp [hc]
      rw [hg] at hno ⊢
      obtain ⟨a, en, c, rfl, ha, hrv, hf⟩ := getEntries_first e.key ob t hno
      have hck := (checkAttributes_iff false _).1 hc
      refine ⟨a, en, c, rfl, fun x hx => ?_, ?_, ?_⟩
      · rw [getValue_one]; exact ⟨hck x (by simp [hx]), ha x hx⟩
      · rw [getValue_alone _ _ _ (hck en (by simp)), hrv]
      · rw [hf, getValue_alone _ _ _ (hck en (by simp))]
        congr 1
        refine List.map_congr_left fun x hx => ?_
        rw [getValue_alone _ _ _ (hck x (by simp [hx]))]
        rfl
    · left
      unfold getAttributeValue; simp [hc]
  · left; simp [hr]

namespace Demo

/-- A caller asks a key for an attribute it does not have, CKA_SUBJECT, and for its
class. -/
def subjectThenClass : List Entry :=
  [{ typ := .subject, mem := some (List.replicate 16 0), len := 16 },
   { typ := .cls, mem := some (List.replicate 8 0), len := 8 }]

/-- A key whose value cannot be read. -/
def closedKey : Lib := run env fresh (setup ++ [createCall 65538 (aesTmpl true 7)])

end Demo

/-- The code violates C123: a key is asked for CKA_SUBJECT, which it does not have, and
then for its class.  The first is refused; the class, which can be had, is not answered. -/
theorem c123_violated :
    askStatus Demo.env Demo.closedKey 65538 Demo.tok1 Demo.subjectThenClass ≠ .ok ∧
    Had Demo.env Demo.closedKey 65538 Demo.tok1 Demo.subjectThenClass[1] ∧
    (filled Demo.env Demo.closedKey 65538 Demo.tok1 Demo.subjectThenClass)[1]? =
      some Demo.subjectThenClass[1] ∧
    alone Demo.env Demo.closedKey 65538 Demo.tok1 Demo.subjectThenClass[1] ≠ Demo.subjectThenClass[1] := by
  unfold Had
  exact ⟨by decide +kernel, by decide +kernel, by decide +kernel, by decide +kernel⟩

/-- Non-vacuity of `c123_each` and `c123_order`: several attributes, answered. -/
example : askStatus Demo.env Demo.closedKey 65538 Demo.tok1
    [Demo.subjectThenClass[1], { typ := .label, mem := none, len := 0 }, { typ := .encrypt, mem := some [9], len := 1 }] = .ok := by
  decide +kernel

#print axioms c123_each
#print axioms c123_order
#print axioms c123_refused_partial
#print axioms c123_violated

end Verif
