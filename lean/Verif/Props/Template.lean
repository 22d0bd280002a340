import Verif.Spec.Template
import Verif.Props.InitParam
import Verif.Props.Objs
import Verif.Proofs.Disk
import Verif.Proofs.Isolated

/-!
# C104: templates that make no sense are refused
-/

namespace Verif

variable {e : Env}

theorem checkEntry_malformed {en : Entry} (h : Malformed en) : checkEntry true en ≠ .ok := by
  have kinds : ∀ a : CKA, (a ∈ unknownAttrs → a.kind = none) ∧ (a ∈ numberAttrs → a.kind = some .ulong) ∧
      (a ∈ boolAttrs → a.kind = some .bool) ∧ (a ∈ dateAttrs → a.kind = some .date) ∧
      (a ∉ unknownAttrs ++ numberAttrs ++ boolAttrs ++ dateAttrs → a.kind = some .data) := by
    intro a; cases a <;> decide
  obtain ⟨k1, k2, k3, k4, k5⟩ := kinds en.typ
  unfold checkEntry
  cases h with
  | unknown h => rw [k1 h]; simp
  | number h hv =>
    rw [k2 h]
    rcases hv with hv | hv
    · simp [hv]
    · cases hm : en.mem <;> simp [hv]
  | boolSize h hv =>
    rw [k3 h]
    rcases hv with hv | hv
    · simp [hv]
    · cases hm : en.mem <;> simp [hv]
  | boolValue h b hv h0 h1 =>
    rw [k3 h]
    dsimp only
    repeat' split
    all_goals first
      | (intro hx; cases hx; done)
      | (rename_i hx; simp [hv, h0, h1] at hx)
  | date h hv =>
    rw [k4 h]
    rcases hv with hv | hv
    · simp [hv]
    · cases hm : en.mem <;> simp [hv]
  | data h hv => rw [k5 h]; simp [hv]

theorem setAttributeValue_malformed {x : KeyExt} {b : Bool} {o : Obj} {t : List Entry} (h : ∃ en ∈ t, Malformed en) :
    (setAttributeValue x b o t).1 ≠ .ok ∧ (setAttributeValue x b o t).2 = o := by
  obtain ⟨en, hm, hb⟩ := h
  have hc : checkAttributes true t ≠ .ok := fun hc => checkEntry_malformed hb (checkAttributes_ok hc en hm)
  unfold setAttributeValue
  split
  · exact ⟨RV.noConfusion, rfl⟩
  · dsimp only
    rw [if_pos hc]
    exact ⟨hc, rfl⟩

theorem newObject_malformed {s : Session} {typ cls : Nat} {t : List Entry} (h : ∃ en ∈ t, Malformed en) :
    (newObject e s typ cls t).1 ≠ .ok := (setAttributeValue_malformed h).1

theorem createObject_malformed {s : Session} {t : List Entry} (h : ∃ en ∈ t, Malformed en) :
    (createObject e s t).1 ≠ .ok := by
  have tc : ∀ rv, templClass t = .error rv → rv ≠ .ok := by
    intro rv hx
    unfold templClass at hx
    repeat' split at hx
    all_goals cases hx
    all_goals exact RV.noConfusion
  have tu : ∀ a rv, templUlong t a = .error rv → rv ≠ .ok := by
    intro a rv hx
    unfold templUlong at hx
    repeat' split at hx
    all_goals cases hx
    all_goals exact RV.noConfusion
  unfold createObject
  repeat' split
  all_goals first
    | exact newObject_malformed h
    | exact tc _ (by assumption)
    | exact tu _ _ (by assumption)
    | exact RV.noConfusion

theorem putObj_self {l : Lib} (hu : UidOk l) (hn : (handles l.sessions).Nodup) {h k : Nat} {s : Session} {o : Obj}
    (hs : getSession l h = some s) (hf : findObj l s k = some o) : putObj l s k o = l := by
  obtain ⟨_, h1, h2⟩ := findObj_parts hf
  have hrep : ∀ os : List Obj, (os.map (·.uid)).Nodup → o ∈ os → replObj o os = os := by
    intro os hnd hm
    refine (List.map_congr_left ?_).trans (List.map_id _)
    intro p hp
    split
    · rename_i he; exact (uid_inj hnd hp hm he).symm
    · rfl
  unfold putObj
  split
  · rename_i ht
    rw [hrep _ hu.1 (h1 ht)]
  · rename_i ht
    have ho := h2 (by simpa using ht)
    have hsm := (getSession_handle hs).2.2
    unfold Lib.upd
    have : (l.sessions.map fun u => if u.handle = s.handle then { u with objs := replObj o u.objs } else u) = l.sessions := by
      refine (List.map_congr_left ?_).trans (List.map_id _)
      intro u hum
      split
      · rename_i he
        have : u = s := handle_inj hn hum hsm he
        subst this
        rw [hrep _ (hu.2 u hum) ho]
        rfl
      · rfl
    rw [this]

theorem misformed_sessCall {l : Lib} (hu : UidOk l) (hn : (handles l.sessions).Nodup) {h : Nat} {s : Session}
    (hs : getSession l h = some s) {c : SessCall} (hc : c.Misformed) :
    (sessCall e l s c).2.rv ≠ .ok ∧ ((∀ m k d t p, c ≠ .unwrap m k d t p) → (sessCall e l s c).1 = l) := by
  obtain ⟨t, ht, hb⟩ := hc
  unfold SessCall.templates at ht
  split at ht
  · rename_i t p
    cases List.mem_singleton.mp ht
    have := createObject_malformed (e := e) (s := s) hb
    simp only [sessCall, cCreate]
    split
    · exact ⟨RV.noConfusion, fun _ => rfl⟩
    split
    · exact ⟨RV.noConfusion, fun _ => rfl⟩
    rcases hx : createObject e s t with ⟨rv, o⟩
    rw [hx] at this
    cases rv <;> first | exact absurd rfl this | exact ⟨RV.noConfusion, fun _ => rfl⟩
  · rename_i k t
    cases List.mem_singleton.mp ht
    simp only [sessCall, cSetAttr]
    split
    · exact ⟨RV.noConfusion, fun _ => rfl⟩
    cases hf : findObj l s k with
    | none => exact ⟨RV.noConfusion, fun _ => rfl⟩
    | some o =>
      have := setAttributeValue_malformed (x := e.key) (b := true) (o := o) hb
      dsimp only
      rw [this.2]
      exact ⟨this.1, fun _ => putObj_self hu hn hs hf⟩
  · rename_i m t p
    cases List.mem_singleton.mp ht
    have := newObject_malformed (e := e) (s := s) (typ := CKK_AES) (cls := CKO_SECRET_KEY) hb
    simp only [sessCall, cGenKey]
    cases m with
    | none => exact ⟨RV.noConfusion, fun _ => rfl⟩
    | some m =>
      dsimp only
      split
      · exact ⟨RV.noConfusion, fun _ => rfl⟩
      split
      · exact ⟨RV.noConfusion, fun _ => rfl⟩
      split
      · exact ⟨RV.noConfusion, fun _ => rfl⟩
      rcases hx : newObject e s CKK_AES CKO_SECRET_KEY t with ⟨rv, o⟩
      rw [hx] at this
      cases rv <;> first | exact absurd rfl this | exact ⟨RV.noConfusion, fun _ => rfl⟩
  · rename_i m k d t p
    cases List.mem_singleton.mp ht
    refine ⟨?_, fun hx => absurd rfl (hx m k d (some t) p)⟩
    simp only [sessCall, cUnwrap]
    split
    · exact RV.noConfusion
    split
    · rename_i hx
      cases hx
      split
      · exact RV.noConfusion
      split
      · exact RV.noConfusion
      split
      · exact RV.noConfusion
      split
      · assumption
      split
      · exact RV.noConfusion
      split
      · assumption
      split
      · assumption
      · have := newObject_malformed (e := e) (s := s) (typ := CKK_RSA) (cls := CKO_PRIVATE_KEY) hb
        unfold addRsaPrivate
        rcases hx : newObject e s CKK_RSA CKO_PRIVATE_KEY t with ⟨rv, o⟩
        rw [hx] at this
        cases rv <;> first | exact absurd rfl this | exact RV.noConfusion
    · exact RV.noConfusion
  · rename_i m k t p
    cases List.mem_singleton.mp ht
    have := createObject_malformed (e := e) (s := s) hb
    simp only [sessCall, cDerive]
    cases m with
    | none => exact ⟨RV.noConfusion, fun _ => rfl⟩
    | some m =>
      dsimp only
      split
      · exact ⟨RV.noConfusion, fun _ => rfl⟩
      split
      · exact ⟨RV.noConfusion, fun _ => rfl⟩
      rename_i b _
      have hds : ∀ rv, deriveSecret e b m = .error rv → rv ≠ .ok := by
        intro rv hx
        unfold deriveSecret at hx
        repeat' split at hx
        all_goals cases hx
        all_goals exact RV.noConfusion
      split
      · exact ⟨hds _ (by assumption), fun _ => rfl⟩
      rcases hx : createObject e s t with ⟨rv, o⟩
      rw [hx] at this
      cases rv <;> first | exact absurd rfl this | exact ⟨RV.noConfusion, fun _ => rfl⟩
  · rename_i m tp tq p
    simp only [sessCall, cGenPair]
    cases m with
    | none => exact ⟨RV.noConfusion, fun _ => rfl⟩
    | some m =>
      dsimp only
      split
      · exact ⟨RV.noConfusion, fun _ => rfl⟩
      split
      · exact ⟨RV.noConfusion, fun _ => rfl⟩
      rename_i typ gen _
      split
      · exact ⟨RV.noConfusion, fun _ => rfl⟩
      rcases hx : newObject e s typ CKO_PUBLIC_KEY tp with ⟨rv, o⟩
      rcases List.mem_cons.mp ht with rfl | ht
      · have := newObject_malformed (e := e) (s := s) (typ := typ) (cls := CKO_PUBLIC_KEY) hb
        rw [hx] at this
        cases rv <;> first | exact absurd rfl this | exact ⟨RV.noConfusion, fun _ => rfl⟩
      · cases List.mem_singleton.mp ht
        have := newObject_malformed (e := e) (s := s) (typ := typ) (cls := CKO_PRIVATE_KEY) hb
        cases rv
        case ok =>
          dsimp only
          rcases hy : newObject e s typ CKO_PRIVATE_KEY t with ⟨rv, o⟩
          rw [hy] at this
          cases rv <;> first | exact absurd rfl this | exact ⟨RV.noConfusion, fun _ => rfl⟩
        all_goals exact ⟨RV.noConfusion, fun _ => rfl⟩
  · cases ht

/-- **C104**: a call that sets attributes is refused when an entry of its template makes no
sense, and changes nothing (`C_UnwrapKey`, which is refused too, replaces the operation of the session, C85). -/
theorem c104 (hh : HashLen e) (hr : RandLen e) {l₀ : Lib} (h₀ : Start l₀) (hd : NoToken l₀) (cs : List Call)
    (h : Nat) (c : SessCall) (hc : c.Misformed) :
    (answer e (run e l₀ cs) (.sess h c)).rv ≠ .ok ∧
    ((∀ m k d t p, c ≠ .unwrap m k d t p) → (answer e (run e l₀ cs) (.sess h c)).rv ≠ .ub →
      (step e (run e l₀ cs) (.sess h c)).1 = run e l₀ cs) := by
  have hi := h₀.sinv.run e cs
  have hcap := (Start.capInv h₀ hd).run hh hr h₀.sinv cs
  generalize run e l₀ cs = l at *
  unfold answer
  cases hb : l.bad with
  | true => rw [step_bad hb]; exact ⟨RV.noConfusion, fun _ _ => rfl⟩
  | false =>
    rw [step_resp hb]
    have key : (callBody e l (.sess h c)).2.rv ≠ .ok ∧
        ((∀ m k d t p, c ≠ .unwrap m k d t p) → (callBody e l (.sess h c)).1 = l) := by
      simp only [callBody]
      split
      · exact ⟨RV.noConfusion, fun _ => rfl⟩
      split
      · exact ⟨RV.noConfusion, fun _ => rfl⟩
      · exact misformed_sessCall hcap.pop.uidOk hi.nodup (by assumption) hc
    refine ⟨key.1, fun h1 h2 => ?_⟩
    rw [step_eq hb h2]
    exact key.2 h1

/-! ## A case -/

namespace Demo

/-- A key that may encrypt "twice". -/
def twiceTmpl : List Entry := aesTmpl false 7 ++ [.of .encrypt [2]]

theorem twice_malformed : (SessCall.create (some twiceTmpl) true).Misformed :=
  ⟨twiceTmpl, List.mem_singleton.mpr rfl, .of .encrypt [2], by decide, .boolValue (by decide) 2 rfl (by decide) (by decide)⟩

set_option maxRecDepth 20000 in
example : (answer env (run env fresh setup) (createCall 65538 twiceTmpl)).rv = .attributeValueInvalid ∧
    (answer env (run env fresh setup) (createCall 65538 (aesTmpl false 7 ++ [.of .encrypt [1, 0]]))).rv = .bufferTooSmall ∧
    (answer env (run env fresh setup) (createCall 65538 (aesTmpl false 7 ++ [.of .unknown [1]]))).rv = .attributeTypeInvalid ∧
    (answer env (run env fresh setup) (createCall 65538 (aesTmpl false 7 ++ [.of .encrypt [1]]))).rv = .ok :=
  ⟨by decide, by decide, by decide, by decide⟩

end Demo
end Verif
