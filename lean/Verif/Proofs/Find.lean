import Verif.Spec.Find
import Verif.Proofs.Dates
import Verif.Proofs.Attr
import Verif.Proofs.SessProj
/-!
# Searching: comparing an attribute is reading it
-/
namespace Verif

/-- How reading an attribute depends on the buffer: once it works, it gives the whole
value, and the same with any larger buffer. -/
def Stable (f : Bool → Nat → GRet) : Prop :=
  ∀ n, (f true n).ret = .ok → (f true n).len = unavailableInfo ∨
    ((f true n).wr.length = (f true n).len ∧ ∀ m, (f true n).len ≤ m → f true m = f true n)

theorem GShape.stable {f : Bool → Nat → GRet} (h : GShape f) : Stable f := by
  intro n hok
  cases h with
  | data v =>
    right
    unfold getData at *
    simp only [Bool.not_true, Bool.false_eq_true, if_false] at *
    split at hok
    · cases hok
    · rename_i hn
      rw [if_neg hn]
      refine ⟨rfl, ?_⟩
      intro m hm
      dsimp only at hm
      rw [if_neg (by omega)]
  | none => exact .inl rfl
  | notAvail => cases hok
  | empty => exact .inr ⟨rfl, fun _ _ => rfl⟩
  | ub => cases hok

theorem ecPoint_stable {x : KeyExt} (hx : x.Lawful) (k : EcKey) : Stable (getEcPoint x k) := by
  intro n hok
  unfold getEcPoint at *
  cases hd : k.dp with
  | none => rw [hd] at hok; cases hok
  | some c =>
    rw [hd] at hok
    dsimp only at *
    simp only [Bool.not_true, Bool.false_eq_true, if_false] at *
    split at hok
    · cases hok
    rename_i hn
    cases he : x.exportX963 k with
    | none => rw [he] at hok; cases hok
    | some p =>
      right
      have hp := hx.export_len k c p hd he
      simp only [if_neg hn]
      refine ⟨by rw [List.length_append, hp], ?_⟩
      intro m hm
      rw [if_neg (by omega)]

theorem secret_stable (o : Obj) (a : CKA) (h : 512 < o.symm.length) (ha : a = .value) : Stable (secretGetAttr o a) := by
  subst ha
  intro n hok
  unfold secretGetAttr at *
  dsimp only at *
  split at hok
  · rename_i hp; rw [if_pos hp]; exact .inl rfl
  · split at hok
    · cases hok
    · rename_i hp hq
      unfold getData at hok
      simp only [Bool.not_true, Bool.false_eq_true, if_false] at hok
      split at hok
      · cases hok
      · rename_i hl
        exact absurd (by simp [maxSymKey]; omega) hq

theorem getAttr_stable {x : KeyExt} (hx : x.Lawful) (o : Obj) (a : CKA) : Stable (getAttr x o a) := by
  by_cases h1 : a = .ecPoint ∧ o.typ = CKK_EC
  · obtain ⟨rfl, ht⟩ := h1
    have : getAttr x o .ecPoint = fun buf len => if o.ec.typ == .privOnly then getNone else getEcPoint x o.ec buf len := by
      funext buf len
      show getKeyAttr x o .ecPoint buf len = _
      unfold getKeyAttr
      rw [if_neg (by simp), if_neg (by simp [misread]), if_neg (by rw [ht]; decide), if_pos ht]
      rfl
    rw [this]
    by_cases hp : (o.ec.typ == .privOnly) = true
    · simp only [if_pos hp]; exact fun n _ => .inl rfl
    · simp only [if_neg hp]; exact ecPoint_stable hx _
  by_cases h2 : a = .value ∧ 512 < o.symm.length
  · obtain ⟨rfl, hl⟩ := h2
    have : getAttr x o .value = getKeyAttr x o .value := rfl
    rw [this]
    unfold getKeyAttr
    have hs : ∃ k, o.data = .symm k := by
      unfold Obj.symm at hl
      split at hl
      · exact ⟨_, by assumption⟩
      · simp at hl
    by_cases c1 : o.cls = CKO_CERTIFICATE
    · simp only [and_true, if_pos c1]; exact GShape.stable (.data _)
    simp only [and_true, if_neg c1, misread_key c1, Bool.false_eq_true, if_false]
    by_cases c2 : o.typ = CKK_RSA
    · simp only [if_pos c2]; exact (rsa_shape o _).stable
    simp only [if_neg c2]
    by_cases c3 : o.typ = CKK_EC
    · simp only [if_pos c3]; exact (ec_shape x o .value (by decide)).stable
    simp only [if_neg c3]
    by_cases c4 : o.typ = CKK_DH
    · simp only [if_pos c4]; exact (dh_shape o _).stable
    simp only [if_neg c4]
    by_cases c5 : o.typ = CKK_AES ∨ o.typ = CKK_GENERIC_SECRET
    · simp only [if_pos c5]; exact secret_stable o _ hl rfl
    · simp only [if_neg c5]; exact GShape.stable .notAvail
  · refine (getAttr_shape x o a ?_ ?_).stable
    · intro h3 h4; exact h1 ⟨h3, h4⟩
    · intro h3; exact Nat.le_of_not_lt fun h4 => h2 ⟨h3, h4⟩

theorem getData_len {d : Bytes} {n : Nat} (h : (getData d true n).ret = .ok) : (getData d true n).len = d.length := by
  unfold getData at *
  simp only [Bool.not_true, Bool.false_eq_true, if_false] at *
  split at h
  · cases h
  · rename_i hn; rw [if_neg hn]

theorem ulong_length (n : Nat) : (ulong n).length = 8 := by simp [ulong, leBytes]

/-- Attributes a key object of no type has. -/
theorem getKeyAttr_none {x : KeyExt} {o : Obj} {a : CKA} {b : Bool} {n : Nat}
    (h1 : rsaGetAttr o a b n = getNotAvail n) (h2 : ecGetAttr x o a b n = getNotAvail n)
    (h3 : dhGetAttr o a b n = getNotAvail n) (h4 : secretGetAttr o a b n = getNotAvail n) (ha : a ≠ .value)
    (hm : misread o a = false) : getKeyAttr x o a b n = getNotAvail n := by
  unfold getKeyAttr
  rw [if_neg (fun h => ha h.2), if_neg (by rw [hm]; decide), h1, h2, h3, h4]
  repeat' split
  all_goals rfl

/-- The values of booleans, numbers and dates have the size the caller must offer, or
less in the case of dates; an unrecognised attribute is never available. -/
theorem getAttr_size {x : KeyExt} {o : Obj} (hd : DatesOk o) {a : CKA} {n : Nat}
    (hok : (getAttr x o a true n).ret = .ok) :
    match a.kind with
    | some .bool => (getAttr x o a true n).len = 1
    | some .ulong => (getAttr x o a true n).len = 8
    | some .date => (getAttr x o a true n).len ≤ 8
    | some .data => True
    | none => False := by
  have none : ∀ a, a ≠ .value → rsaGetAttr o a true n = getNotAvail n → ecGetAttr x o a true n = getNotAvail n →
      dhGetAttr o a true n = getNotAvail n → secretGetAttr o a true n = getNotAvail n → misread o a = false →
      ¬ (getKeyAttr x o a true n).ret = .ok := by
    intro a ha h1 h2 h3 h4 hm h
    rw [getKeyAttr_none h1 h2 h3 h4 ha hm] at h
    cases h
  cases a <;> first
    | trivial
    | exact (getData_len hok).trans rfl
    | exact (getData_len hok).trans (ulong_length _)
    | cases hok
    | (refine absurd hok (none _ (by decide) rfl rfl rfl rfl ?_); simp [misread]; done)
    | skip
  case modulusBits =>
    show (getKeyAttr x o .modulusBits true n).len = 8
    have hok : (getKeyAttr x o .modulusBits true n).ret = .ok := hok
    unfold getKeyAttr at *
    rw [if_neg (by simp)] at *
    split at hok
    · cases hok
    rename_i hm
    rw [if_neg hm]
    split at hok
    · rename_i h; rw [if_pos h]; exact (getData_len hok).trans (ulong_length _)
    · repeat' split at hok
      all_goals cases hok
  case valueLen =>
    show (getKeyAttr x o .valueLen true n).len = 8
    have hok : (getKeyAttr x o .valueLen true n).ret = .ok := hok
    unfold getKeyAttr at *
    rw [if_neg (by simp)] at *
    split at hok
    · cases hok
    split at hok
    · cases hok
    split at hok
    · cases hok
    split at hok
    · cases hok
    split at hok
    · rename_i h0 h1 h2 h3 h4
      rw [if_neg h0, if_neg h1, if_neg h2, if_neg h3, if_pos h4]
      exact (getData_len hok).trans (ulong_length _)
    · cases hok
  case startDate =>
    show (getAttr x o .startDate true n).len ≤ 8
    unfold getAttr at *
    dsimp only at *
    split
    · exact Nat.zero_le _
    · rename_i h
      rw [if_neg h] at hok
      rw [getData_len hok]; exact hd.1
  case endDate =>
    show (getAttr x o .endDate true n).len ≤ 8
    unfold getAttr at *
    dsimp only at *
    split
    · exact Nat.zero_le _
    · rename_i h
      rw [if_neg h] at hok
      rw [getData_len hok]; exact hd.2

theorem getEntries_one (x : KeyExt) (o : Obj) (en : Entry) :
    getEntries x o [en] = ((getEntry x o en).1, [(getEntry x o en).2]) := by
  simp only [getEntries]
  split
  · rename_i h; rw [h]
  · rfl

theorem getEntry_ok {x : KeyExt} {o : Obj} {en : Entry} (h : (getEntry x o en).1 = .ok) :
    (getAttr x o en.typ en.mem.isSome en.len).ret = .ok ∧
    (getEntry x o en).2 = { en with mem := en.mem.map (fun m => (getAttr x o en.typ en.mem.isSome en.len).wr ++
      m.drop (getAttr x o en.typ en.mem.isSome en.len).wr.length), len := (getAttr x o en.typ en.mem.isSome en.len).len } := by
  unfold getEntry at *
  dsimp only at *
  split at h
  all_goals first | cases h | skip
  rename_i hk
  exact ⟨hk, rfl⟩

/-- Comparing finds the value exactly when reading gives it. -/
theorem matchAttr_reads {x : KeyExt} (hx : x.Lawful) {o : Obj} (hd : DatesOk o) {a : CKA} {v : Bytes}
    (hv : v.length ≠ unavailableInfo) {b : Bool} (h : matchAttr x o (Entry.of a v) = some b) :
    b = true ↔ Reads x o a v := by
  have hs := getAttr_stable hx o a
  have hval : (Entry.of a v).val = v := by simp [Entry.of, Entry.val]
  unfold matchAttr at h
  rw [hval] at h
  simp only [Entry.of, if_neg hv, Option.isNone_some, Bool.false_and, Bool.false_eq_true, if_false] at h
  constructor
  · rintro rfl
    split at h
    · cases h
    split at h
    · cases h
    rename_i hok
    have hok : (getAttr x o a true v.length).ret = .ok ∧ (getAttr x o a true v.length).len = v.length := by
      simpa [not_or] using hok
    have hw : (getAttr x o a true v.length).wr = v := by simpa using h
    obtain ⟨h1, h2⟩ := (hs _ hok.1).resolve_left (by rw [hok.2]; exact hv)
    have hsz := getAttr_size hd hok.1
    rw [hok.2] at h2 hsz
    obtain ⟨m, hm, hc⟩ : ∃ m, v.length ≤ m ∧ checkAttributes false
        [{ typ := a, mem := some (List.replicate m 0), len := m }] = .ok := by
      split at hsz <;> rename_i hk
      · exact ⟨1, by omega, by simp [checkAttributes, checkEntry, hk]⟩
      · exact ⟨8, by omega, by simp [checkAttributes, checkEntry, hk]⟩
      · exact ⟨8, hsz, by simp [checkAttributes, checkEntry, hk]⟩
      · exact ⟨v.length, Nat.le_refl _, by simp [checkAttributes, checkEntry, hk]⟩
      · exact hsz.elim
    refine ⟨m, (List.replicate m 0).drop v.length, ?_⟩
    unfold getAttributeValue
    simp only [hc, ne_eq, not_true_eq_false, if_false, getEntries, getEntry, Option.isSome_some, h2 m hm, hok.1, hok.2, hw, Option.map_some,
      if_true]
  · rintro ⟨n, rest, hr⟩
    unfold getAttributeValue at hr
    dsimp only at hr
    split at hr
    · rename_i hc
      exact absurd (congrArg Prod.fst hr) hc
    rw [getEntries_one] at hr
    obtain ⟨hr1, hr⟩ := Prod.mk.inj hr
    have hok := getEntry_ok hr1
    simp only [hok.2, List.cons.injEq, Entry.mk.injEq, Option.some.injEq, and_true, true_and, Option.map_some] at hr
    have hok := hok.1
    simp only [Option.isSome_some] at hok hr
    obtain ⟨hm, hl⟩ := hr
    obtain ⟨h1, h2⟩ := (hs _ hok).resolve_left (by rw [hl]; exact hv)
    have hw : (getAttr x o a true n).wr = v := by
      have := congrArg (List.take v.length) hm
      rwa [List.take_left, List.take_append_of_le_length (by omega), List.take_of_length_le (by omega)] at this
    rw [h2 v.length (by omega)] at h
    rw [hok, hl, hw] at h
    simp at h
    exact h

/-- All attributes match exactly when all are read so. -/
theorem matchAll_reads {x : KeyExt} (hx : x.Lawful) {o : Obj} (hd : DatesOk o) {w : Wanted}
    (hw : ∀ p ∈ w, p.2.length ≠ unavailableInfo) {b : Bool} (h : matchAll x o w.tmpl = some b) :
    b = true ↔ Matching x o w := by
  induction w with
  | nil => cases h; simp [Matching]
  | cons p w ih =>
    simp only [Wanted.tmpl, List.map_cons, matchAll] at h
    have hm : ∀ c, matchAttr x o (Entry.of p.1 p.2) = some c → (c = true ↔ Reads x o p.1 p.2) :=
      fun c hc => matchAttr_reads hx hd (hw p List.mem_cons_self) hc
    cases hc : matchAttr x o (Entry.of p.1 p.2) with
    | none => rw [hc] at h; cases h
    | some c =>
      rw [hc] at h
      have hmc := hm c hc
      cases c with
      | false =>
        cases h
        simp only [Bool.false_eq_true, false_iff]
        exact fun hall => by have := hmc.mpr (hall p List.mem_cons_self); cases this
      | true =>
        have := ih (fun q hq => hw q (List.mem_cons_of_mem _ hq)) h
        rw [this]
        constructor
        · intro h1 q hq
          rcases List.mem_cons.mp hq with rfl | hq
          · exact hmc.mp rfl
          · exact h1 q hq
        · intro h1 q hq; exact h1 q (List.mem_cons_of_mem _ hq)

theorem hidden_iff (login : Login) (o : Obj) : hidden login o = false ↔ Shown login o := by
  have h : (o.opFlag ||| FLAG_PRIVATE = FLAG_PRIVATE) ↔ (o.opFlag = 0 ∨ o.opFlag = 1) := by
    show (o.opFlag ||| 1#32 = 1#32) ↔ (o.opFlag = 0#32 ∨ o.opFlag = 1#32)
    generalize o.opFlag = w
    constructor
    · intro h
      have h1 : w.toNat ||| 1 = 1 := by
        have := congrArg BitVec.toNat h
        rwa [BitVec.toNat_or] at this
      have h2 : w.toNat ≤ 1 := by
        have := Nat.left_le_or (n := w.toNat) (m := 1)
        omega
      rcases Nat.le_one_iff_eq_zero_or_eq_one.mp h2 with h3 | h3
      · exact .inl (BitVec.eq_of_toNat_eq h3)
      · exact .inr (BitVec.eq_of_toNat_eq h3)
    · rintro (rfl | rfl) <;> rfl
  unfold hidden Shown
  rw [Bool.or_eq_false_iff, Bool.and_eq_false_iff, decide_eq_false_iff_not, h]
  simp only [beq_eq_false_iff_ne, not_or]
  constructor
  · rintro ⟨h1, h2⟩
    exact ⟨h1, fun h3 => h2.resolve_right fun h4 => h4 h3⟩
  · rintro ⟨h1, h2⟩
    refine ⟨h1, ?_⟩
    by_cases h3 : login = .pub
    · exact .inl (h2 h3)
    · exact .inr h3

open Classical in
/-- The loop of the search. -/
theorem findLoop_spec {x : KeyExt} (hx : x.Lawful) {login : Login} {w : Wanted}
    (hw : ∀ p ∈ w, p.2.length ≠ unavailableInfo) {os : List Obj} (hd : ∀ o ∈ os, DatesOk o) {acc f : List Nat}
    (ha : acc.length ≤ 10) (h : findLoop x login w.tmpl os acc = some f) :
    f = (acc ++ (os.filter fun o => decide (Shown login o ∧ Matching x o w)).map (·.handle)).take 10 := by
  induction os generalizing acc with
  | nil =>
    cases h
    simp only [List.filter_nil, List.map_nil, List.append_nil]
    exact (List.take_of_length_le ha).symm
  | cons o os ih =>
    have hd' : ∀ o ∈ os, DatesOk o := fun p hp => hd p (List.mem_cons_of_mem _ hp)
    have hsh := hidden_iff login o
    have skip : ¬ (Shown login o ∧ Matching x o w) → findLoop x login w.tmpl os acc = some f →
        f = (acc ++ ((o :: os).filter fun o => decide (Shown login o ∧ Matching x o w)).map (·.handle)).take 10 := by
      intro hn hl
      rw [List.filter_cons_of_neg (by simpa using hn)]
      exact ih hd' ha hl
    unfold findLoop at h
    split at h
    · rename_i hh
      exact skip (fun hs => by rw [hsh.mpr hs.1] at hh; cases hh) h
    · rename_i hh
      have hs : Shown login o := hsh.mp (by simpa using hh)
      split at h
      · cases h
      · rename_i hm
        exact skip (fun hs => by have := (matchAll_reads hx (hd o List.mem_cons_self) hw hm).mpr hs.2; cases this) h
      · rename_i hm
        have hM := (matchAll_reads hx (hd o List.mem_cons_self) hw hm).mp rfl
        rw [List.filter_cons_of_pos (by simpa using ⟨hs, hM⟩)]
        split at h
        · rename_i hf
          have hff : acc.length = 10 := hf
          rw [← Option.some.inj h]
          rw [List.take_append_of_le_length (by omega), List.take_of_length_le (by omega)]
        · rename_i hf
          have hlt : acc.length < 10 := by
            have : acc.length ≠ 10 := hf
            omega
          have := ih hd' (acc := acc ++ [o.handle]) (by simp; omega) h
          rw [this, List.map_cons, List.append_assoc]
          rfl

end Verif
