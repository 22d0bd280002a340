import Verif.Spec.Copy
import Verif.Props.Pair
import Verif.Props.AttrData
import Verif.Props.History
import Verif.Props.Reload

/-!
# C94: copies of objects
-/

namespace Verif

variable {e : Env}

theorem setAttrs_eq {α : Type} {f : Obj → α} {a : CKA} {w : α} (t : List Entry)
    (hset : ∀ o, ∀ en ∈ t, en.typ = a → (setAttr o en).1 = .ok → f (setAttr o en).2 = w)
    (hkeep : ∀ o, ∀ en ∈ t, en.typ ≠ a → f (setAttr o en).2 = f o) :
    ∀ o, (setAttrs o t).1 = .ok → (NamesAttr t a ∨ f o = w) → f (setAttrs o t).2 = w := by
  induction t with
  | nil =>
    intro o _ h
    rcases h with ⟨en, hm, _⟩ | h
    · cases hm
    · exact h
  | cons en t ih =>
    intro o hok h
    obtain ⟨h1, h2⟩ := setAttrs_cons_ok o en t hok
    rw [h2] at hok ⊢
    refine ih (fun o en hm => hset o en (List.mem_cons_of_mem _ hm)) (fun o en hm => hkeep o en (List.mem_cons_of_mem _ hm))
      _ hok ?_
    by_cases ht : en.typ = a
    · exact .inr (hset o en (by simp) ht h1)
    · rcases h with ⟨en', hm, ht'⟩ | h
      · rcases List.mem_cons.mp hm with rfl | hm
        · exact absurd ht' ht
        · exact .inl ⟨en', hm, ht'⟩
      · exact .inr (by rw [hkeep o en (by simp) ht]; exact h)

/-- The entries that `C_GetAttributeValue` fills in. -/
theorem getEntries_all {x : KeyExt} {o : Obj} : ∀ {t : List Entry}, (getEntries x o t).1 = .ok →
    (getEntries x o t).2 = t.map (fun en => (getEntry x o en).2) ∧ ∀ en ∈ t, (getEntry x o en).1 = .ok
  | [], _ => ⟨rfl, fun _ h => by cases h⟩
  | en :: t, h => by
    unfold getEntries at h ⊢
    dsimp only at h ⊢
    by_cases h1 : (getEntry x o en).1 = .ok
    · rw [if_pos h1] at h ⊢
      obtain ⟨h2, h3⟩ := getEntries_all h
      refine ⟨by rw [List.map_cons, ← h2], fun en' hm => ?_⟩
      rcases List.mem_cons.mp hm with rfl | hm
      · exact h1
      · exact h3 en' hm
    · rw [if_neg h1] at h; exact absurd h h1

theorem getEntry_typ (x : KeyExt) (o : Obj) (en : Entry) : (getEntry x o en).2.typ = en.typ := by
  unfold getEntry
  dsimp only
  split <;> rfl

/-- What a successful reading of an attribute with the value `v` leaves in the entry. -/
theorem getEntry_data {x : KeyExt} {o : Obj} {en : Entry} {v : Bytes} (hg : getAttr x o en.typ = getData v)
    (hok : (getEntry x o en).1 = .ok) :
    (getEntry x o en).2.len = v.length ∧
      (((getEntry x o en).2.mem = none ∧ en.mem = none) ∨
        ((getEntry x o en).2.mem.isSome = true ∧ (getEntry x o en).2.val = v)) := by
  unfold getEntry at hok ⊢
  dsimp only at hok ⊢
  rw [hg] at hok ⊢
  unfold getData at hok ⊢
  cases hm : en.mem with
  | none => simp
  | some m =>
    rw [hm] at hok
    simp only [Option.isSome_some, Bool.not_true, Bool.false_eq_true, if_false] at hok ⊢
    by_cases hl : en.len < v.length
    · rw [if_pos hl] at hok; cases hok
    · rw [if_neg hl]; simp [Entry.val]

theorem checkEntry_bool {en : Entry} (h : checkEntry true en = .ok) (hk : en.typ.kind = some .bool ∨ en.typ.kind = some .ulong) :
    en.mem ≠ none := by
  intro hm
  unfold checkEntry at h
  rcases hk with hk | hk <;> rw [hk, hm] at h <;> cases h

theorem isTrue_opBool (w f : BitVec 32) : isTrue (opBool w f) = (w &&& f == f) := isTrue_cbool _

theorem opIdx_usage {a b : CKA} {i : Nat} (ha : opIdx a = some i) (hr : rdIdx a = some i) (hb : opIdx b = some i) :
    b = a ∨ (a = .wrap ∧ b = .unwrap) := by
  revert ha hr hb
  cases a <;> simp only [opIdx, rdIdx, reduceCtorEq, false_implies, Option.some.injEq] <;> intro h <;> subst h <;>
    cases b <;> simp

theorem setAttributeValue_mem {x : KeyExt} {o q : Obj} {t : List Entry} {ps : List CKA} (h : setAttributeValue x true o t = (.ok, q))
    (hp : keyParams o = some ps) {a : CKA} (ha : a ∈ ps) {en : Entry} (hen : keyAttr t a = some en) : en.mem.isSome = true := by
  unfold setAttributeValue at h
  dsimp only at h
  rw [if_neg (by simp), hp] at h
  split at h
  · rename_i hc; exact absurd (congrArg Prod.fst h) hc
  dsimp only at h
  split at h
  · cases h
  rename_i hn
  cases hm : en.mem with
  | some m => rfl
  | none =>
    exfalso
    apply hn
    rw [List.any_eq_true]
    exact ⟨a, ha, by rw [hen]; simp [hm]⟩

/-- The object that `C_CopyObject` makes. -/
theorem copied {x : KeyExt} {o q : Obj} {t t' : List Entry} (hg : getAttributeValue x o t = (.ok, t'))
    (hs : setAttributeValue x true (newObj 0 o.typ) t' = (.ok, q)) :
    q.typ = o.typ ∧ (∀ a, Carried t a → getAttr x q a = getAttr x o a) ∧
    ((o.typ = CKK_AES ∨ o.typ = CKK_GENERIC_SECRET) → o.cls ≠ CKO_CERTIFICATE → NamesAttr t .value →
      o.noPriv = false ∧ q.symm = o.symm) := by
  have hg' : (getEntries x o t) = (.ok, t') := by
    unfold getAttributeValue at hg
    dsimp only at hg
    split at hg
    · rename_i hc; exact absurd (congrArg Prod.fst hg) hc
    · exact hg
  obtain ⟨g1, g2⟩ := getEntries_all (x := x) (o := o) (t := t) (by rw [hg'])
  rw [hg'] at g1
  dsimp only at g1
  obtain ⟨-, s2, s3, s4⟩ := setAttributeValue_ok hs
  have hmem : ∀ en ∈ t', ∃ en₀ ∈ t, en = (getEntry x o en₀).2 ∧ en.typ = en₀.typ ∧ (getEntry x o en₀).1 = .ok := by
    intro en hm
    rw [g1] at hm
    obtain ⟨en₀, hm₀, rfl⟩ := List.mem_map.mp hm
    exact ⟨en₀, hm₀, rfl, getEntry_typ x o en₀, g2 en₀ hm₀⟩
  have hnames : ∀ a, NamesAttr t a → NamesAttr t' a := by
    rintro a ⟨en, hm, rfl⟩
    refine ⟨(getEntry x o en).2, ?_, getEntry_typ x o en⟩
    rw [g1]; exact List.mem_map.mpr ⟨en, hm, rfl⟩
  have hnames' : ∀ a, NamesAttr t' a → NamesAttr t a := by
    rintro a ⟨en, hm, rfl⟩
    obtain ⟨en₀, h1, _, h3, _⟩ := hmem en hm
    exact ⟨en₀, h1, h3.symm⟩
  obtain ⟨d, sz, hkey⟩ := setKey_frame x (newObj 0 o.typ) (keyVals t')
  have htyp : q.typ = o.typ := by
    have := (setAttrs_rest (setKey x (newObj 0 o.typ) (keyVals t')).2 t').typ
    rw [s4] at this
    rw [this, hkey]; rfl
  -- the value of an entry
  have hval : ∀ en ∈ t', ∀ v, getAttr x o en.typ = getData v →
      en.len = v.length ∧ (en.mem = none ∨ en.val = v) := by
    intro en hm v hv
    obtain ⟨en₀, h1, h2, h3, h4⟩ := hmem en hm
    rw [h3] at hv
    obtain ⟨k1, k2⟩ := getEntry_data hv h4
    rw [← h2] at k1 k2
    exact ⟨k1, k2.imp (·.1) (·.2)⟩
  have hok : (setAttrs (setKey x (newObj 0 o.typ) (keyVals t')).2 t').1 = .ok := by rw [s4]
  have last : ∀ {α : Type} (f : Obj → α) (a : CKA) (w : α), NamesAttr t a →
      (∀ o', ∀ en ∈ t', en.typ = a → (setAttr o' en).1 = .ok → f (setAttr o' en).2 = w) →
      (∀ o', ∀ en ∈ t', en.typ ≠ a → f (setAttr o' en).2 = f o') → f q = w := by
    intro α f a w hn h1 h2
    have := setAttrs_eq (f := f) (a := a) (w := w) t' h1 h2 _ hok (.inl (hnames a hn))
    rwa [s4] at this
  refine ⟨htyp, fun a ⟨hn, ha⟩ => ?_, fun hty hc hn => ?_⟩
  · -- one bit
    have bit : ∀ i, rdIdx a = some i → opIdx a = some i → a.kind = some .bool → (a = .wrap → ¬ NamesAttr t .unwrap) →
        getAttr x q a = getAttr x o a := by
      intro i hr hi hk hw
      have h32 := rdIdx_lt a i hr
      have h3 : q.opFlag.getLsbD i = o.opFlag.getLsbD i := by
        refine last (fun o => o.opFlag.getLsbD i) a _ hn ?_ ?_
        · intro o' en hm ht _
          have h4 := checkEntry_bool (checkAttributes_ok s2 en hm) (.inl (by rw [ht]; exact hk))
          obtain ⟨-, h5 | h5⟩ := hval en hm (cbool (o.opFlag.getLsbD i)) (by rw [ht]; exact getAttr_bit x o a i hr)
          · exact absurd h5 h4
          · show (setAttr o' en).2.opFlag.getLsbD i = _
            rw [setAttr_opBit o' en i h32, ht, if_pos hi, h5, isTrue_cbool]
        · intro o' en hm ht
          show (setAttr o' en).2.opFlag.getLsbD i = _
          rw [setAttr_opBit o' en i h32]
          refine if_neg fun h6 => ?_
          rcases opIdx_usage hi hr h6 with h7 | ⟨h7, h8⟩
          · exact ht h7
          · exact hw h7 (hnames' _ ⟨en, hm, h8⟩)
      rw [getAttr_bit x q a i hr, getAttr_bit x o a i hr, h3]
    rcases ha with ha | ⟨rfl, ha⟩
    · simp only [List.mem_cons, List.not_mem_nil, or_false] at ha
      rcases ha with rfl | rfl | rfl | rfl | rfl | rfl | rfl | rfl | rfl | rfl
      · have : q.cls = o.cls % 256 ^ 8 := by
          refine last (fun o => o.cls) .cls _ hn ?_ ?_
          · intro o' en hm ht hok'
            obtain ⟨-, h5 | h5⟩ := hval en hm (ulong o.cls) (by rw [ht]; rfl)
            · exact absurd h5 (checkEntry_bool (checkAttributes_ok s2 en hm) (.inr (by rw [ht]; rfl)))
            · unfold setAttr at hok' ⊢
              rw [ht, h5] at hok' ⊢
              dsimp only at hok' ⊢
              split at hok'
              · cases hok'
              · rename_i hr
                rw [if_neg hr]
                exact leNat_leBytes 8 _
          · intro o' en hm ht; exact setAttr_cls o' en ht
        funext b n
        show getData (ulong q.cls) b n = getData (ulong o.cls) b n
        rw [this]
        have h8 : ulong (o.cls % 256 ^ 8) = ulong o.cls := by
          have := leBytes_leNat (ulong o.cls)
          unfold ulong at this ⊢
          rw [leNat_leBytes, length_leBytes] at this
          exact this
        rw [h8]
      · have : q.label = o.label := by
          refine last (fun o => o.label) .label _ hn ?_ ?_
          · intro o' en hm ht hok'
            obtain ⟨h4, h5⟩ := hval en hm o.label (by rw [ht]; rfl)
            unfold setAttr at hok' ⊢
            rw [ht] at hok' ⊢
            dsimp only at hok' ⊢
            split at hok'
            · cases hok'
            · rename_i hr
              rw [if_neg hr]
              rcases h5 with h5 | h5
              · rw [h5, h4] at hr
                have h6 : o.label = [] := by
                  cases hl : o.label with
                  | nil => rfl
                  | cons b bs => rw [hl] at hr; simp at hr
                show en.val = _
                unfold Entry.val
                rw [h5, h6]; simp
              · exact h5
          · intro o' en hm ht; exact setAttr_label o' en ht
        funext b n
        show getData q.label b n = getData o.label b n
        rw [this]
      · have : q.keyId = o.keyId := by
          refine last (fun o => o.keyId) .id _ hn ?_ ?_
          · intro o' en hm ht hok'
            obtain ⟨h4, h5⟩ := hval en hm o.keyId (by rw [ht]; rfl)
            unfold setAttr at hok' ⊢
            rw [ht] at hok' ⊢
            dsimp only at hok' ⊢
            split at hok'
            · cases hok'
            · rename_i hr
              rw [if_neg hr]
              rcases h5 with h5 | h5
              · rw [h5, h4] at hr
                have h6 : o.keyId = [] := by
                  cases hl : o.keyId with
                  | nil => rfl
                  | cons b bs => rw [hl] at hr; simp at hr
                show en.val = _
                unfold Entry.val
                rw [h5, h6]; simp
              · exact h5
          · intro o' en hm ht; exact setAttr_id o' en ht
        funext b n
        show getData q.keyId b n = getData o.keyId b n
        rw [this]
      all_goals exact bit _ rfl rfl rfl (fun h => by cases h)
    · exact bit _ rfl rfl rfl (fun _ => ha)
  · have hps : keyParams (newObj 0 o.typ) = some [.valueLen, .value] := by
      unfold keyParams newObj
      rcases hty with h | h <;> rw [h] <;> rfl
    have hdata : q.data = (setSecretKey (newObj 0 o.typ) (keyVals t')).2.data ∧
        (setSecretKey (newObj 0 o.typ) (keyVals t')).1 = .ok := by
      have hk : setKey x (newObj 0 o.typ) (keyVals t') = setSecretKey (newObj 0 o.typ) (keyVals t') := by
        unfold setKey newObj
        rcases hty with h | h <;> rw [h] <;> rfl
      have := (setAttrs_rest (setKey x (newObj 0 o.typ) (keyVals t')).2 t').data
      rw [s4] at this
      rw [hk] at this s3
      exact ⟨this, s3⟩
    -- the first entry for the value
    obtain ⟨en, hen⟩ : ∃ en, keyAttr t' .value = some en := by
      obtain ⟨en, hm, ht⟩ := hnames _ hn
      unfold keyAttr
      cases hf : t'.find? (fun e => e.typ == .value) with
      | some en' => exact ⟨en', rfl⟩
      | none => have := List.find?_eq_none.mp hf en hm; simp [ht] at this
    have hmen : en ∈ t' := List.mem_of_find?_eq_some hen
    have htv : en.typ = .value := by simpa using List.find?_some hen
    have hsome := setAttributeValue_mem hs hps (by simp) hen
    have hkv : keyVals t' .value = some en.val := by unfold keyVals; rw [hen]; rfl
    obtain ⟨en₀, m1, m2, m3, m4⟩ := hmem en hmen
    rw [htv] at m3
    have hgv : ∀ b n, getAttr x o .value b n = secretGetAttr o .value b n := by
      intro b n
      show getKeyAttr x o .value b n = _
      unfold getKeyAttr
      rw [if_neg (fun h => hc h.1), misread_key hc]
      rcases hty with h | h <;> rw [h] <;> simp [CKK_AES, CKK_RSA, CKK_EC, CKK_DH, CKK_GENERIC_SECRET]
    have hmem₀ : en₀.mem.isSome = true := by
      rw [m2] at hsome
      unfold getEntry at hsome
      dsimp only at hsome
      cases hm0 : en₀.mem with
      | some m => rfl
      | none => rw [hm0] at hsome; split at hsome <;> cases hsome
    have hnp : o.noPriv = false := by
      cases hnp : o.noPriv with
      | false => rfl
      | true =>
        exfalso
        have hl : en.len = unavailableInfo := by
          rw [m2]
          unfold getEntry
          dsimp only
          rw [← m3, hgv]
          simp only [secretGetAttr, hnp, if_true, getNone]
        have := checkAttributes_ok s2 en hmen
        unfold checkEntry at this
        rw [htv, hl] at this
        cases this
    have hle : o.symm.length ≤ 512 := by
      rcases Nat.lt_or_ge 512 o.symm.length with h5 | h5
      · exfalso
        unfold getEntry at m4
        dsimp only at m4
        rw [← m3, hgv] at m4
        simp only [secretGetAttr, hnp, hmem₀, Bool.false_eq_true, if_false, Bool.and_true] at m4
        by_cases h6 : o.symm.length ≤ en₀.len
        · rw [if_pos (by simp [h6, maxSymKey]; exact h5)] at m4; cases m4
        · rw [if_neg (by simp [h6])] at m4
          unfold getData at m4
          rw [if_neg (by simp), if_pos (by omega)] at m4
          cases m4
      · exact h5
    have hv : en.val = o.symm := by
      have hgd : ∀ b n, secretGetAttr o .value b n = getData o.symm b n := by
        intro b n
        simp only [secretGetAttr, hnp, Bool.false_eq_true, if_false]
        rw [if_neg]
        have : ¬ o.symm.length > maxSymKey := by unfold maxSymKey; omega
        simp [this]
      have := (hval en hmen o.symm (by funext b n; rw [htv, hgv, hgd])).2
      rcases this with h | h
      · rw [h] at hsome; cases hsome
      · exact h
    refine ⟨hnp, ?_⟩
    obtain ⟨d1, d2⟩ := hdata
    unfold setSecretKey at d1 d2
    rw [hkv, hv] at d1 d2
    have hlen : ∀ n, secretLen (newObj 0 o.typ).typ (keyVals t' .valueLen) (some o.symm) = .ok n → n = o.symm.length := by
      intro n h
      unfold secretLen at h
      cases hvl : keyVals t' .valueLen with
      | none => rw [hvl] at h; simp at h; exact h.symm
      | some v =>
        rw [hvl] at h
        have hv8 : v = ulong o.symm.length := by
          unfold keyVals at hvl
          cases hf : keyAttr t' .valueLen with
          | none => rw [hf] at hvl; cases hvl
          | some en' =>
            rw [hf] at hvl
            have h1 : en'.val = v := by simpa using hvl
            have h2 := setAttributeValue_mem hs hps (by simp) hf
            have h3 : en'.typ = .valueLen := by simpa using List.find?_some hf
            have h4 := (hval en' (List.mem_of_find?_eq_some hf) (ulong o.symm.length) (by
              funext b n
              rw [h3]
              show getKeyAttr x o .valueLen b n = _
              unfold getKeyAttr
              rw [if_neg (fun h => hc h.1), misread_key hc]
              rcases hty with h | h <;> rw [h] <;>
                simp [CKK_AES, CKK_RSA, CKK_EC, CKK_DH, CKK_GENERIC_SECRET, secretGetAttr])).2
            rcases h4 with h4 | h4
            · rw [h4] at h2; cases h2
            · rw [← h1, h4]
        subst hv8
        dsimp only at h
        split at h
        · cases h
        split at h
        · cases h
        have h9 : leNat (ulong o.symm.length) % 2 ^ 32 = o.symm.length := by
          unfold ulong; rw [leNat_leBytes]; omega
        rw [h9] at h
        split at h
        · cases h; rfl
        · split at h
          · cases h
          · cases h; rfl
    cases hsl : secretLen (newObj 0 o.typ).typ (keyVals t' .valueLen) (some o.symm) with
    | error r =>
      rw [hsl] at d2
      dsimp only at d2
      exfalso
      unfold secretLen at hsl
      dsimp only at hsl
      repeat' split at hsl
      all_goals first
        | (rename_i h1; cases hsl; cases d2; done)
        | (cases hsl; done)
    | ok n =>
      rw [hsl, hlen n hsl] at d1
      dsimp only at d1
      unfold Obj.symm at d1 ⊢
      rw [d1]
      simp


/-- A successful `C_CopyObject`. -/
theorem copy_answer {l : Lib} {h k : Nat} {t : List Entry} (hok : (answer e l (copyCall h k t)).rv = .ok) :
    l.bad = false ∧ 0 < l.count ∧ ∃ s o on t' q l' k', getSession l h = some s ∧ findObj l s k = some o ∧
      tokenByte t 0 = .ok on ∧ getAttributeValue e.key o t = (.ok, t') ∧
      setAttributeValue e.key true (newObj 0 o.typ) t' = (.ok, q) ∧ sessAddObject e l s on q = (l', some k') ∧
      step e l (copyCall h k t) = (l', { rv := .ok, handle := some k', tmpl := some t' }) := by
  obtain ⟨hb, hpos, s, hs, hst⟩ := sess_step (c := .copy k (some t) true) hok
  refine ⟨hb, hpos, ?_⟩
  have hst : step e l (copyCall h k t) = cCopy e l s k (some t) true := hst
  unfold answer at hok
  rw [hst] at hok ⊢
  unfold cCopy at hok ⊢
  dsimp only at hok ⊢
  rw [if_neg (by simp)] at hok ⊢
  by_cases hrw : s.use ≠ .rw
  · rw [if_pos hrw] at hok; cases hok
  rw [if_neg hrw] at hok ⊢
  cases hf : findObj l s k with
  | none => rw [hf] at hok; cases hok
  | some o =>
    rw [hf] at hok
    dsimp only at hok ⊢
    cases hon : tokenByte t 0 with
    | error rv => rw [hon, tokenByte_error hon] at hok; cases hok
    | ok on =>
      rw [hon] at hok
      dsimp only at hok ⊢
      rcases hg : getAttributeValue e.key o t with ⟨rv, t'⟩
      rw [hg] at hok
      dsimp only at hok ⊢
      by_cases h1 : rv ≠ .ok
      · rw [if_pos h1] at hok; exact absurd hok h1
      rw [if_neg h1] at hok ⊢
      have h1 : rv = .ok := Classical.not_not.mp h1
      subst h1
      rcases hq : setAttributeValue e.key true (newObj 0 o.typ) t' with ⟨rv, q⟩
      rw [hq] at hok
      dsimp only at hok ⊢
      by_cases h2 : rv ≠ .ok
      · rw [if_pos h2] at hok; exact absurd hok h2
      rw [if_neg h2] at hok ⊢
      have h2 : rv = .ok := Classical.not_not.mp h2
      subst h2
      rcases ha : sessAddObject e l s on q with ⟨l', k'⟩
      rw [ha] at hok
      cases k' with
      | none => cases hok
      | some k' => exact ⟨s, o, on, t', q, l', k', hs, hf, rfl, hg, hq, ha, rfl⟩

theorem getAttributeValue_one {x : KeyExt} {o q : Obj} {a : CKA} (h : getAttr x q a = getAttr x o a) (mem : Option Bytes) (len : Nat) :
    getAttributeValue x q [{ typ := a, mem, len }] = getAttributeValue x o [{ typ := a, mem, len }] := by
  unfold getAttributeValue getEntries getEntry getEntries
  simp only [h]

/-- **C94** (partial). After a successful `C_CopyObject` the new handle, which named nothing
before, names an object; the original and every other object read as before; the copy has
the key type of the original, and for each of class, label, identifier and usages that the
template names it reads as the original does, whatever buffer is used.  If the original is
an AES or generic secret key and the template names `CKA_VALUE`, then the original is
neither sensitive nor unextractable and the copy's key is the original's key.
Missing: the attributes that the template does not name are not copied, and its values
are not used but overwritten; see `c94_violated`. -/
theorem c94_partial (hh : HashLen e) (hr : RandLen e) {l₀ : Lib} (h₀ : Start l₀) (hd : NoToken l₀) (cs : List Call)
    (h k : Nat) (t : List Entry) (hb : BoolToken (cs ++ [copyCall h k t])) (hn : 2 * (cs.length + 1) < 2 ^ 28)
    (hok : (answer e (run e l₀ cs) (copyCall h k t)).rv = .ok) :
    ∃ k', (answer e (run e l₀ cs) (copyCall h k t)).handle = some k' ∧
      ¬ Names e (run e l₀ cs) h k' ∧ Names e (run e l₀ (cs ++ [copyCall h k t])) h k' ∧
      (∀ h₁ k₁ t₁, Names e (run e l₀ cs) h₁ k₁ → answer e (run e l₀ (cs ++ [copyCall h k t])) (readCall h₁ k₁ t₁) =
        answer e (run e l₀ cs) (readCall h₁ k₁ t₁)) ∧
      (∀ a, a = .keyType ∨ Carried t a → SameRead e (run e l₀ cs) h k (run e l₀ (cs ++ [copyCall h k t])) k' a) ∧
      ∃ o q, Addressed (run e l₀ cs) h k o ∧ Addressed (run e l₀ (cs ++ [copyCall h k t])) h k' q ∧
        ((o.typ = CKK_AES ∨ o.typ = CKK_GENERIC_SECRET) → o.cls ≠ CKO_CERTIFICATE → NamesAttr t .value →
          o.noPriv = false ∧ q.symm = o.symm) := by
  have hb1 : BoolToken cs := fun d hd => hb d (List.mem_append_left _ hd)
  obtain ⟨hi, hc, hx⟩ := reach_inv hh hr h₀ hd cs hb1 (by omega)
  rw [run_append] at *
  generalize run e l₀ cs = l at *
  obtain ⟨hbad, hpos, s, o, on, t', q, l', k', hs, hf, hon, hg, hq, ha, hst⟩ := copy_answer hok
  have hrun : run e l [copyCall h k t] = l' := by
    show (step e l (copyCall h k t)).1 = l'
    rw [hst]
  rw [hrun]
  unfold HandleInv at hx
  rw [if_pos hpos] at hx
  obtain ⟨hh', _, hmem⟩ := getSession_handle hs
  have hon1 : on ≤ 1 := boolToken_tokOk hb t (by simp [SessCall.creates]) on hon
  obtain ⟨q1, q2, q3, q4⟩ := look_add ha hx (by omega) hon1 hs hmem hh' rfl
  obtain ⟨⟨b1, b2, _⟩, _⟩ := sessAdd_some ha
  obtain ⟨c1, c2, c3⟩ := copied hg hq
  have hlook : look l h k = some (some o.view) := by unfold look; rw [hs, Option.map_some, hf]; rfl
  refine ⟨k', by unfold answer; rw [hst], ?_, ?_, ?_, ?_, ?_⟩
  · rw [names_iff]
    rintro ⟨_, _, o', h1⟩
    rw [q1] at h1; cases h1
  · rw [names_iff, b1, b2]
    exact ⟨hbad, hpos, _, q2⟩
  · intro h₁ k₁ t₁ hn₁
    obtain ⟨_, _, o₁, hl₁⟩ := names_iff.mp hn₁
    unfold readCall
    rw [getAttr_answer, getAttr_answer, b1, b2, q4 _ _ _ hl₁, hl₁]
  · intro a haa mem len
    have : getAttr e.key (q.added l.uid on k').view a = getAttr e.key o.view a := by
      funext b n
      rw [view_getAttr, view_getAttr]
      rcases haa with rfl | haa
      · show getData (ulong q.typ) b n = getData (ulong o.typ) b n
        rw [c1]
      · rw [← c2 a haa]
        obtain ⟨_, hm | ⟨rfl, _⟩⟩ := haa
        · simp only [List.mem_cons, List.not_mem_nil, or_false] at hm
          rcases hm with rfl | rfl | rfl | rfl | rfl | rfl | rfl | rfl | rfl | rfl <;> rfl
        · rfl
    unfold readCall
    rw [getAttr_answer, getAttr_answer, b1, b2, q2, hlook]
    dsimp only
    rw [getAttributeValue_one this]
  · obtain ⟨o', ho', hv'⟩ := look_addressed q2
    refine ⟨o, o', findObj_addressed hs hf, ho', fun h1 h2 h3 => ?_⟩
    obtain ⟨h4, h5⟩ := c3 h1 h2 h3
    refine ⟨h4, ?_⟩
    have : o'.data = q.data := by
      have := congrArg Obj.data hv'
      exact this
    rw [← h5]
    unfold Obj.symm
    rw [this]

namespace Demo

/-- An extractable AES key with a label that may encrypt. -/
def labelled : List Call := setup ++ [createCall 65538 (openTmpl true 7 ++ [.of .label [1, 2], .of .encrypt [1]])]

/-- A template with buffers for class, value, label and a usage. -/
def copyTmpl : List Entry :=
  [.of .cls (ulong 0), .of .value (List.replicate 16 0), .of .label [0, 0], .of .encrypt [0]]

end Demo

set_option maxRecDepth 20000 in
/-- `c94_partial` applies: a key on the token is copied into the session; the copy has class,
value, label and usage of the original, although the template has other values. -/
example : (answer Demo.env (run Demo.env Demo.fresh Demo.labelled) (copyCall 65538 Demo.tok1 Demo.copyTmpl)).rv = .ok ∧
    (answer Demo.env (run Demo.env Demo.fresh Demo.labelled) (copyCall 65538 Demo.tok1 Demo.copyTmpl)).handle = some 1 ∧
    BoolToken (Demo.labelled ++ [copyCall 65538 Demo.tok1 Demo.copyTmpl]) ∧
    ((answer Demo.env (run Demo.env Demo.fresh (Demo.labelled ++ [copyCall 65538 Demo.tok1 Demo.copyTmpl]))
      (readCall 65538 1 [.of .label [0, 0]])).tmpl.map fun t => t.map Entry.val) = some [[1, 2]] := by
  unfold BoolToken; decide

set_option maxRecDepth 20000 in
/-- **C94 is violated**: a copy with a new label.  The call succeeds, but the copy does not
have the label asked for; the caller's template is overwritten with the old label; and the
copy is empty: its class is 0 and it has no key, so that it cannot be used. -/
theorem c94_violated :
    let l := run Demo.env Demo.fresh Demo.labelled
    let c := copyCall 65538 Demo.tok1 [.of .label [9, 9]]
    let l' := run Demo.env Demo.fresh (Demo.labelled ++ [c])
    (answer Demo.env l c).rv = .ok ∧ (answer Demo.env l c).handle = some 1 ∧
    ((answer Demo.env l c).tmpl.map fun t => t.map Entry.val) = some [[1, 2]] ∧
    ((answer Demo.env l' (readCall 65538 1 [.of .label [0, 0], .of .cls (ulong 7), .of .valueLen (ulong 7)])).tmpl.map fun t =>
      t.map Entry.val) = some [[1, 2], ulong 0, ulong 0] ∧
    ((answer Demo.env l' (readCall 65538 Demo.tok1 [.of .cls (ulong 7), .of .valueLen (ulong 7)])).tmpl.map fun t =>
      t.map Entry.val) = some [ulong CKO_SECRET_KEY, ulong 16] := by decide

set_option maxRecDepth 20000 in
/-- **C94 is violated** for certificates: the copy is made as a key, and setting its class
then has the key read as a certificate. -/
theorem c94_violated_certificate :
    (answer Demo.env (run Demo.env Demo.fresh (Demo.setup ++ [createCall 65538 (Demo.certTmpl [1, 2, 3])]))
      (copyCall 65538 Demo.tok1 [.of .cls (ulong 0)])).rv = .ub := by decide

end Verif
