import Verif.Proofs.Blind
import Verif.Proofs.Frame
import Verif.Props.KeyKept
import Verif.Props.Lasting

/-!
# After the user logs out
-/

namespace Verif

variable {e : Env}

theorem count_step {l : Lib} (hc : 0 < l.count) {c : Call} (hf : c ≠ .cFinal) : 0 < (step e l c).1.count := by
  cases hb : l.bad with
  | true => rw [step_bad hb]; exact hc
  | false =>
    rw [(step_sessions hb c).2.1]
    cases c with
    | cInit =>
      have h0 : l.count ≠ 0 := by omega
      simp only [callBody, cInitialize, if_neg h0]
      omega
    | cFinal => exact absurd rfl hf
    | slot id c =>
      simp only [callBody]
      split
      · exact hc
      split
      · exact hc
      cases c with
      | tokenInfo ptr now => dsimp only [slotCall]; split <;> exact hc
      | initToken pin label =>
        dsimp only [slotCall, initToken]
        repeat' split
        all_goals exact hc
      | openSession rw' serial ptr =>
        dsimp only [slotCall, openSession]
        repeat' split
        all_goals exact hc
      | closeAll => exact hc
    | sess h c =>
      simp only [callBody]
      split
      · exact hc
      cases getSession l h with
      | none => exact hc
      | some s =>
        dsimp only
        by_cases hcl : c = .close
        · subst hcl
          simp only [sessCall, closeSession]
          split <;> exact hc
        · rw [(frame_sessCall e l s c hcl).count]
          exact hc

/-- Two libraries that differ only in the encrypted forms of keys answer alike. -/
theorem replies_blind {l m : Lib} (h : l.blind = m.blind) (hc : 0 < l.count) {ds : List Call} (hn : NoEntry e l ds) :
    replies e l ds = replies e m ds := by
  induction ds generalizing l m with
  | nil => rfl
  | cons c ds ih =>
    obtain ⟨h1, h2, h3⟩ := hn
    obtain ⟨g1, g2⟩ := step_blind_eq h hc c h1 h2
    unfold replies
    rw [show answer e l c = answer e m c from g2, ih g1 (count_step hc h1) h3]

theorem keepable_seal {x : StoreExt} {o : Obj} (h : o.Keepable x) (hn : o.cls ≠ CKO_CERTIFICATE) (k : Bytes) :
    ∃ c, o.sealUnder x k = o.kd (some c) := by
  rcases h with h | ⟨_, h⟩
  · exact absurd h hn
  · obtain ⟨b, hb⟩ := Option.isSome_iff_exists.mp h
    refine ⟨if o.isSecret then x.aeadEnc k o.iv b else b, ?_⟩
    unfold Obj.sealUnder Obj.sealedKey
    rw [if_neg hn, hb]
    rfl

theorem cleared_rsa {o : Obj} (ht : o.typ = CKK_RSA) (hc : o.cls = CKO_PRIVATE_KEY) :
    cleared o = { o with data := .rsa {}, encoded := true } := by
  unfold cleared; rw [if_pos ht, if_pos hc]

theorem cleared_ec {o : Obj} (ht : o.typ = CKK_EC) (hc : o.cls = CKO_PRIVATE_KEY) :
    cleared o = { o with data := .ec o.ec.free, encoded := true } := by
  have h1 : o.typ ≠ CKK_RSA := by rw [ht]; decide
  unfold cleared; rw [if_neg h1, if_pos ht, if_pos hc]

theorem cleared_dh {o : Obj} (ht : o.typ = CKK_DH) (hc : o.cls = CKO_PRIVATE_KEY) :
    cleared o = { o with data := .dh { o.dh with key := List.replicate o.dh.key.length 0 }, encoded := true } := by
  have h1 : o.typ ≠ CKK_RSA := by rw [ht]; decide
  have h2 : o.typ ≠ CKK_EC := by rw [ht]; decide
  unfold cleared; rw [if_neg h1, if_neg h2, if_pos ht, if_pos hc]

theorem cleared_secret {o : Obj} (ht : o.typ = CKK_AES ∨ o.typ = CKK_GENERIC_SECRET) :
    cleared o = { o with data := .symm (List.replicate o.symm.length 0), encoded := true } := by
  have h1 : o.typ ≠ CKK_RSA := by rcases ht with ht | ht <;> (rw [ht]; decide)
  have h2 : o.typ ≠ CKK_EC := by rcases ht with ht | ht <;> (rw [ht]; decide)
  have h3 : o.typ ≠ CKK_DH := by rcases ht with ht | ht <;> (rw [ht]; decide)
  unfold cleared; rw [if_neg h1, if_neg h2, if_neg h3]

theorem twin_encoded {k : Bytes} {o o' : Obj} (h : SecretTwin o o') (ho : o.Keepable e.store) (ho' : o'.Keepable e.store) :
    (encodeObj e.store k true o).2.blind = (encodeObj e.store k true o').2.blind := by
  rw [encodeObj_keepable ho, encodeObj_keepable ho']
  have key : o.cls ≠ CKO_CERTIFICATE → o'.cls = o.cls → (∀ c c', (cleared (o.kd (some c))).blind = (cleared (o'.kd (some c'))).blind) →
      ((if o.cls = CKO_CERTIFICATE then o else cleared (o.sealUnder e.store k)) : Obj).blind =
      ((if o'.cls = CKO_CERTIFICATE then o' else cleared (o'.sealUnder e.store k)) : Obj).blind := by
    intro hn hc hx
    obtain ⟨c, h1⟩ := keepable_seal ho hn k
    obtain ⟨c', h2⟩ := keepable_seal ho' (hc ▸ hn) k
    rw [if_neg hn, if_neg (hc ▸ hn), h1, h2]
    exact hx c c'
  cases h with
  | same => rfl
  | rsa o a a' d ht hc =>
    refine key (by show o.cls ≠ _; rw [hc]; decide) rfl fun c c' => ?_
    have c1 := cleared_rsa (o := Obj.kd _ (some c)) (show (Obj.kd { o with data := .rsa a } (some c)).typ = _ from ht) hc
    have c2 := cleared_rsa (o := Obj.kd _ (some c')) (show (Obj.kd { o with data := .rsa a', keyData := d } (some c')).typ = _ from ht) hc
    rw [c1, c2]
    rfl
  | ec o a a' d ht hc h1 h2 =>
    refine key (by show o.cls ≠ _; rw [hc]; decide) rfl fun c c' => ?_
    have c1 := cleared_ec (o := Obj.kd _ (some c)) (show (Obj.kd { o with data := .ec a } (some c)).typ = _ from ht) hc
    have c2 := cleared_ec (o := Obj.kd _ (some c')) (show (Obj.kd { o with data := .ec a', keyData := d } (some c')).typ = _ from ht) hc
    rw [c1, c2]
    simp only [Obj.kd, Obj.ec, EcKey.free, h1, h2]
    rfl
  | dh o a a' d ht hc h1 h2 h3 =>
    refine key (by show o.cls ≠ _; rw [hc]; decide) rfl fun c c' => ?_
    have c1 := cleared_dh (o := Obj.kd _ (some c)) (show (Obj.kd { o with data := .dh a } (some c)).typ = _ from ht) hc
    have c2 := cleared_dh (o := Obj.kd _ (some c')) (show (Obj.kd { o with data := .dh a', keyData := d } (some c')).typ = _ from ht) hc
    rw [c1, c2]
    simp only [Obj.kd, Obj.dh, h1, h2, h3]
    rfl
  | secret o a a' d ht hc h1 =>
    refine key hc rfl fun c c' => ?_
    have c1 := cleared_secret (o := Obj.kd { o with data := .symm a } (some c)) ht
    have c2 := cleared_secret (o := Obj.kd { o with data := .symm a', keyData := d } (some c')) ht
    rw [c1, c2]
    simp only [Obj.kd, Obj.symm, h1]
    rfl

theorem twins_encoded {k : Bytes} {os os' : List Obj} (h : AllPairs SecretTwin os os') (ho : ∀ o ∈ os, o.Keepable e.store)
    (ho' : ∀ o ∈ os', o.Keepable e.store) : (encodeAll e.store k os).map Obj.blind = (encodeAll e.store k os').map Obj.blind := by
  induction h with
  | nil => rfl
  | cons h _ ih =>
    have h1 := twin_encoded (k := k) h (ho _ List.mem_cons_self) (ho' _ List.mem_cons_self)
    have h2 := encodeObj_keepable (ho _ List.mem_cons_self) k
    have h3 := encodeObj_keepable (ho' _ List.mem_cons_self) k
    have ih := ih (fun p hp => ho p (List.mem_cons_of_mem _ hp)) (fun p hp => ho' p (List.mem_cons_of_mem _ hp))
    have e2 : (encodeObj e.store k true _).1 = true := congrArg Prod.fst h2
    have e3 : (encodeObj e.store k true _).1 = true := congrArg Prod.fst h3
    unfold encodeAll
    dsimp only
    rw [if_pos e2, if_pos e3, List.map_cons, List.map_cons, h1, ih]

/-- Logging out hides the difference. -/
theorem twins_logout {l l' : Lib} (h : SameBut l l') (hu : l.token.login = .user) (ha : AllEncodable e l) (ha' : AllEncodable e l') :
    (logout e l).blind = (logout e l').blind := by
  have hk : l'.token.key = l.token.key := by rw [h.token]
  have hu' : l'.token.login = .user := by rw [h.token]; exact hu
  have ht := twins_encoded (e := e) (k := l.token.key) h.objs ha ha'
  have h1 : (logout e l).token.objs = encodeAll e.store l.token.key l.token.objs := if_pos hu
  have h2 : (logout e l').token.objs = encodeAll e.store l'.token.key l'.token.objs := if_pos hu'
  have ht : (logout e l).token.objs.map Obj.blind = (logout e l').token.objs.map Obj.blind := by
    rw [h1, h2, hk, ht]
  unfold Lib.blind
  rw [← ht]
  have h3 : ({ (logout e l').token with objs := (logout e l).token.objs.map Obj.blind } : Token) =
      { (logout e l).token with objs := (logout e l).token.objs.map Obj.blind } := by
    unfold logout
    rw [h.token]
  rw [h3]
  have := h.count
  have := h.sessions
  have := h.uid
  have := h.rng
  have := h.bad
  cases l
  cases l'
  simp only at *
  subst_vars
  rfl

/-- **C114.**  In whatever the library answers after the user has logged out, until the right
PIN is presented again, nothing depends on the secret part of a token key: run the same calls
on two tokens that differ only in those parts and the answers are the same. -/
theorem c114_partial {l l' : Lib} (h : SameBut l l') (hu : l.token.login = .user) (ha : AllEncodable e l)
    (ha' : AllEncodable e l') {k : Nat} (hok : (answer e l (logoutCall k)).rv = .ok) {ds : List Call}
    (hn : NoEntry e (step e l (logoutCall k)).1 ds) :
    answer e l' (logoutCall k) = answer e l (logoutCall k) ∧
    replies e (step e l (logoutCall k)).1 ds = replies e (step e l' (logoutCall k)).1 ds := by
  unfold answer logoutCall at hok
  have hb : l.bad = false := by
    cases hb : l.bad with
    | false => rfl
    | true => rw [step_bad hb] at hok; cases hok
  have hb' : l'.bad = false := h.bad.trans hb
  have hg' : getSession l' k = getSession l k := by unfold getSession; rw [h.sessions]
  rw [step_resp hb] at hok
  simp only [callBody] at hok
  split at hok
  · cases hok
  rename_i hc
  cases hs : getSession l k with
  | none => rw [hs] at hok; cases hok
  | some s =>
    have e1 : callBody e l (.sess k .logout) = (logout e l, { rv := .ok }) := by
      simp only [callBody, if_neg hc, hs]; rfl
    have e2 : callBody e l' (.sess k .logout) = (logout e l', { rv := .ok }) := by
      simp only [callBody, h.count, if_neg hc, hg', hs]; rfl
    have s1 : step e l (.sess k .logout) = (logout e l, { rv := .ok }) := by
      rw [step_eq hb (by rw [e1]; exact RV.noConfusion), e1]
    have s2 : step e l' (.sess k .logout) = (logout e l', { rv := .ok }) := by
      rw [step_eq hb' (by rw [e2]; exact RV.noConfusion), e2]
    unfold answer logoutCall at *
    rw [s1] at hn
    rw [s1, s2]
    exact ⟨rfl, replies_blind (twins_logout h hu ha ha') (by show 0 < l.count; omega) hn⟩

/-! ## From the creation of the key on -/

/-- The object with other key data. -/
def Obj.wd (o : Obj) (d : KeyData) : Obj := { o with data := d }

theorem setAttr_wd (o : Obj) (d : KeyData) (en : Entry) :
    setAttr (o.wd d) en = ((setAttr o en).1, (setAttr o en).2.wd d) := by
  unfold setAttr
  cases en.typ <;> first | rfl | skip
  all_goals
    have h : ∀ c, reinterprets (o.wd d) c = reinterprets o c := fun _ => rfl
    simp only [h]
    split <;> rfl

theorem setAttrs_wd (t : List Entry) (o : Obj) (d : KeyData) :
    setAttrs (o.wd d) t = ((setAttrs o t).1, (setAttrs o t).2.wd d) := by
  induction t generalizing o with
  | nil => rfl
  | cons en t ih =>
    unfold setAttrs
    dsimp only
    rw [setAttr_wd]
    cases h : (setAttr o en).1 <;> simp only <;> first | exact ih _ | rfl

theorem find_rest {rest : List Entry} {a : CKA} (h : ∀ en ∈ rest, en.typ ≠ a) :
    rest.reverse.find? (fun en => en.typ == a) = none := by
  rw [List.find?_eq_none]
  intro en hen
  simpa using h en (List.mem_reverse.mp hen)

theorem findAttr_secret {on : UInt8} {typ : Nat} {v : Bytes} {rest : List Entry} (hr : FreeOfKey rest) :
    findAttr (secretWith on typ v rest) .cls = some (.of .cls (ulong CKO_SECRET_KEY)) ∧
    findAttr (secretWith on typ v rest) .keyType = some (.of .keyType (ulong typ)) ∧
    findAttr (secretWith on typ v rest) .token = some (.of .token [on]) := by
  have h1 := find_rest (a := .cls) fun en hen => (hr en hen).1
  have h2 := find_rest (a := .keyType) fun en hen => (hr en hen).2.1
  have h3 := find_rest (a := .token) fun en hen => (hr en hen).2.2.1
  unfold findAttr secretWith
  rw [List.reverse_append, List.find?_append, List.find?_append, List.find?_append, h1, h2, h3]
  exact ⟨rfl, rfl, rfl⟩

theorem createObject_secretFor {on : UInt8} {s : Session} {typ : Nat} {v : Bytes} {rest : List Entry} (hr : FreeOfKey rest)
    (ht : typ = CKK_AES ∨ typ = CKK_GENERIC_SECRET) :
    createObject e s (secretWith on typ v rest) = newObject e s typ CKO_SECRET_KEY (secretWith on typ v rest) := by
  obtain ⟨h1, h2, _⟩ := findAttr_secret (typ := typ) (v := v) hr
  unfold createObject templClass templUlong
  rw [h1, h2]
  rcases ht with rfl | rfl <;> rfl

theorem check_secret {on : UInt8} {typ : Nat} {v v' : Bytes} (hv : v.length = v'.length) (rest : List Entry) :
    checkAttributes true (secretWith on typ v rest) = checkAttributes true (secretWith on typ v' rest) := by
  have h : checkEntry true (.of .value v) = checkEntry true (.of .value v') := by
    have k : ∀ w, checkEntry true (.of .value w) = if w.length == unavailableInfo then .attributeValueInvalid else .ok :=
      fun _ => rfl
    rw [k, k, hv]
  unfold secretWith
  simp only [List.cons_append, List.nil_append, checkAttributes, h]

theorem setAttrs_secret {on : UInt8} {typ : Nat} (v v' : Bytes) (rest : List Entry) (o : Obj) :
    setAttrs o (secretWith on typ v rest) = setAttrs o (secretWith on typ v' rest) := by
  have h : ∀ o : Obj, setAttr o (.of .value v) = setAttr o (.of .value v') := fun _ => rfl
  unfold secretWith
  simp only [List.cons_append, List.nil_append, setAttrs, h]

theorem keyVals_secret {on : UInt8} {typ : Nat} {v : Bytes} {rest : List Entry} :
    keyVals (secretWith on typ v rest) .value = some v ∧
    keyVals (secretWith on typ v rest) .valueLen = keyVals rest .valueLen := by
  constructor
  · show some ((Entry.of .value v).val) = _
    unfold Entry.val Entry.of
    simp
  · rfl

theorem secretLen_same (typ : Nat) (n : Option Bytes) {v v' : Bytes} (hv : v.length = v'.length) :
    secretLen typ n (some v) = secretLen typ n (some v') := by
  unfold secretLen
  simp only [Option.getD_some, hv]

theorem newSecret {on : UInt8} {s : Session} {typ : Nat} {v v' : Bytes} {rest : List Entry} {o : Obj} (hv : v.length = v'.length)
    (ht : typ = CKK_AES ∨ typ = CKK_GENERIC_SECRET)
    (h : newObject e s typ CKO_SECRET_KEY (secretWith on typ v rest) = (.ok, o)) :
    o.typ = typ ∧ o.cls ≠ CKO_CERTIFICATE ∧ ∃ b b', o.data = .symm b ∧ b.length = b'.length ∧ b.length ≤ 512 ∧
      newObject e s typ CKO_SECRET_KEY (secretWith on typ v' rest) = (.ok, o.wd (.symm b')) := by
  unfold newObject at h ⊢
  have ho := setAttributeValue_ok h
  obtain ⟨h1, h2, h3, h4⟩ := ho
  have hn : ({ newObj 0 typ with cls := CKO_SECRET_KEY } : Obj).cls ≠ CKO_CERTIFICATE := by
    show CKO_SECRET_KEY ≠ _; decide
  have hsk : ∀ w, setKey e.key { newObj 0 typ with cls := CKO_SECRET_KEY } (keyVals (secretWith on typ w rest)) =
      setSecretKey { newObj 0 typ with cls := CKO_SECRET_KEY } (keyVals (secretWith on typ w rest)) := by
    intro w
    unfold setKey
    rw [if_neg hn]
    rcases ht with rfl | rfl <;> rfl
  have hset : ∀ w, setSecretKey { newObj 0 typ with cls := CKO_SECRET_KEY } (keyVals (secretWith on typ w rest)) =
      match secretLen typ (keyVals rest .valueLen) (some w) with
      | .error r => (r, Obj.wd { newObj 0 typ with cls := CKO_SECRET_KEY } (.symm (secretLeft r (keyVals rest .valueLen))))
      | .ok n => (if n > maxSymKey then .ub else .ok,
          Obj.wd { newObj 0 typ with cls := CKO_SECRET_KEY } (.symm (w.take n))) := by
    intro w
    unfold setSecretKey
    rw [keyVals_secret.1, keyVals_secret.2]
    rfl
  have hps : ∀ w, ([CKA.valueLen, CKA.value].any fun a => (keyAttr (secretWith on typ w rest) a).any fun en => en.mem.isNone) =
      (keyAttr rest .valueLen).any fun en => en.mem.isNone := by
    intro w
    have k1 : keyAttr (secretWith on typ w rest) .valueLen = keyAttr rest .valueLen := rfl
    have k2 : keyAttr (secretWith on typ w rest) .value = some (.of .value w) := rfl
    simp only [List.any_cons, List.any_nil, k1, k2]
    simp [Entry.of]
  have hkp : keyParams { newObj 0 typ with cls := CKO_SECRET_KEY } = some [.valueLen, .value] := by
    unfold keyParams
    rw [if_neg hn]
    rcases ht with rfl | rfl <;> rfl
  have hmem : ((keyAttr rest .valueLen).any fun en => en.mem.isNone) = false := by
    cases hm : (keyAttr rest .valueLen).any fun en => en.mem.isNone with
    | false => rfl
    | true =>
      exfalso
      unfold setAttributeValue at h
      rw [h2, hkp] at h
      simp only [hps, hm, h1] at h
      simp at h
  rw [hsk, hset] at h3 h4
  cases hl : secretLen typ (keyVals rest .valueLen) (some v) with
  | error r =>
    rw [hl] at h3 h4
    exfalso
    dsimp only at h3
    subst h3
    unfold secretLen at hl
    generalize keyVals rest .valueLen = n at hl
    cases n with
    | none => cases hl
    | some n =>
      dsimp only at hl
      repeat' split at hl
      all_goals cases hl
  | ok n =>
    rw [hl] at h3 h4
    dsimp only at h3 h4
    have hn512 : ¬ n > maxSymKey := by
      intro hx; rw [if_pos hx] at h3; cases h3
    have hr := setAttrs_rest (Obj.wd { newObj 0 typ with cls := CKO_SECRET_KEY } (.symm (v.take n))) (secretWith on typ v rest)
    have hk := setAttrs_kept (Obj.wd { newObj 0 typ with cls := CKO_SECRET_KEY } (.symm (v.take n))) (secretWith on typ v rest) hn
    rw [h4] at hr hk
    refine ⟨hr.typ, hk.2, v.take n, v'.take n, hr.data, by simp only [List.length_take, hv], ?_, ?_⟩
    · rw [List.length_take]
      have : maxSymKey = 512 := rfl
      omega
    · rw [h1, setAttributeValue_run (o1 := Obj.wd { newObj 0 typ with cls := CKO_SECRET_KEY } (.symm (v'.take n)))
        (ps := [.valueLen, .value]) ((check_secret hv rest).symm.trans h2) hkp ((hps v').trans hmem)]
      · rw [setAttrs_secret v' v]
        have := setAttrs_wd (secretWith on typ v rest) (Obj.wd { newObj 0 typ with cls := CKO_SECRET_KEY } (.symm (v.take n))) (.symm (v'.take n))
        rw [h4] at this
        exact this
      · rw [hsk, hset, ← secretLen_same typ _ hv, hl]
        dsimp only
        rw [if_neg hn512]

theorem storeObj_secret {x : StoreExt} {k : Bytes} {r i : Nat} {o : Obj} {c : Bytes} (ht : o.typ = CKK_AES ∨ o.typ = CKK_GENERIC_SECRET)
    (hc : o.cls ≠ CKO_CERTIFICATE) (hk : o.keyData = some c) :
    (storeObj x k r o i).obj = o ∧ (storeObj x k r o i).rng = r ∧ (storeObj x k r o i).ok = true := by
  have h1 : needsIv o = false := by unfold needsIv; rw [hk]; rfl
  have h2 : keyFile o = some .symmKey := by
    unfold keyFile
    rw [if_neg hc]
    rcases ht with ht | ht <;> (rw [ht]; rfl)
  have h3 : keyTail o = some [] := by
    unfold keyTail
    rw [if_neg (by rcases ht with ht | ht <;> (rw [ht]; decide))]
  unfold storeObj
  simp only [h1, h2, hk, h3, Bool.false_eq_true, if_false, Option.isNone_some]
  exact ⟨trivial, trivial, trivial⟩

theorem encodeObj_secret {x : StoreExt} {k : Bytes} {o : Obj} (ht : o.typ = CKK_AES ∨ o.typ = CKK_GENERIC_SECRET)
    (hc : o.cls ≠ CKO_CERTIFICATE) : encodeObj x k false o = (true, { o with keyData := some (x.aeadEnc k o.iv o.symm) }) := by
  unfold encodeObj encodeKey encodeSymm
  have h1 : o.typ ≠ CKK_RSA := by rcases ht with ht | ht <;> (rw [ht]; decide)
  have h2 : o.typ ≠ CKK_EC := by rcases ht with ht | ht <;> (rw [ht]; decide)
  have h3 : o.typ ≠ CKK_DH := by rcases ht with ht | ht <;> (rw [ht]; decide)
  rw [if_neg hc, if_neg h1, if_neg h2, if_neg h3, if_pos ht]
  rfl

theorem view_keepable {x : StoreExt} {o o' : Obj} (h : o'.view = o.view) (ho : o.Keepable x) : o'.Keepable x := by
  have h1 : o'.cls = o.cls := (congrArg Obj.cls h :)
  have h2 : o'.typ = o.typ := (congrArg Obj.typ h :)
  have h3 : o'.data = o.data := (congrArg Obj.data h :)
  unfold Obj.Keepable Obj.IsKey Obj.keyBytes Obj.Asym at *
  rw [h1, h2, h3]
  exact ho

theorem AllPairs.same {α : Type} {R : α → α → Prop} (h : ∀ a, R a a) (os : List α) : AllPairs R os os := by
  induction os with
  | nil => exact .nil
  | cons a os ih => exact .cons (h a) ih

theorem store_secret {l : Lib} {o : Obj} {os : List Obj} {c : Bytes} (ho : l.token.objs = o :: os)
    (ht : o.typ = CKK_AES ∨ o.typ = CKK_GENERIC_SECRET) (hc : o.cls ≠ CKO_CERTIFICATE) (hk : o.keyData = some c) :
    (Lib.store e l).1 = { l with
      token := { l.token with objs := o :: (storeObjs e.store l.token.key l.rng os).2.1 }
      rng := (storeObjs e.store l.token.key l.rng os).2.2.1
      disk := (Lib.store e l).1.disk } := by
  obtain ⟨h1, h2, h3⟩ := storeObj_secret (x := e.store) (k := l.token.key) (r := l.rng) (i := os.length) ht hc hk
  have h : (storeObjs e.store l.token.key l.rng l.token.objs).2 =
      (o :: (storeObjs e.store l.token.key l.rng os).2.1, (storeObjs e.store l.token.key l.rng os).2.2) := by
    rw [ho]
    simp only [storeObjs, h1, h2, h3, if_true]
  have hr : (Lib.store e l).1 = { l with
      token := { l.token with objs := (storeObjs e.store l.token.key l.rng l.token.objs).2.1 }
      rng := (storeObjs e.store l.token.key l.rng l.token.objs).2.2.1
      disk := (Lib.store e l).1.disk } := rfl
  rw [h] at hr
  exact hr

/-- Adding a secret key to the token. -/
theorem sessAdd_secret {l : Lib} {s : Session} {o : Obj} {b b' : Bytes} {k : Nat} (ht : o.typ = CKK_AES ∨ o.typ = CKK_GENERIC_SECRET)
    (hc : o.cls ≠ CKO_CERTIFICATE) (hd : o.data = .symm b) (hl : b.length = b'.length) (h512 : b.length ≤ 512)
    (ha : AllEncodable e l) (h : (sessAddObject e l s 1 o).2 = some k) :
    (sessAddObject e l s 1 (o.wd (.symm b'))).2 = some k ∧
    SameBut (sessAddObject e l s 1 o).1 (sessAddObject e l s 1 (o.wd (.symm b'))).1 ∧
    AllEncodable e (sessAddObject e l s 1 o).1 ∧ AllEncodable e (sessAddObject e l s 1 (o.wd (.symm b'))).1 ∧
    (sessAddObject e l s 1 o).1.token.login = l.token.login ∧
    (sessAddObject e l s 1 o).1.bad = l.bad ∧ (sessAddObject e l s 1 o).1.count = l.count ∧
    (sessAddObject e l s 1 o).1.sessions = l.sessions := by
  have hlen : ¬ l.token.objs.length ≥ tokenObjMax := by
    intro hx
    unfold sessAddObject at h
    simp only [hx, if_true] at h
    simp at h
  have key : ∀ d : Bytes, ∃ c dk, sessAddObject e l s 1 (o.wd (.symm d)) =
      ({ l with
          uid := l.uid + 1
          token := { l.token with
            objs := { o with data := .symm d, keyData := some c, onToken := true, uid := l.uid, handle := nextHandle l.token.objs 1 } ::
              (storeObjs e.store l.token.key l.rng l.token.objs).2.1 }
          rng := (storeObjs e.store l.token.key l.rng l.token.objs).2.2.1
          disk := dk }, some (nextHandle l.token.objs 1)) := by
    intro d
    refine ⟨e.store.aeadEnc l.token.key o.iv d, (sessAddObject e l s 1 (o.wd (.symm d))).1.disk, ?_⟩
    have he := encodeObj_secret (x := e.store) (k := l.token.key)
      (o := { o.wd (.symm d) with onToken := decide (1 % 2 = 1), uid := l.uid }) ht hc
    have hadd : sessAddObject e l s 1 (o.wd (.symm d)) = ((Lib.store e { l with
        uid := l.uid + 1
        token := { l.token with
          objs := { o with data := .symm d, keyData := some (e.store.aeadEnc l.token.key o.iv d), onToken := true, uid := l.uid, handle := nextHandle l.token.objs 1 } :: l.token.objs } }).1,
          some (nextHandle l.token.objs 1)) := by
      unfold sessAddObject
      dsimp only
      rw [if_pos (by decide : (1 : Nat) ≠ 0), if_neg hlen, he]
      rfl
    have hst := store_secret (e := e) (l := { l with
        uid := l.uid + 1
        token := { l.token with
          objs := { o with data := .symm d, keyData := some (e.store.aeadEnc l.token.key o.iv d), onToken := true, uid := l.uid, handle := nextHandle l.token.objs 1 } :: l.token.objs } })
      rfl ht hc rfl
    rw [hadd]
    exact Prod.ext hst rfl
  have ho : o = o.wd (.symm b) := by unfold Obj.wd; rw [← hd]
  obtain ⟨c, dk, h1⟩ := key b
  obtain ⟨c', dk', h2⟩ := key b'
  rw [← ho] at h1
  rw [h1] at h ⊢
  rw [h2]
  have hview := storeObjs_view e.store l.token.key l.rng l.token.objs
  have hold : ∀ p ∈ (storeObjs e.store l.token.key l.rng l.token.objs).2.1, p.Keepable e.store := by
    intro p hp
    have hm : p.view ∈ (storeObjs e.store l.token.key l.rng l.token.objs).2.1.map Obj.view := List.mem_map_of_mem hp
    rw [hview] at hm
    obtain ⟨q, hq, hqp⟩ := List.mem_map.mp hm
    exact view_keepable hqp.symm (ha q hq)
  have hnew : ∀ (d c : Bytes), d.length ≤ 512 → Obj.Keepable e.store
      { o with data := .symm d, keyData := some c, onToken := true, uid := l.uid, handle := nextHandle l.token.objs 1 } := by
    intro d c hd
    exact .inr ⟨⟨hc, .inr (.inr (.inr ⟨ht, d, rfl, hd⟩))⟩, rfl⟩
  refine ⟨h, ⟨rfl, rfl, rfl, rfl, rfl, rfl, ?_⟩, ?_, ?_, rfl, rfl, rfl, rfl⟩
  · refine .cons ?_ (AllPairs.same SecretTwin.same _)
    exact SecretTwin.secret { o with keyData := some c, onToken := true, uid := l.uid, handle := nextHandle l.token.objs 1 } b b'
      (some c') ht hc hl
  · intro p hp
    rcases List.mem_cons.mp hp with rfl | hp
    · exact hnew _ _ h512
    · exact hold p hp
  · intro p hp
    rcases List.mem_cons.mp hp with rfl | hp
    · exact hnew _ _ (hl ▸ h512)
    · exact hold p hp

/-- Creating a secret key on the token. -/
theorem create_twin {l : Lib} (hb : l.bad = false) {h : Nat} {typ : Nat} {v v' : Bytes} {rest : List Entry} (hr : FreeOfKey rest)
    (hv : v.length = v'.length) (ht : typ = CKK_AES ∨ typ = CKK_GENERIC_SECRET) (ha : AllEncodable e l)
    (hok : (answer e l (createCall h (secretFor typ v rest))).rv = .ok) :
    answer e l (createCall h (secretFor typ v' rest)) = answer e l (createCall h (secretFor typ v rest)) ∧
    SameBut (step e l (createCall h (secretFor typ v rest))).1 (step e l (createCall h (secretFor typ v' rest))).1 ∧
    AllEncodable e (step e l (createCall h (secretFor typ v rest))).1 ∧
    AllEncodable e (step e l (createCall h (secretFor typ v' rest))).1 ∧
    (step e l (createCall h (secretFor typ v rest))).1.token.login = l.token.login ∧
    answer e (step e l (createCall h (secretFor typ v rest))).1 (logoutCall h) = { rv := .ok } := by
  unfold createCall logoutCall at *
  unfold answer at *
  rw [step_resp hb] at hok
  simp only [callBody] at hok
  split at hok
  · cases hok
  rename_i hc
  cases hs : getSession l h with
  | none => rw [hs] at hok; cases hok
  | some s =>
    rw [hs] at hok
    simp only [sessCall, cCreate] at hok
    by_cases hu : s.use ≠ .rw
    · rw [if_pos hu] at hok; cases hok
    rw [if_neg hu, createObject_secretFor hr ht] at hok
    cases hn : newObject e s typ CKO_SECRET_KEY (secretFor typ v rest) with
    | mk rv o =>
      rw [hn] at hok
      cases rv <;> first | cases hok | skip
      have hok : (addObject e l s (secretFor typ v rest) o).2.rv = .ok := hok
      have htb : ∀ w, tokenByte (secretFor typ w rest) 0 = .ok 1 := by
        intro w
        unfold tokenByte
        rw [(findAttr_secret (typ := typ) (v := w) hr).2.2]
        rfl
      obtain ⟨n1, n2, b, b', n3, n4, n5, n6⟩ := newSecret hv ht hn
      have hbody : ∀ w p, newObject e s typ CKO_SECRET_KEY (secretFor typ w rest) = (.ok, p) →
          callBody e l (.sess h (.create (some (secretFor typ w rest)) true)) = addObject e l s (secretFor typ w rest) p := by
        intro w p hp
        simp only [callBody, if_neg hc, hs, sessCall, cCreate, if_neg hu, createObject_secretFor hr ht, hp]
        rfl
      have hadd : ∀ w p k, (sessAddObject e l s 1 p).2 = some k →
          addObject e l s (secretFor typ w rest) p = ((sessAddObject e l s 1 p).1, { rv := .ok, handle := some k }) := by
        intro w p k hk
        unfold addObject
        rw [htb]
        dsimp only
        generalize sessAddObject e l s 1 p = r at hk
        obtain ⟨r1, r2⟩ := r
        cases hk
        rfl
      cases hk : (sessAddObject e l s 1 o).2 with
      | none =>
        exfalso
        unfold addObject at hok
        rw [htb] at hok
        dsimp only at hok
        generalize sessAddObject e l s 1 o = r at hk hok
        obtain ⟨r1, r2⟩ := r
        cases hk
        cases hok
      | some k =>
        obtain ⟨m1, m2, m3, m4, m5, m6, m7, m8⟩ := sessAdd_secret (e := e) (l := l) (s := s) (n1.symm ▸ ht) n2 n3 n4 n5 ha hk
        have a1 := hadd v o k hk
        have a2 := hadd v' _ k m1
        have s1 : step e l (.sess h (.create (some (secretFor typ v rest)) true)) =
            ((sessAddObject e l s 1 o).1, { rv := .ok, handle := some k }) := by
          rw [step_eq hb (by rw [hbody v o hn, a1]; exact RV.noConfusion), hbody v o hn, a1]
        have s2 : step e l (.sess h (.create (some (secretFor typ v' rest)) true)) =
            ((sessAddObject e l s 1 (o.wd (.symm b'))).1, { rv := .ok, handle := some k }) := by
          rw [step_eq hb (by rw [hbody v' _ n6, a2]; exact RV.noConfusion), hbody v' _ n6, a2]
        rw [s1, s2]
        refine ⟨rfl, m2, m3, m4, m5, ?_⟩
        rw [step_resp (m6.trans hb)]
        simp only [callBody]
        rw [if_neg (m7 ▸ hc), (by unfold getSession; rw [m8] : getSession (sessAddObject e l s 1 o).1 h = getSession l h), hs]
        rfl

/-- **C114**, from the creation of the key on: the user creates a secret key on the token and
logs out.  Until the right PIN is presented again no answer tells which value the key has. -/
theorem c114_create_partial {l : Lib} {h : Nat} {typ : Nat} {v v' : Bytes} {rest : List Entry} (hr : FreeOfKey rest)
    (hv : v.length = v'.length) (ht : typ = CKK_AES ∨ typ = CKK_GENERIC_SECRET) (hu : l.token.login = .user)
    (ha : AllEncodable e l) (hok : (answer e l (createCall h (secretFor typ v rest))).rv = .ok) {ds : List Call}
    (hn : NoEntry e (run e l [createCall h (secretFor typ v rest), logoutCall h]) ds) :
    replies e l (createCall h (secretFor typ v rest) :: logoutCall h :: ds) =
    replies e l (createCall h (secretFor typ v' rest) :: logoutCall h :: ds) := by
  have hb : l.bad = false := by
    cases hb : l.bad with
    | false => rfl
    | true => unfold answer at hok; rw [step_bad hb] at hok; cases hok
  obtain ⟨g1, g2, g3, g4, g5, g6⟩ := create_twin hb hr hv ht ha hok
  obtain ⟨r1, r2⟩ := c114_partial g2 (g5.trans hu) g3 g4 (by rw [g6]) hn
  simp only [replies]
  rw [r2, r1, g1]

/-! ## Concrete cases -/

namespace Demo

/-- What a stranger may try: read the value, search, guess the PIN, encrypt with the key. -/
def stranger : List Call :=
  [readValue tok1, .sess 65538 (.findInit (some [])), loginCall 65538 .user newPin 0, readValue tok1, openCall false,
   .sess 65538 (.login .so (some userPin) 0)]

/-- The user has an AES key with the bytes `v` and an RSA key on the token, and renames the RSA
key. -/
def renamed (v : UInt8) : List Call :=
  setup ++ [createCall 65538 (openTmpl true v), Verif.pairCall 65538 .rsaKeyPairGen (.null 0) rsaPub [.of .token [1]],
    .sess 65538 (.setAttr (tok1 + 1) (some [.of .label [65]]))]

set_option maxRecDepth 100000 in
/-- **C114 is violated** when a key on the token cannot be encoded: renaming an RSA key empties
it, clearing the keys at `C_Logout` stops there, and the keys created before it stay readable by
anybody, although `C_Logout` answered OK. -/
theorem c114_violated :
    rvs keepEnv fresh (renamed 7 ++ [logoutCall 65538]) = List.replicate 11 .ok ∧
    (run keepEnv fresh (renamed 7 ++ [logoutCall 65538])).token.login = .pub ∧
    shownValue keepEnv (run keepEnv fresh (renamed 7 ++ [logoutCall 65538])) tok1 = some [(16, some (List.replicate 16 7))] ∧
    shownValue keepEnv (run keepEnv fresh (renamed 8 ++ [logoutCall 65538])) tok1 = some [(16, some (List.replicate 16 8))] ∧
    shownValue keepEnv (run keepEnv fresh (setup ++ [createCall 65538 (openTmpl true 7), logoutCall 65538])) tok1 =
      some [(16, some (List.replicate 16 0))] := by
  decide +kernel

/-- `NoEntry`, computed. -/
def noEntry (e : Env) (l : Lib) : List Call → Bool
  | [] => true
  | c :: cs => (match c with
      | .cFinal => false
      | .sess _ (.login .user (some pin) _) => !decide (Matches e l.token.user pin)
      | _ => true) && noEntry e (step e l c).1 cs

theorem noEntry_spec {e : Env} : ∀ {cs : List Call} {l : Lib}, noEntry e l cs = true → NoEntry e l cs := by
  intro cs
  induction cs with
  | nil => intro _ _; trivial
  | cons c cs ih =>
    intro l h
    unfold noEntry at h
    obtain ⟨h1, h2⟩ := Bool.and_eq_true_iff.mp h
    refine ⟨?_, ?_, ih h2⟩
    · rintro rfl
      cases h1
    · rintro k pin now rfl hm
      have h1 : (!decide (Matches e l.token.user pin)) = true := h1
      simp [hm] at h1

set_option maxRecDepth 100000 in
/-- The hypotheses of `c114_create_partial` are met: the user creates a key and logs out; a
stranger tries to learn which one it is. -/
example :
    let l := run env fresh setup
    FreeOfKey [.of .extractable [1]] ∧ l.token.login = .user ∧ AllEncodable env l ∧
    (answer env l (createCall 65538 (secretFor CKK_AES (List.replicate 16 7) [.of .extractable [1]]))).rv = .ok ∧
    NoEntry env (run env l [createCall 65538 (secretFor CKK_AES (List.replicate 16 7) [.of .extractable [1]]), logoutCall 65538])
      stranger ∧
    (replies env (run env l [createCall 65538 (secretFor CKK_AES (List.replicate 16 7) [.of .extractable [1]]), logoutCall 65538])
      stranger).map (·.rv) = [.ok, .ok, .pinIncorrect, .ok, .ok, .sessionReadOnlyExists] := by
  refine ⟨?_, by decide +kernel, ?_, by decide +kernel, noEntry_spec (by decide +kernel), by decide +kernel⟩
  · intro en h
    rw [List.mem_singleton] at h
    subst h
    decide
  · exact aesOnly_encodable (by decide +kernel)

set_option maxRecDepth 100000 in
/-- The two libraries of `c114_partial` are those that the creations of two different keys
leave. -/
example :
    let l := run env fresh (setup ++ [createCall 65538 (openTmpl true 7)])
    let l' := run env fresh (setup ++ [createCall 65538 (openTmpl true 8)])
    SameBut l l' ∧ l.token.login = .user ∧ AllEncodable env l ∧ AllEncodable env l' ∧
    (answer env l (logoutCall 65538)).rv = .ok ∧ NoEntry env (step env l (logoutCall 65538)).1 stranger ∧
    l.token.objs ≠ l'.token.objs ∧ shownValue env l tok1 ≠ shownValue env l' tok1 := by
  intro l l'
  have ha : AllEncodable env (run env fresh setup) := aesOnly_encodable (by decide +kernel)
  have hb : (run env fresh setup).bad = false := by decide +kernel
  have ht := create_twin (e := env) (l := run env fresh setup) hb (h := 65538) (typ := CKK_AES) (v := List.replicate 16 7)
    (v' := List.replicate 16 8) (rest := [.of .extractable [1]])
    (by intro en h; rw [List.mem_singleton] at h; subst h; decide) rfl (.inl rfl) ha (by decide +kernel)
  refine ⟨?_, by decide +kernel, aesOnly_encodable (by decide +kernel), aesOnly_encodable (by decide +kernel), by decide +kernel,
    noEntry_spec (by decide +kernel), by decide +kernel, by decide +kernel⟩
  have e1 : l = (step env (run env fresh setup) (createCall 65538 (secretFor CKK_AES (List.replicate 16 7) [.of .extractable [1]]))).1 := by
    show run env fresh (setup ++ [_]) = _
    rw [run_append]; rfl
  have e2 : l' = (step env (run env fresh setup) (createCall 65538 (secretFor CKK_AES (List.replicate 16 8) [.of .extractable [1]]))).1 := by
    show run env fresh (setup ++ [_]) = _
    rw [run_append]; rfl
  rw [e1, e2]
  exact ht.2.1

end Demo

end Verif
