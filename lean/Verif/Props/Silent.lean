import Verif.Proofs.Silent
import Verif.Proofs.Aged
import Verif.Props.Objs
import Verif.Props.AttrGet
import Verif.Props.Sealed

/-!
# A key that is not used does not show (C133)
-/

namespace Verif

variable {e : Env}

theorem DifferIn.ltw (hx : e.key.Lawful) {l l' : Lib} (hi : SInv l) (hp : l.PopA) {h k : Nat} (d : DifferIn h k l l') : LTw e.key h k l l' := by
  obtain ⟨s, o, o', hs, ho, hk, hsec, hse, hc, hsame, rfl⟩ := d.ex
  obtain ⟨hm, rfl, _⟩ := (getSession_iff hi).mp hs
  refine ⟨rfl, ?_⟩
  unfold Lib.upd
  have hmap : ∀ ss : List Session, (∀ t ∈ ss, t ∈ l.sessions) → AllPairs (STw e.key s.handle k) ss
      (ss.map fun t => if t.handle = s.handle then { t with objs := t.objs.map fun p => if p.uid = o.uid then o' else p } else t) := by
    intro ss
    induction ss with
    | nil => intro _; exact .nil
    | cons t ss ih =>
      intro ht
      refine .cons ?_ (ih fun v hv => ht v (List.mem_cons_of_mem _ hv))
      dsimp only
      split
      · rename_i hh
        have hts : t = s := by
          have h1 : l.sessions.find? (fun z => z.handle == s.handle) = some t := (find_iff hi.nodup).mpr ⟨ht t (List.mem_cons_self ..), hh⟩
          have h2 : l.sessions.find? (fun z => z.handle == s.handle) = some s := (find_iff hi.nodup).mpr ⟨hm, rfl⟩
          exact Option.some.inj (h1.symm.trans h2)
        subst hts
        refine ⟨rfl, ?_, fun hn => absurd rfl hn⟩
        have hob : ∀ os : List Obj, (∀ p ∈ os, p ∈ t.objs) → AllPairs (OTw e.key k t.curr) os (os.map fun p => if p.uid = o.uid then o' else p) := by
          intro os
          induction os with
          | nil => intro _; exact .nil
          | cons p os ihp =>
            intro hpo
            refine .cons ?_ (ihp fun q hq => hpo q (List.mem_cons_of_mem _ hq))
            dsimp only
            split
            · rename_i hu
              have e1 := uid_find hp hm (o := p) (List.mem_append_left _ (hpo p (List.mem_cons_self ..)))
              have e2 := uid_find hp hm (o := o) (List.mem_append_left _ ho)
              rw [hu] at e1
              have hpo : p = o := Option.some.inj (e1.symm.trans e2)
              subst hpo
              exact .inr ⟨hk, hc, hsame.1, fun v => (c25_secret_not_returned _ hx p o' hsec hse hsame v).1,
                fun v => (c25_secret_not_returned _ hx p o' hsec hse hsame v).2⟩
            · exact .inl rfl
        exact hob t.objs fun _ hp => hp
      · exact .refl _
  exact hmap l.sessions fun _ ht => ht

theorem tw_replies (hh : HashLen e) (hr : RandLen e) {h k : Nat} (ds : List Call) (hd : ∀ c ∈ ds, ¬ Employs h k c) :
    ∀ {l l' : Lib}, SInv l → CapInv l → LTw e.key h k l l' → replies e l' ds = replies e l ds := by
  induction ds with
  | nil => intros; rfl
  | cons c ds ih =>
    intro l l' hi hc t
    have hs := tw_step t hc.pop hi c (hd c (List.mem_cons_self ..))
    unfold replies
    rw [ih (fun d hd' => hd d (List.mem_cons_of_mem _ hd')) (hi.step e c) (hc.step hh hr hi c) hs.1]
    have : answer e l' c = answer e l c := hs.2
    rw [this]

/-- **C133**: what an application is told depends on the secret part of a session's key only once the key is used. Take any history, and a private or
secret key of a session that is sensitive or not extractable and that no operation is using. Whatever the secret part of that key is, every later
call, on any session, gets the same reply, until a call uses the key or sets its attributes. -/
theorem c133_silent (hh : HashLen e) (hr : RandLen e) (hx : e.key.Lawful) {l₀ : Lib} (h₀ : Start l₀) (hd : NoToken l₀) (cs : List Call)
    {l' : Lib} {h k : Nat} (hl : DifferIn h k (run e l₀ cs) l') (ds : List Call) (hds : ∀ c ∈ ds, ¬ Employs h k c) :
    replies e l' ds = replies e (run e l₀ cs) ds := by
  have hi := h₀.sinv.run e cs
  have hc := (Start.capInv h₀ hd).run hh hr h₀.sinv cs
  exact tw_replies hh hr ds hds hi hc (hl.ltw hx hi hc.pop)

/-! ## From the creation of the key on -/

theorem setAttrs_shut (o : Obj) (t : List Entry) (hc : ∀ en ∈ t, en.typ = .cls → leNat en.val = o.cls) (hx : ∀ en ∈ t, en.typ ≠ .extractable) :
    (setAttrs o t).2.cls = o.cls ∧ (setAttrs o t).2.flag.getLsbD 2 = o.flag.getLsbD 2 := by
  induction t generalizing o with
  | nil => exact ⟨rfl, rfl⟩
  | cons en t ih =>
    have h1 : (setAttr o en).2.cls = o.cls := by
      by_cases ht : en.typ = .cls
      · unfold setAttr
        rw [ht]
        dsimp only
        split
        · rfl
        · exact hc en (List.mem_cons_self ..) ht
      · exact setAttr_cls o en ht
    have h2 : (setAttr o en).2.flag.getLsbD 2 = o.flag.getLsbD 2 := by
      rw [setAttr_flBit o en 2 (by decide), if_neg]
      have := hx en (List.mem_cons_self ..)
      revert this
      cases en.typ <;> simp [flIdx]
    unfold setAttrs
    dsimp only
    split
    · have := ih (setAttr o en).2 (fun q hq hq' => (hc q (List.mem_cons_of_mem _ hq) hq').trans h1.symm) (fun q hq => hx q (List.mem_cons_of_mem _ hq))
      exact ⟨this.1.trans h1, this.2.trans h2⟩
    all_goals exact ⟨h1, h2⟩

theorem newSecret_shut {on : UInt8} {s : Session} {typ : Nat} {v : Bytes} {rest : List Entry} {o : Obj} (hr : FreeOfKey rest)
    (hx : ∀ en ∈ rest, en.typ ≠ .extractable) (ht : typ = CKK_AES ∨ typ = CKK_GENERIC_SECRET)
    (h : newObject e s typ CKO_SECRET_KEY (secretWith on typ v rest) = (.ok, o)) : o.IsSecretKey ∧ ¬ o.Extractable := by
  unfold newObject at h
  obtain ⟨_, _, h3, h4⟩ := setAttributeValue_ok h
  have hk : (setKey e.key { newObj 0 typ with cls := CKO_SECRET_KEY } (keyVals (secretWith on typ v rest))).2.cls = CKO_SECRET_KEY ∧
      (setKey e.key { newObj 0 typ with cls := CKO_SECRET_KEY } (keyVals (secretWith on typ v rest))).2.flag = 0 ∧
      (setKey e.key { newObj 0 typ with cls := CKO_SECRET_KEY } (keyVals (secretWith on typ v rest))).2.typ = typ := by
    unfold setKey
    rw [if_neg (show ({ newObj 0 typ with cls := CKO_SECRET_KEY } : Obj).cls ≠ CKO_CERTIFICATE by show CKO_SECRET_KEY ≠ _; decide)]
    rcases ht with rfl | rfl <;>
    · show (setSecretKey _ _).2.cls = _ ∧ (setSecretKey _ _).2.flag = _ ∧ (setSecretKey _ _).2.typ = _
      unfold setSecretKey
      dsimp only
      repeat' split
      all_goals exact ⟨rfl, rfl, rfl⟩
  have := setAttrs_shut (setKey e.key { newObj 0 typ with cls := CKO_SECRET_KEY } (keyVals (secretWith on typ v rest))).2 (secretWith on typ v rest) (by
      intro en hen ht'
      rw [hk.1]
      unfold secretWith at hen
      rcases List.mem_append.mp hen with hen | hen
      · simp only [List.mem_cons, List.not_mem_nil, or_false] at hen
        rcases hen with rfl | rfl | rfl | rfl <;> first | (exact by decide) | cases ht'
      · exact absurd ht' (hr en hen).1) (by
      intro en hen
      unfold secretWith at hen
      rcases List.mem_append.mp hen with hen | hen
      · simp only [List.mem_cons, List.not_mem_nil, or_false] at hen
        rcases hen with rfl | rfl | rfl | rfl <;> exact CKA.noConfusion
      · exact hx en hen)
  have hrest := setAttrs_rest (setKey e.key { newObj 0 typ with cls := CKO_SECRET_KEY } (keyVals (secretWith on typ v rest))).2 (secretWith on typ v rest)
  rw [h4] at this hrest
  refine ⟨.inr ⟨this.1.trans hk.1, ?_⟩, ?_⟩
  · rw [hrest.typ.trans hk.2.2]; exact ht
  · unfold Obj.Extractable
    rw [this.2, hk.2.1]
    decide

/-- Creating a secret key in a session. -/
theorem create_mute (hx : e.key.Lawful) {l : Lib} (hb : l.bad = false) (hi : SInv l) (ha : Aged l) {h k : Nat} {typ : Nat} {v v' : Bytes} {rest : List Entry}
    (hr : FreeOfKey rest) (hne : ∀ en ∈ rest, en.typ ≠ .extractable) (hv : v.length = v'.length) (ht : typ = CKK_AES ∨ typ = CKK_GENERIC_SECRET)
    (hok : answer e l (createCall h (secretWith 0 typ v rest)) = { rv := .ok, handle := some k }) :
    answer e l (createCall h (secretWith 0 typ v' rest)) = { rv := .ok, handle := some k } ∧
    LTw e.key h k (step e l (createCall h (secretWith 0 typ v rest))).1 (step e l (createCall h (secretWith 0 typ v' rest))).1 := by
  unfold createCall at *
  unfold answer at *
  rw [step_resp hb] at hok
  simp only [callBody] at hok
  split at hok
  · cases hok
  rename_i hc
  cases hs : getSession l h with
  | none => rw [hs] at hok; cases hok
  | some s =>
    rw [hs] at hok
    simp only [sessCall, cCreate] at hok
    by_cases hu : s.use ≠ .rw
    · rw [if_pos hu] at hok; cases hok
    rw [if_neg hu, createObject_secretFor hr ht] at hok
    cases hn : newObject e s typ CKO_SECRET_KEY (secretWith 0 typ v rest) with
    | mk rv o =>
      rw [hn] at hok
      cases rv <;> first | cases hok | skip
      have hok : (addObject e l s (secretWith 0 typ v rest) o).2 = { rv := .ok, handle := some k } := hok
      have htb : ∀ w, tokenByte (secretWith 0 typ w rest) 0 = .ok 0 := by
        intro w
        unfold tokenByte
        rw [(findAttr_secret (on := 0) (typ := typ) (v := w) hr).2.2]
        rfl
      obtain ⟨n1, n2, b, b', n3, n4, n5, n6⟩ := newSecret hv ht hn
      obtain ⟨z1, z2⟩ := newSecret_shut hr hne ht hn
      have hbody : ∀ w p, newObject e s typ CKO_SECRET_KEY (secretWith 0 typ w rest) = (.ok, p) →
          callBody e l (.sess h (.create (some (secretWith 0 typ w rest)) true)) = addObject e l s (secretWith 0 typ w rest) p := by
        intro w p hp
        simp only [callBody, if_neg hc, hs, sessCall, cCreate, if_neg hu, createObject_secretFor hr ht, hp]
        rfl
      have hlen : ¬ s.objs.length ≥ sessObjMax := by
        intro hlen
        unfold addObject at hok
        rw [htb] at hok
        unfold sessAddObject at hok
        simp only [if_pos hlen] at hok
        cases hok
      have hadd : ∀ w p, addObject e l s (secretWith 0 typ w rest) p =
          ({ l with uid := l.uid + 1 }.upd s.handle fun t => { t with objs := { p with onToken := false, uid := l.uid, handle := nextHandle s.objs 0 } :: t.objs },
            { rv := .ok, handle := some (nextHandle s.objs 0) }) := by
        intro w p
        unfold addObject
        rw [htb]
        unfold sessAddObject
        simp only [if_neg hlen]
        rfl
      have hk : nextHandle s.objs 0 = k := by
        rw [hadd] at hok
        exact Option.some.inj (congrArg Resp.handle hok)
      have s1 : step e l (.sess h (.create (some (secretWith 0 typ v rest)) true)) = addObject e l s (secretWith 0 typ v rest) o := by
        rw [step_eq hb (by rw [hbody v o hn, hadd]; exact RV.noConfusion), hbody v o hn]
      have s2 : step e l (.sess h (.create (some (secretWith 0 typ v' rest)) true)) = addObject e l s (secretWith 0 typ v' rest) (o.wd (.symm b')) := by
        rw [step_eq hb (by rw [hbody v' _ n6, hadd]; exact RV.noConfusion), hbody v' _ n6]
      rw [s1, s2, hadd, hadd]
      refine ⟨by rw [hk], ?_⟩
      obtain ⟨hm, hh, _⟩ := (getSession_iff hi).mp hs
      have hshow := c25_secret_not_returned e.key hx { o with onToken := false, uid := l.uid, handle := nextHandle s.objs 0 }
        { o.wd (.symm b') with onToken := false, uid := l.uid, handle := nextHandle s.objs 0 } z1 (.inr z2)
        ⟨⟨_, rfl⟩, by show o.data.SamePublic (.symm b'); rw [n3]; exact n4.symm⟩
      refine (LTw.refl _).upd _ _ _ fun t htm hth t' u => ?_
      refine ⟨by rw [u.eq], .cons (.inr ⟨hk, fun hcur => ?_, ⟨_, rfl⟩, fun tm => ?_, fun tm => ?_⟩) u.objs, fun hne => absurd (hth.trans hh) hne⟩
      · exact absurd (ha t htm _ hcur) (Nat.lt_irrefl _)
      · exact (hshow tm).1
      · exact (hshow tm).2

/-- **C133**, from the creation of the key on: an application creates a secret key in a session, with one value or with another of the same length, and does
not ask for an extractable key. After any history both calls get the same reply, and so does everything that follows until the key is used. -/
theorem c133_created (hh : HashLen e) (hr : RandLen e) (hx : e.key.Lawful) {l₀ : Lib} (h₀ : Start l₀) (hd : NoToken l₀) (cs : List Call)
    {h k typ : Nat} {v v' : Bytes} {rest : List Entry} (hf : FreeOfKey rest) (hne : ∀ en ∈ rest, en.typ ≠ .extractable) (hv : v.length = v'.length)
    (ht : typ = CKK_AES ∨ typ = CKK_GENERIC_SECRET)
    (hok : answer e (run e l₀ cs) (createCall h (secretWith 0 typ v rest)) = { rv := .ok, handle := some k })
    (ds : List Call) (hds : ∀ c ∈ ds, ¬ Employs h k c) :
    replies e (run e l₀ cs) (createCall h (secretWith 0 typ v' rest) :: ds) =
    replies e (run e l₀ cs) (createCall h (secretWith 0 typ v rest) :: ds) := by
  have hi := h₀.sinv.run e cs
  have hc := (Start.capInv h₀ hd).run hh hr h₀.sinv cs
  have ha := h₀.aged.run hh hr h₀.sinv (Start.capInv h₀ hd) cs
  have hb : (run e l₀ cs).bad = false := by
    cases hb : (run e l₀ cs).bad with
    | false => rfl
    | true => unfold answer at hok; rw [step_bad hb] at hok; cases hok
  obtain ⟨g1, g2⟩ := create_mute hx hb hi ha hf hne hv ht hok
  unfold replies
  rw [hok, g1, tw_replies hh hr ds hds (hi.step e _) (hc.step hh hr hi _) g2]

namespace Demo

/-- A key without `CKA_EXTRACTABLE`, with label "k". -/
def plainRest : List Entry := [.of .sign [1], .of .label [107]]

/-- Calls that do not use the key with handle 1: they look at it, search, copy it and close the session. -/
def looking : List Call :=
  [readCall 65538 1 [.of .label [0], .of .value (List.replicate 16 0)], .sess 65538 (.findInit (some [.of .label [107]])), .sess 65538 (.findNext true 4),
   .sess 65538 .findFinal, .sess 65538 (.copy 1 (some [.of .label [108]]) true), .sess 65538 (.destroy 1), .sess 65538 .close]

/-- The hypotheses of `c133_created` are met: the key is created, looked at, found, copied and destroyed. -/
example :
    let l := run env fresh setup
    FreeOfKey plainRest ∧ (∀ en ∈ plainRest, en.typ ≠ .extractable) ∧
    answer env l (createCall 65538 (secretWith 0 CKK_AES (List.replicate 16 7) plainRest)) = { rv := .ok, handle := some 1 } ∧
    (∀ c ∈ looking, ¬ Employs 65538 1 c) ∧
    (replies env l (createCall 65538 (secretWith 0 CKK_AES (List.replicate 16 7) plainRest) :: looking)).map (·.rv) =
      [.ok, .ok, .ok, .ok, .ok, .ok, .ok, .ok] ∧
    (replies env l (createCall 65538 (secretWith 0 CKK_AES (List.replicate 16 7) plainRest) :: looking))[3]?.map (·.found) = some [1] := by
  refine ⟨?_, ?_, by decide +kernel, ?_, by decide +kernel, by decide +kernel⟩
  · unfold FreeOfKey plainRest; decide
  · unfold plainRest; decide
  · intro c hc
    simp only [looking, readCall, List.mem_cons, List.not_mem_nil, or_false] at hc
    rcases hc with rfl | rfl | rfl | rfl | rfl | rfl | rfl <;> exact id

/-- Both rules are needed. Two values can be told apart once the key is used, here to sign, and by reading the key if it was made extractable. -/
example :
    let l := run env fresh setup
    let sign := [Call.sess 65538 (.cryptInit .sign (some (.hmac .sha256, .null 0)) 1), .sess 65538 (.crypt (.sign (some [1]) (.buf 32) 0))]
    let look := [readCall 65538 1 [.of .value (List.replicate 16 0)]]
    (replies env l (createCall 65538 (secretWith 0 CKK_GENERIC_SECRET (List.replicate 16 7) plainRest) :: sign)).map (·.out) ≠
      (replies env l (createCall 65538 (secretWith 0 CKK_GENERIC_SECRET (List.replicate 16 8) plainRest) :: sign)).map (·.out) ∧
    (replies env l (createCall 65538 (secretWith 0 CKK_AES (List.replicate 16 7) [.of .extractable [1]]) :: look)).map (·.tmpl) ≠
      (replies env l (createCall 65538 (secretWith 0 CKK_AES (List.replicate 16 8) [.of .extractable [1]]) :: look)).map (·.tmpl) := by
  exact ⟨by decide +kernel, by decide +kernel⟩

/-- The hypothesis `DifferIn` of `c133_silent` is met by the library after the creation and the same library with another key value. -/
example :
    let l := run env fresh (setup ++ [createCall 65538 (secretWith 0 CKK_AES (List.replicate 16 7) plainRest)])
    DifferIn 65538 1 l (l.upd 65538 fun t =>
      { t with objs := t.objs.map fun p => if p.uid = 1 then { (sessObjs l 65538).headD {} with data := .symm (List.replicate 16 8) } else p }) := by
  intro l
  have hs : getSession l 65538 = some (l.sessions.headD ⟨0, .no, [], none, {}, {}⟩) := by decide +kernel
  have ho : ((l.sessions.headD ⟨0, .no, [], none, {}, {}⟩).objs.headD {}) ∈ (l.sessions.headD ⟨0, .no, [], none, {}, {}⟩).objs := by decide +kernel
  have hu : ((l.sessions.headD ⟨0, .no, [], none, {}, {}⟩).objs.headD {}).uid = 1 := by decide +kernel
  refine ⟨_, (l.sessions.headD ⟨0, .no, [], none, {}, {}⟩).objs.headD {}, { (sessObjs l 65538).headD {} with data := .symm (List.replicate 16 8) }, hs, ho, by decide +kernel,
    .inr (by decide +kernel), .inr (by decide +kernel), by decide +kernel, ⟨⟨.symm (List.replicate 16 8), by decide +kernel⟩, ?_⟩, by rw [hu]⟩
  have hd : ((l.sessions.headD ⟨0, .no, [], none, {}, {}⟩).objs.headD {}).data = .symm (List.replicate 16 7) := by decide +kernel
  rw [hd]
  rfl

end Demo

end Verif
