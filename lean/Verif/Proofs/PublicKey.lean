import Verif.Proofs.KeyKept
import Verif.Spec.PublicKey

/-!
# A public key of the token through logins and logouts
-/

namespace Verif

variable {e : Env} {c : Bool}

/-- A public key whose kept form is that of the key; marked as being in clear if `c` says so. -/
structure PubKept (x : StoreExt) (c : Bool) (ov o : Obj) : Prop where
  shown : o.shown = ov
  pub : o.IsPublicKey
  clear : c = true → o.encoded = false
  kept : ∃ b, o.keyBytes x = some b ∧ o.keyData = some b

theorem Obj.IsPublicKey.notSecret {o : Obj} (h : o.IsPublicKey) : o.isSecret = false := by
  obtain ⟨_, h2, h3⟩ := h
  have hc : (o.cls == CKO_PRIVATE_KEY) = false := by rw [h2]; decide
  unfold Obj.isSecret
  rcases h3 with h3 | h3 | h3 <;> rw [hc, h3] <;> decide

theorem PubKept.sealed {x : StoreExt} {ov o : Obj} (h : PubKept x c ov o) (key : Bytes) :
    ∃ b, o.sealedKey x key = some b ∧ o.keyData = some b := by
  obtain ⟨b, hb, hk⟩ := h.kept
  refine ⟨b, ?_, hk⟩
  unfold Obj.sealedKey
  rw [hb, h.pub.notSecret]; rfl

theorem cleared_public {o : Obj} (h : o.IsPublicKey) : cleared o = o := by
  obtain ⟨_, h2, h3⟩ := h
  have hc : o.cls ≠ CKO_PRIVATE_KEY := by rw [h2]; decide
  unfold cleared
  rcases h3 with h3 | h3 | h3
  · rw [if_pos h3, if_neg hc]
  · rw [if_neg (by rw [h3]; decide), if_pos h3, if_neg hc]
  · rw [if_neg (by rw [h3]; decide), if_neg (by rw [h3]; decide), if_pos h3, if_neg hc]

/-- Encoding and clearing leave it as it is. -/
theorem PubKept.encode {x : StoreExt} {ov o : Obj} (h : PubKept x c ov o) (key : Bytes) : encodeObj x key true o = (true, o) := by
  obtain ⟨b, hb, hk⟩ := h.sealed key
  have h1 := encodeKey_isKey h.pub.1 hb
  have h2 : ({ o with keyData := some b } : Obj) = o := by rw [← hk]
  rw [h2] at h1
  unfold encodeObj
  rw [if_neg h.pub.1.1]
  simp only [h1, and_self, if_true, cleared_public h.pub]

/-- So does decoding. -/
theorem PubKept.decode {x : StoreExt} (hx : StoreLaws x) {ov o : Obj} (h : PubKept x c ov o) (key : Bytes) :
    ∃ o', decodeObj x key o = (.ok, o') ∧ PubKept x c ov o' :=
  ⟨_, decodeObj_kept hx h.pub.1 (h.sealed key) rfl rfl rfl rfl (fun _ => ⟨rfl, rfl⟩), h.shown, h.pub, fun _ => rfl, h.kept⟩

theorem stable_pub (x : StoreExt) (ov : Obj) : StoreStable x ov.handle (PubKept x c ov) where
  store := fun k r o i h => by
    obtain ⟨b, _, hk⟩ := h.kept
    rw [storeObj_unchanged x k r hk]; exact h
  handle := fun _ h => by rw [← h.shown]; rfl

theorem decodeAll_pub (hx : StoreLaws e.store) {ov : Obj} (key : Bytes) {os : List Obj}
    (h : Somewhere (PubKept e.store c ov) os) : Somewhere (PubKept e.store c ov) (decodeAll e.store key os).2 := by
  induction os with
  | nil => obtain ⟨p, hp, _⟩ := h; cases hp
  | cons o os ih =>
    obtain ⟨p, hp, hpp⟩ := h
    simp only [decodeAll]
    rcases List.mem_cons.mp hp with rfl | hp
    · obtain ⟨q, h1, h2⟩ := hpp.decode hx key
      rw [h1, if_pos rfl]
      exact ⟨q, List.mem_cons_self, h2⟩
    · split
      · obtain ⟨q, g1, g2⟩ := ih ⟨p, hp, hpp⟩
        exact ⟨q, List.mem_cons_of_mem _ g1, g2⟩
      · exact ⟨p, List.mem_cons_of_mem _ hp, hpp⟩

theorem encodeAll_pub {ov : Obj} (key : Bytes) {os : List Obj}
    (h : Somewhere (PubKept e.store c ov) os) : Somewhere (PubKept e.store c ov) (encodeAll e.store key os) := by
  induction os with
  | nil => obtain ⟨p, hp, _⟩ := h; cases hp
  | cons o os ih =>
    obtain ⟨p, hp, hpp⟩ := h
    simp only [encodeAll]
    rcases List.mem_cons.mp hp with rfl | hp
    · rw [hpp.encode, if_pos rfl]
      exact ⟨p, List.mem_cons_self, hpp⟩
    · split
      · obtain ⟨q, g1, g2⟩ := ih ⟨p, hp, hpp⟩
        exact ⟨q, List.mem_cons_of_mem _ g1, g2⟩
      · exact ⟨p, List.mem_cons_of_mem _ hp, hpp⟩

theorem logout_pub {ov : Obj} (l : Lib) : Carries (PubKept e.store c ov) l (logout e l) := by
  constructor
  intro h
  unfold logout
  dsimp only
  split
  · exact encodeAll_pub _ h
  · exact h

theorem login_pub (hx : StoreLaws e.store) {ov : Obj} (l : Lib) (pin : Bytes) (now : Int) :
    Carries (PubKept e.store c ov) l (userLogin e l pin now).1 := by
  unfold userLogin
  dsimp only
  repeat' split
  all_goals first
    | exact .refl _
    | exact .same rfl
    | exact ⟨fun h => decodeAll_pub hx _ h⟩

/-- Any call that passes the key by. -/
theorem callBody_pub (hx : StoreLaws e.store) {ov : Obj} {l : Lib} (hc : 0 < l.count) (hp : l.PopA) {d : Call}
    (hm : Passes ov.handle l d) : Carries (PubKept e.store c ov) l (callBody e l d).1 ∧ 0 < (callBody e l d).1.count := by
  have hcn : ¬ l.count ≤ 0 := by omega
  have hP := stable_pub (c := c) e.store ov
  cases d with
  | cInit =>
    simp only [callBody, cInitialize]
    rw [if_neg (by omega)]
    exact ⟨.same rfl, by show 0 < l.count + 1; omega⟩
  | cFinal =>
    have hm : l.count ≠ 1 := hm
    simp only [callBody, cFinalize]
    rw [if_neg (by omega)]
    exact ⟨.same rfl, by show 0 < l.count - 1; omega⟩
  | slot id d =>
    simp only [callBody, if_neg hcn]
    split; · exact ⟨.refl _, hc⟩
    cases d with
    | initToken p lb => exact absurd hm (by simp [Passes])
    | tokenInfo p n =>
      simp only [slotCall]
      repeat' split
      all_goals exact ⟨.refl _, hc⟩
    | closeAll => exact ⟨.same rfl, hc⟩
    | openSession rw' ser ptr =>
      simp only [slotCall, openSession]
      repeat' split
      all_goals first | exact ⟨.refl _, hc⟩ | exact ⟨.same rfl, hc⟩
  | sess j d =>
    simp only [callBody, if_neg hcn]
    split; · exact ⟨.refl _, hc⟩
    rename_i s hs
    cases hacc : d.isAccount with
    | false =>
      have hcount : (sessCall e l s d).1.count = l.count :=
        (frame_sessCall e l s d (by rintro rfl; cases hacc)).count
      refine ⟨hP.sessCall hp s hacc ?_ ?_, by rw [hcount]; exact hc⟩
      · rintro i rfl; exact hm
      · rintro i t rfl; exact hm
    | true =>
      cases d <;> first | (cases hacc; done) | skip
      case close =>
        simp only [sessCall, closeSession]
        split
        · exact ⟨.same rfl, hc⟩
        · exact ⟨Carries.trans (b := { l with sessions := closeOne l.sessions s.handle }) (.same rfl) (logout_pub _), hc⟩
      case login u pin now =>
        simp only [sessCall, login]
        split; · exact ⟨.refl _, hc⟩
        split; · exact ⟨.refl _, hc⟩
        split
        · unfold soLogin
          dsimp only
          repeat' split
          all_goals first | exact ⟨.refl _, hc⟩ | exact ⟨.same rfl, hc⟩
        · refine ⟨login_pub hx _ _ _, ?_⟩
          unfold userLogin
          dsimp only
          repeat' split
          all_goals exact hc
        · exact ⟨.refl _, hc⟩
        · exact ⟨.refl _, hc⟩
      case logout => exact ⟨logout_pub _, hc⟩
      case initPin p =>
        simp only [sessCall]
        rcases initPin_spec e l s p with h' | ⟨_, _, h1, h2, h'⟩
        · rw [h'.1]; exact ⟨.refl _, hc⟩
        · rw [h']
          exact ⟨⟨fun hx => hP.objs _ _ hx⟩, hc⟩
      case setPin o n =>
        simp only [sessCall]
        rcases setPin_spec e l s o n with h' | ⟨_, _, _, _, _, h2, ⟨_, _, h'⟩ | ⟨g1, g2, h'⟩⟩
        · rw [h'.1]; exact ⟨.refl _, hc⟩
        · rw [h']
          exact ⟨⟨fun hx => hP.objs _ _ hx⟩, hc⟩
        · rw [h']
          exact ⟨⟨fun hx => hP.objs _ _ hx⟩, hc⟩

theorem run_pub (hx : StoreLaws e.store) (hh : HashLen e) (hr : RandLen e) {ov : Obj} (cs : List Call) :
    ∀ {l : Lib}, Somewhere (PubKept e.store c ov) l.token.objs → 0 < l.count → CapInv l → SInv l → (run e l cs).bad = false →
      Passed e ov.handle l cs → Somewhere (PubKept e.store c ov) (run e l cs).token.objs := by
  induction cs with
  | nil => intro l h _ _ _ _ _; exact h
  | cons d cs ih =>
    intro l h hc hcap hi hgood hm
    have hg1 : (step e l d).1.bad = false := run_good hgood
    have hb := callBody_pub (c := c) hx hc hcap.pop hm.1
    rw [← (step_good hg1).2.2] at hb
    exact ih (hb.1.go h) hb.2 (hcap.step hh hr hi d) (hi.step e d) hgood hm.2

/-- Encoding a public key that can be encoded. -/
theorem encodeKey_public {x : StoreExt} {key : Bytes} {o : Obj} (h : o.IsPublicKey) (hok : (encodeKey x key o).1 = true) :
    ∃ b, o.keyBytes x = some b ∧ encodeKey x key o = (true, { o with keyData := some b }) := by
  have hs := h.notSecret
  cases hb : o.keyBytes x with
  | some b =>
    refine ⟨b, rfl, encodeKey_isKey h.1 ?_⟩
    unfold Obj.sealedKey
    rw [hb, hs]; rfl
  | none =>
    exfalso
    obtain ⟨⟨_, hk⟩, h2, h3⟩ := h
    have hc : o.cls ≠ CKO_PRIVATE_KEY := by rw [h2]; decide
    rcases hk with ⟨ht, _, k, hd, _⟩ | ⟨ht, _, k, hd, _⟩ | ⟨ht, _, k, hd, _⟩ | ⟨ht, _⟩
    · rw [encodeKey, if_pos ht, encodeRsa, if_neg hc, if_pos h2] at hok
      rw [Obj.keyBytes, hd] at hb
      simp only [if_neg hc] at hb
      simp only [Obj.rsa, hd, hb] at hok
      cases hok
    · rw [encodeKey, if_neg (by rw [ht]; decide), if_pos ht, encodeEcc, if_neg hc, if_pos h2] at hok
      rw [Obj.keyBytes, hd] at hb
      simp only [if_neg hc] at hb
      simp only [Obj.ec, hd, hb] at hok
      cases hok
    · rw [Obj.keyBytes, hd] at hb; cases hb
    · rcases ht with ht | ht <;> rw [ht] at h3 <;> revert h3 <;> decide

theorem encodeObj_off (x : StoreExt) (key : Bytes) (o : Obj) :
    ∃ d, (encodeObj x key false o).2 = { o with keyData := d } := by
  unfold encodeObj
  split; · exact ⟨o.keyData, rfl⟩
  dsimp only
  rw [if_neg (by simp)]
  unfold encodeKey encodeRsa encodeEcc encodeDh encodeSymm
  dsimp only
  repeat' split
  all_goals first | exact ⟨_, rfl⟩ | exact ⟨o.keyData, rfl⟩

/-- An object added to the token. -/
theorem add_head {l l' : Lib} {s : Session} {on k : Nat} {o : Obj} (hon : on ≠ 0)
    (hadd : sessAddObject e l s on o = (l', some k)) :
    ∃ p ∈ l'.token.objs, p.handle = k ∧
      (p.IsPublicKey → ∃ b, p.keyBytes e.store = some b ∧ p.keyData = some b) := by
  unfold sessAddObject at hadd
  dsimp only at hadd
  rw [if_pos hon] at hadd
  split at hadd; · cases hadd
  split at hadd
  case isFalse => cases hadd
  rename_i hok
  obtain ⟨d, hd⟩ := encodeObj_off e.store l.token.key { o with onToken := decide (on % 2 = 1), uid := l.uid }
  obtain ⟨h1, h2⟩ := Prod.mk.inj hadd
  have h2 := Option.some.inj h2
  generalize hp : ({ (encodeObj e.store l.token.key false { o with onToken := decide (on % 2 = 1), uid := l.uid }).2 with
    handle := nextHandle l.token.objs on } : Obj) = p at h1
  have hpk : p.handle = k := by rw [← hp]; exact h2
  have hkey : p.IsPublicKey → ∃ b, p.keyBytes e.store = some b ∧ p.keyData = some b := by
    intro hpub
    have hpo : ({ o with onToken := decide (on % 2 = 1), uid := l.uid } : Obj).IsPublicKey := by
      rw [← hp, hd] at hpub; exact hpub
    have hen : encodeObj e.store l.token.key false { o with onToken := decide (on % 2 = 1), uid := l.uid } =
        encodeKey e.store l.token.key { o with onToken := decide (on % 2 = 1), uid := l.uid } := by
      unfold encodeObj
      rw [if_neg hpo.1.1]
      simp
    rw [hen] at hok hp
    obtain ⟨b, hb, hk⟩ := encodeKey_public hpo hok
    rw [hk] at hp
    exact ⟨b, by rw [← hp]; exact hb, by rw [← hp]⟩
  have hs : ∀ r n, ∃ q ∈ (storeObjs e.store l.token.key r (p :: n)).2.1, q.handle = k ∧
      (q.IsPublicKey → ∃ b, q.keyBytes e.store = some b ∧ q.keyData = some b) := by
    intro r n
    refine ⟨(storeObj e.store l.token.key r p n.length).obj, ?_, ?_, ?_⟩
    · simp only [storeObjs]
      split <;> exact List.mem_cons_self
    · have := shown_of_view (storeObj_view e.store l.token.key r p n.length)
      exact (congrArg (fun o : Obj => o.handle) this).trans hpk
    · intro hpub
      have hv := shown_of_view (storeObj_view e.store l.token.key r p n.length)
      have : p.IsPublicKey := by
        have e1 : (storeObj e.store l.token.key r p n.length).obj.shown.IsPublicKey := hpub
        rw [hv] at e1; exact e1
      obtain ⟨b, hb, hk⟩ := hkey this
      rw [storeObj_unchanged e.store l.token.key r hk]
      exact ⟨b, hb, hk⟩
  rw [← h1]
  exact hs _ _

end Verif
