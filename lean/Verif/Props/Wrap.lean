import Verif.Props.Pair
import Verif.Props.CbcBuf
import Verif.Props.StreamHist
import Verif.Spec.Wrap

/-!
# C84, C85: wrapping and unwrapping keys
-/

namespace Verif

open Spec

variable {e : Env}

theorem stripped_pad (m : Bytes) : stripped (pkcs7Pad m) = m := by
  obtain ⟨h1, h2⟩ := pkcs7Pad_length m
  have hs : pkcs7Pad m = (pkcs7Pad m).take ((pkcs7Pad m).length - 16) ++ (pkcs7Pad m).drop ((pkcs7Pad m).length - 16) :=
    (List.take_append_drop _ _).symm
  have hb : ((pkcs7Pad m).drop ((pkcs7Pad m).length - 16)).length = 16 := by rw [List.length_drop]; omega
  obtain ⟨u1, u2⟩ := unpad hb hs.symm
  rw [hs, stripped_block _ _ hb, u1, if_pos (by omega)]
  exact u2

/-- What `C_WrapKey` puts into the buffer. -/
theorem pad_encrypt (x : Crypto) (hx : x.aes.Lawful) {s s1 : OpSt} {o : Obj} {iv m : Bytes} {n rnd : Nat}
    (he : encryptInit s o .aesCbcPad (.raw iv) = (s1, .ok)) (hs : NothingBuffered s)
    (hok : (encrypt x s1 (some o) (some m) (.buf n) rnd).2.rv = .ok) :
    (encrypt x s1 (some o) (some m) (.buf n) rnd).2.wr = (cbcEnc (x.aes.enc o.symm) iv (pkcs7Pad m)).1 := by
  have hd : ∃ t1, decryptInit s o .aesCbcPad (.raw iv) = (t1, .ok) := by
    simp only [encryptInit, decryptInit, cbcInit] at he ⊢
    split at he
    · cases he
    · rename_i h1
      rw [if_neg h1]
      split at he
      · cases he
      · rename_i h2
        rw [if_neg h2]
        split at he
        · cases he
        · exact ⟨_, rfl⟩
  obtain ⟨t1, hd⟩ := hd
  have hn : m.length ≤ n := by
    obtain ⟨rfl, _, _⟩ := cbcInit_ok he
    simp only [encrypt, withArgs, needInit, sized] at hok
    by_cases h : m.length > n
    · simp [h] at hok
    · omega
  exact (c44_single_part x hx s s1 s t1 o o rfl iv m n n rnd rnd hn he hs hd hs).2.1

/-- A successful `C_WrapKey`: the key is an RSA private key and its PKCS#8 form is what is encrypted. -/
theorem wrap_answer {l : Lib} {s : Session} {wk key n : Nat} {iv : Bytes}
    (hok : (cWrap e l s (some (.aesCbcPad, .raw iv)) wk key (.buf n)).2.rv = .ok) :
    ∃ k w der s1, findObj l s key = some k ∧ findObj l s wk = some w ∧ e.pkcs8 k.rsa = some der ∧
      encryptInit s.op w .aesCbcPad (.raw iv) = (s1, .ok) ∧
      (encrypt e.crypto s1 (some w) (some der) (.buf n) 0).2.rv = .ok ∧
      (cWrap e l s (some (.aesCbcPad, .raw iv)) wk key (.buf n)).2 =
        { rv := .ok, out := some (encrypt e.crypto s1 (some w) (some der) (.buf n) 0).2 } := by
  unfold cWrap at hok ⊢
  simp only [reduceCtorEq, if_false] at hok ⊢
  split at hok
  · cases hok
  rename_i h1
  simp only [if_neg h1]
  cases hk : findObj l s key with
  | none => rw [hk] at hok; cases hok
  | some k =>
    rw [hk] at hok
    cases hw : findObj l s wk with
    | none => rw [hw] at hok; cases hok
    | some w =>
      rw [hw] at hok
      simp only at hok ⊢
      split at hok
      · cases hok
      rename_i h2
      simp only [if_neg h2]
      cases hd : e.pkcs8 k.rsa with
      | none => rw [hd] at hok; cases hok
      | some der =>
        rw [hd] at hok
        simp only [ne_eq, not_true_eq_false, if_false] at hok ⊢
        split at hok
        · cases hok
        rename_i h3
        simp only [if_neg h3]
        split at hok
        · rename_i h4; exact absurd hok h4
        rename_i h4
        have h4 : (encryptInit s.op w .aesCbcPad (.raw iv)).2 = .ok := Classical.not_not.mp h4
        simp only [h4, not_true_eq_false, if_false]
        refine ⟨k, w, der, _, rfl, rfl, hd, Prod.ext rfl h4, hok, ?_⟩
        have hok : (encrypt e.crypto (encryptInit s.op w .aesCbcPad (.raw iv)).1 (some w) (some der) (.buf n) 0).2.rv = .ok := hok
        rw [hok]

theorem setAttrs_rv (o : Obj) (t : List Entry) : (setAttrs o t).1 ≠ .wrappedKeyInvalid := by
  induction t generalizing o with
  | nil => simp [setAttrs]
  | cons en t ih =>
    unfold setAttrs
    dsimp only
    split
    · exact ih _
    all_goals simp

theorem checkAttributes_rv (b : Bool) (t : List Entry) : checkAttributes b t ≠ .wrappedKeyInvalid := by
  induction t with
  | nil => simp [checkAttributes]
  | cons en t ih =>
    unfold checkAttributes
    split
    · exact ih
    · unfold checkEntry
      repeat' split
      all_goals simp

theorem newObject_rv (s : Session) (typ cls : Nat) (t : List Entry) :
    (newObject e s typ cls t).1 ≠ .wrappedKeyInvalid := by
  unfold newObject setAttributeValue
  dsimp only
  repeat' split
  all_goals first | exact checkAttributes_rv _ _ | exact setAttrs_rv _ _ | simp

theorem unwrapTemplate_rv (t : List Entry) : unwrapTemplate t ≠ .wrappedKeyInvalid := by
  unfold unwrapTemplate findValidAttr
  repeat' split
  all_goals first | simp | skip
  all_goals
    rename_i h
    repeat' split at h
    all_goals cases h
    all_goals simp

theorem addObject_rv (l : Lib) (s : Session) (t : List Entry) (o : Obj) : (addObject e l s t o).2.rv ≠ .wrappedKeyInvalid := by
  unfold addObject
  split
  · rename_i h; rw [tokenByte_error h]; simp
  · split <;> simp

theorem cbcInit_rv (s : OpSt) (o : Obj) (m : Mech) (p : MechParam) (i : OpInit) : (cbcInit s o m p i).2 ≠ .wrappedKeyInvalid := by
  unfold cbcInit OpSt.started
  repeat' split
  all_goals simp

/-- `AddRSAPrivateKeyObject` with a readable key. -/
theorem rsaPrivate_answer (l : Lib) (s : Session) (t : List Entry) {der : Bytes} {k : RsaKey}
    (hk : e.parsePriv der = some k) :
    (addRsaPrivate e l s t der).2.rv ≠ .wrappedKeyInvalid ∧
    ((addRsaPrivate e l s t der).2.rv = .ok → ∃ o : Obj, (addObject e l s t { o with data := .rsa k }).2.rv = .ok ∧
      (addRsaPrivate e l s t der).1 = (addObject e l s t { o with data := .rsa k }).1 ∧
      (addRsaPrivate e l s t der).2.handle = some ((addObject e l s t { o with data := .rsa k }).2.handle.getD 0)) := by
  unfold addRsaPrivate
  have hn := newObject_rv (e := e) s CKK_RSA CKO_PRIVATE_KEY t
  split
  · rename_i o _
    rw [hk]
    exact ⟨addObject_rv _ _ _ _, fun h => ⟨o, h, rfl, rfl⟩⟩
  · rename_i rv o hne heq
    rw [heq] at hn
    exact ⟨hn, fun h => absurd h hne⟩

/-- `C_UnwrapKey` of bytes whose decryption is known. -/
theorem unwrap_answer {l : Lib} {s : Session} {wk : Nat} {iv d : Bytes} {t : List Entry} {k : RsaKey}
    (hdec : ∀ w s1, findObj l s wk = some w → decryptInit s.op w .aesCbcPad (.raw iv) = (s1, .ok) →
      (decrypt e.crypto s1 (some w) (some d) (.buf 0) 0).2.rv = .ok ∧
      e.parsePriv (decrypt e.crypto s1 (some w) (some d) (.buf 0) 0).2.wr = some k) :
    (cUnwrap e l s (some (.aesCbcPad, .raw iv)) wk (some d) (some t) true).2.rv ≠ .wrappedKeyInvalid ∧
    ((cUnwrap e l s (some (.aesCbcPad, .raw iv)) wk (some d) (some t) true).2.rv = .ok → ∃ (l₀ : Lib) (o : Obj),
      Kept l l₀ ∧ (addObject e l₀ s t { o with data := .rsa k }).2.rv = .ok ∧
      (cUnwrap e l s (some (.aesCbcPad, .raw iv)) wk (some d) (some t) true).1 =
        (addObject e l₀ s t { o with data := .rsa k }).1 ∧
      (cUnwrap e l s (some (.aesCbcPad, .raw iv)) wk (some d) (some t) true).2.handle =
        some ((addObject e l₀ s t { o with data := .rsa k }).2.handle.getD 0)) := by
  unfold cUnwrap
  split
  · exact ⟨by simp, fun h => by cases h⟩
  dsimp only
  split
  · exact ⟨by simp, fun h => by cases h⟩
  cases hw : findObj l s wk with
  | none => exact ⟨by simp, fun h => by cases h⟩
  | some w =>
    dsimp only
    rw [if_neg (by simp)]
    split
    · rename_i h1
      exact ⟨unwrapTemplate_rv t, fun h => absurd h h1⟩
    split
    · exact ⟨by simp, fun h => by cases h⟩
    split
    · rename_i h1
      exact ⟨cbcInit_rv _ _ _ _ _, fun h => absurd h h1⟩
    rename_i h1
    have h1 : (decryptInit s.op w .aesCbcPad (.raw iv)).2 = .ok := Classical.not_not.mp h1
    obtain ⟨g1, g2⟩ := hdec w _ hw (Prod.ext rfl h1)
    rw [if_neg (by rw [g1]; simp)]
    obtain ⟨a, b⟩ := rsaPrivate_answer (e := e) (l.upd s.handle fun u => { u with
      op := (decrypt e.crypto (decryptInit s.op w .aesCbcPad (.raw iv)).1 (some w) (some d) (.buf 0) 0).1, curr := some w.uid }) s t g2
    refine ⟨a, fun h => ?_⟩
    obtain ⟨o, c⟩ := b h
    refine ⟨_, o, ?_, c⟩
    exact .upd _ _ _ (fun _ => rfl)

theorem find_addressed {l : Lib} {h k : Nat} {s : Session} {o : Obj} (hg : getSession l h = some s)
    (ho : findObj l s k = some o) : Addressed l h k o := by
  have hk : o.handle = k := by
    have := List.find?_some ho
    simpa using this
  have hmem := List.mem_of_find?_eq_some ho
  refine ⟨?_, hk⟩
  unfold sessObjs tokenObjs
  rw [hg, List.mem_append]
  split at hmem
  · exact .inr hmem
  · exact .inl hmem

theorem sess_step' {l : Lib} {h : Nat} {c : SessCall} (h1 : (answer e l (.sess h c)).rv ≠ .ub)
    (h2 : (answer e l (.sess h c)).rv ≠ .cryptokiNotInitialized) (h3 : (answer e l (.sess h c)).rv ≠ .sessionHandleInvalid) :
    ∃ s, getSession l h = some s ∧ step e l (.sess h c) = sessCall e l s c := by
  unfold answer at h1 h2 h3
  cases hb : l.bad with
  | true => rw [step_bad hb] at h1; exact absurd rfl h1
  | false =>
    rw [step_resp hb] at h1 h2 h3
    rw [step_eq hb h1]
    simp only [callBody] at h1 h2 h3 ⊢
    split at h2
    · exact absurd rfl h2
    rename_i hc
    rw [if_neg hc] at h3 ⊢
    cases hg : getSession l h with
    | none => rw [hg] at h3; exact absurd rfl h3
    | some s => exact ⟨s, rfl, rfl⟩

/-- C84: what `C_WrapKey` returns gives the same key when `C_UnwrapKey` is called with it, in the
same process or in another one, under an AES key of the same value and with the same IV: it is not
refused as an invalid wrapped key, and the object made has the components of the key that was wrapped.
Missing: sessions that still hold part of a block of an earlier operation (`c84_violated`). -/
theorem c84_partial (hh : HashLen e) (hr : RandLen e) (hx : e.crypto.aes.Lawful) (hp : Pkcs8Lawful e)
    {l₀ l₁ : Lib} (h₀ : Start l₀) (hd : NoToken l₀) (h₁ : Start l₁) (hd₁ : NoToken l₁)
    (cs ds : List Call) (h wk key h' wk' n : Nat) (iv : Bytes) (t : List Entry) (w : Out)
    (hb : BoolToken cs) (hn : 2 * cs.length < 2 ^ 28)
    (hb' : BoolToken (ds ++ [unwrapCall h' wk' iv w.wr t])) (hn' : 2 * (ds.length + 1) < 2 ^ 28)
    (hwrap : answer e (run e l₀ cs) (wrapCall h wk key iv n) = { rv := .ok, out := some w })
    (hE : Emptied (run e l₀ cs) h) (hE' : Emptied (run e l₁ ds) h')
    (hkey : ∀ o o', Addressed (run e l₀ cs) h wk o → Addressed (run e l₁ ds) h' wk' o' → o'.symm = o.symm) :
    (answer e (run e l₁ ds) (unwrapCall h' wk' iv w.wr t)).rv ≠ .wrappedKeyInvalid ∧
    ((answer e (run e l₁ ds) (unwrapCall h' wk' iv w.wr t)).rv = .ok →
      ∃ k q, (answer e (run e l₁ ds) (unwrapCall h' wk' iv w.wr t)).handle = some k ∧
        Addressed (run e l₁ (ds ++ [unwrapCall h' wk' iv w.wr t])) h' k q ∧
        ∀ o, Addressed (run e l₀ cs) h key o → q.rsa = o.rsa) := by
  obtain ⟨hi, hc, hv⟩ := reach_inv hh hr h₀ hd cs hb (by omega)
  have hb1 : BoolToken ds := fun d hd => hb' d (List.mem_append_left _ hd)
  obtain ⟨hi', hc', hv'⟩ := reach_inv hh hr h₁ hd₁ ds hb1 (by omega)
  have hrun : run e l₁ (ds ++ [unwrapCall h' wk' iv w.wr t]) = (step e (run e l₁ ds) (unwrapCall h' wk' iv w.wr t)).1 := by
    rw [run_append]; rfl
  rw [hrun]
  generalize run e l₀ cs = l at *
  generalize run e l₁ ds = m at *
  -- what was wrapped
  obtain ⟨_, hpos, s, hs, hstep⟩ := sess_step (c := .wrap (some (.aesCbcPad, .raw iv)) wk key (.buf n)) (by
    show (answer e l (wrapCall h wk key iv n)).rv = .ok
    rw [hwrap])
  have hcw : (cWrap e l s (some (.aesCbcPad, .raw iv)) wk key (.buf n)).2 = { rv := .ok, out := some w } := by
    rw [← hwrap]
    exact (congrArg Prod.snd hstep).symm
  obtain ⟨k, wo, der, s1, hk, hw, hder, hinit, hok, heq⟩ := wrap_answer (by rw [hcw])
  rw [hcw] at heq
  have hwe : w = (encrypt e.crypto s1 (some wo) (some der) (.buf n) 0).2 := by
    have := congrArg Resp.out heq
    exact Option.some.inj this
  unfold HandleInv at hv hv'
  rw [if_pos hpos] at hv
  obtain ⟨hsh, _, hsm⟩ := getSession_handle hs
  have hct := pad_encrypt e.crypto hx hinit (hE s hsm hsh).1 hok
  rw [← hwe] at hct
  have hwk := hx _ (cbcInit_ok hinit).2.2
  have hiv := (cbcInit_ok hinit).2.1
  have hpl := pkcs7Pad_length der
  have hcl := (cbcEnc_length hwk iv (pkcs7Pad der) hiv).1
  rw [← hct] at hcl
  -- what unwrapping decrypts
  have hdec : ∀ s', getSession m h' = some s' → ∀ wo' s1', findObj m s' wk' = some wo' →
      decryptInit s'.op wo' .aesCbcPad (.raw iv) = (s1', .ok) →
      (decrypt e.crypto s1' (some wo') (some w.wr) (.buf 0) 0).2.rv = .ok ∧
      e.parsePriv (decrypt e.crypto s1' (some wo') (some w.wr) (.buf 0) 0).2.wr = some k.rsa := by
    intro s' hs' wo' s1' hf hi1
    obtain ⟨g1, _, g2⟩ := getSession_handle hs'
    have hsy := hkey wo wo' (find_addressed hs hw) (find_addressed hs' hf)
    have := c66_single_partial e.crypto hx s'.op s1' wo' iv w.wr 0 0 hi1 (hE' s' g2 g1).1
      (by intro h0; rw [h0] at hcl; simp at hcl; omega)
    rw [if_pos (by rw [hcl]; omega)] at this
    refine ⟨this.1, ?_⟩
    rw [this.2, hsy, hct, cbcDec_cbcEnc hwk iv _ hiv hpl.1, stripped_pad]
    exact hp _ _ hder
  refine ⟨fun hbad => ?_, fun hok' => ?_⟩
  · obtain ⟨s', hs', hst⟩ := sess_step' (c := .unwrap (some (.aesCbcPad, .raw iv)) wk' (some w.wr) (some t) true)
      (by show (answer e m (unwrapCall h' wk' iv w.wr t)).rv ≠ _; rw [hbad]; simp)
      (by show (answer e m (unwrapCall h' wk' iv w.wr t)).rv ≠ _; rw [hbad]; simp)
      (by show (answer e m (unwrapCall h' wk' iv w.wr t)).rv ≠ _; rw [hbad]; simp)
    have := (unwrap_answer (t := t) (hdec s' hs')).1
    refine this (Eq.trans ?_ hbad)
    exact (congrArg (fun r : Lib × Resp => r.2.rv) hst).symm
  · obtain ⟨_, hpos', s', hs', hst⟩ := sess_step (c := .unwrap (some (.aesCbcPad, .raw iv)) wk' (some w.wr) (some t) true) hok'
    have hst : step e m (unwrapCall h' wk' iv w.wr t) = cUnwrap e m s' (some (.aesCbcPad, .raw iv)) wk' (some w.wr) (some t) true := hst
    unfold answer at hok' ⊢
    rw [hst] at hok' ⊢
    rw [if_pos hpos'] at hv'
    obtain ⟨l₂, o, hkept, a1, a2, a3⟩ := (unwrap_answer (t := t) (hdec s' hs')).2 hok'
    rw [a2, a3]
    obtain ⟨on, l', kk, t1, a4, a5⟩ := addObject_ok a1
    rw [a5]
    have htok := boolToken_tokOk (c := .unwrap (some (.aesCbcPad, .raw iv)) wk' (some w.wr) (some t) true) hb'
    obtain ⟨s2, g1, g2⟩ := hkept.getSession hs'
    obtain ⟨_, _, g3⟩ := getSession_handle g1
    obtain ⟨_, q2, _⟩ := look_add a4 (hkept.hinv hv') (by omega) (htok t (by simp [SessCall.creates]) _ t1) g1 g3
      (getSession_handle hs').1 g2
    obtain ⟨q, hq, hview⟩ := look_addressed q2
    refine ⟨kk, q, rfl, hq, fun o' ho' => ?_⟩
    have hd1 : q.data = .rsa k.rsa := by have := congrArg (fun o : Obj => o.data) hview; exact this
    have : o' = k := by
      have := addressed_find hv (by omega) hs ho'
      rw [hk] at this; exact (Option.some.inj this).symm
    rw [this, Obj.rsa.eq_def q, hd1]

namespace Demo

/-- An environment whose PKCS#8 form of an RSA key is a byte for each component. -/
def wrapEnv : Env := { env with
  pkcs8 := fun k =>
    if k.isPriv ∧ k.n < 256 ∧ k.e < 256 ∧ k.d < 256 ∧ k.p = 0 ∧ k.q = 0 ∧ k.dP = 0 ∧ k.dQ = 0 ∧ k.u = 0 then
      some [UInt8.ofNat k.n, UInt8.ofNat k.e, UInt8.ofNat k.d] else none
  parsePriv := fun d => match d with
    | [n, e, d] => some { n := n.toNat, e := e.toNat, d := d.toNat, isPriv := true }
    | _ => none }

theorem wrapEnv_lawful : Pkcs8Lawful wrapEnv := by
  intro k d h
  simp only [wrapEnv] at h ⊢
  split at h
  · rename_i hk
    cases h
    obtain ⟨h1, h2, h3, h4, h5, h6, h7, h8, h9⟩ := hk
    obtain ⟨n, e, d, p, q, dP, dQ, u, i⟩ := k
    dsimp only at *
    subst h5 h6 h7 h8 h9 h1
    simp [Nat.mod_eq_of_lt h2, Nat.mod_eq_of_lt h3, Nat.mod_eq_of_lt h4]
  · cases h

/-- An RSA private key and an AES key in the session, in a fresh token. -/
def wrapKeys : List Call := setup ++
  [createCall 65538 [.of .cls (ulong CKO_PRIVATE_KEY), .of .keyType (ulong CKK_RSA), .of .modulus [143],
    .of .publicExponent [7], .of .privateExponent [103]],
   createCall 65538 (aesTmpl false 5)]

/-- The template for unwrapping. -/
def unwrapTmpl : List Entry := [.of .keyType (ulong CKK_RSA), .of .cls (ulong CKO_PRIVATE_KEY)]

/-- What wrapping gives. -/
def wrapped : Bytes := ((answer wrapEnv (run wrapEnv fresh wrapKeys) (wrapCall 65538 2 1 iv 16)).out.map (·.wr)).getD []

end Demo

set_option maxRecDepth 20000 in
/-- The hypotheses of `c84_partial` and both its conclusions, with the session's AES key for both. -/
example : answer Demo.wrapEnv (run Demo.wrapEnv Demo.fresh Demo.wrapKeys) (wrapCall 65538 2 1 Demo.iv 16) =
      { rv := .ok, out := some { rv := .ok, wr := Demo.wrapped, len := some 16 } } ∧
    BoolToken Demo.wrapKeys ∧ Emptied (run Demo.wrapEnv Demo.fresh Demo.wrapKeys) 65538 ∧
    answer Demo.wrapEnv (run Demo.wrapEnv Demo.fresh Demo.wrapKeys) (unwrapCall 65538 2 Demo.iv Demo.wrapped Demo.unwrapTmpl) =
      { rv := .ok, handle := some 3 } ∧
    (sessObjs (run Demo.wrapEnv Demo.fresh (Demo.wrapKeys ++ [unwrapCall 65538 2 Demo.iv Demo.wrapped Demo.unwrapTmpl])) 65538).map
      (fun o => (o.handle, o.rsa.n, o.rsa.d)) = [(3, 143, 103), (2, 0, 0), (1, 143, 103)] := by
  refine ⟨by decide, by unfold BoolToken; decide, by unfold Emptied OpSt.Emptied NothingBuffered; decide, by decide, by decide⟩

set_option maxRecDepth 20000 in
/-- C84 fails: after an encryption that was begun in the session and not finished, `C_WrapKey`
succeeds but encrypts the five bytes of that encryption with the key, so that unwrapping in a session
without any left-over refuses the wrapped key. -/
theorem c84_violated :
    ∃ (e : Env) (l₀ : Lib) (cs : List Call) (w : Out), HashLen e ∧ RandLen e ∧ e.crypto.aes.Lawful ∧ Pkcs8Lawful e ∧
      Start l₀ ∧ NoToken l₀ ∧ BoolToken cs ∧
      answer e (run e l₀ cs) (wrapCall 65538 2 1 Demo.iv 16) = { rv := .ok, out := some w } ∧
      Emptied (run e l₀ Demo.wrapKeys) 65538 ∧
      sessObjs (run e l₀ cs) 65538 = sessObjs (run e l₀ Demo.wrapKeys) 65538 ∧
      (answer e (run e l₀ Demo.wrapKeys) (unwrapCall 65538 2 Demo.iv w.wr Demo.unwrapTmpl)).rv = .wrappedKeyInvalid := by
  refine ⟨Demo.wrapEnv, Demo.fresh, Demo.wrapKeys ++ [.sess 65538 (.cryptInit .encrypt (some (.aesCbc, .raw Demo.iv)) 2),
    .sess 65538 (.crypt (.encryptUpdate (some [1, 2, 3, 4, 5]) (.buf 16)))],
    ⟨.ok, [1, 2, 3, 4, 5, 143, 7, 103, 8, 8, 8, 8, 8, 8, 8, 8], some 16⟩, Demo.hashLen, Demo.randLen, Demo.aes_lawful, Demo.wrapEnv_lawful, Demo.fresh_start, Demo.noToken,
    by unfold BoolToken; decide, by decide, by unfold Emptied OpSt.Emptied NothingBuffered; decide, by decide, by decide⟩

/-- The last entry for `a` in the template gives the number `n`. -/
def LastNumber (t : List Entry) (a : CKA) (n : Nat) : Prop :=
  ∃ en t1 t2, t = t1 ++ en :: t2 ∧ en.typ = a ∧ (∀ e ∈ t2, e.typ ≠ a) ∧ en.mem ≠ none ∧ en.len = 8 ∧ leNat en.val = n

theorem findValidAttr_last {t : List Entry} {a : CKA} {en : Entry} (h : findValidAttr t a 8 = .ok en) :
    LastNumber t a (leNat en.val) := by
  unfold findValidAttr at h
  split at h
  · cases h
  rename_i en' hf
  split at h
  · cases h
  rename_i hc
  cases h
  obtain ⟨hp, as, bs, he, hb⟩ := List.find?_eq_some_iff_append.mp hf
  simp only [Bool.or_eq_true, not_or, Option.isNone_iff_eq_none, bne_iff_ne, ne_eq, Decidable.not_not] at hc
  refine ⟨en, bs.reverse, as.reverse, ?_, by simpa using hp, ?_, hc.1, hc.2, rfl⟩
  · rw [← List.reverse_reverse (as := t), he]; simp
  · intro x hx
    have := hb x (List.mem_reverse.mp hx)
    simpa using this

/-- **C84**, what is refused: `C_UnwrapKey` succeeds only in a read/write session, with an
AES key, and with a template that asks for an RSA private key. -/
theorem c84_unwraps_rsa {l₀ : Lib} (h₀ : Start l₀) (cs : List Call) {h wk : Nat} {m : Mech} {p : MechParam}
    {d : Bytes} {t : List Entry}
    (hok : (answer e (run e l₀ cs) (.sess h (.unwrap (some (m, p)) wk (some d) (some t) true))).rv = .ok) :
    OpenAs e (run e l₀ cs) h true ∧ m = .aesCbcPad ∧ (∃ w, Addressed (run e l₀ cs) h wk w ∧ w.typ = CKK_AES) ∧
    LastNumber t .cls CKO_PRIVATE_KEY ∧ LastNumber t .keyType CKK_RSA := by
  have hi : SInv (run e l₀ cs) := h₀.sinv.run e cs
  generalize run e l₀ cs = l at *
  unfold answer at hok
  cases hb : l.bad with
  | true => rw [step_bad hb] at hok; cases hok
  | false =>
    rw [step_resp hb] at hok
    simp only [callBody] at hok
    split at hok; · cases hok
    split at hok; · cases hok
    rename_i s hs
    simp only [sessCall, cUnwrap] at hok
    split at hok; · cases hok
    rename_i hrw
    split at hok; · cases hok
    split at hok; · cases hok
    rename_i w hw
    split at hok; · cases hok
    rename_i hm
    split at hok
    · rename_i hc; exact absurd hok hc
    rename_i hc
    split at hok; · cases hok
    rename_i hwt
    have hrw' : s.use = .rw := Decidable.not_not.mp hrw
    refine ⟨(openAs_iff hi).mpr ⟨hb, s, hs, by rw [hrw']; rfl⟩, Decidable.not_not.mp hm,
      ⟨w, findObj_addressed hs hw, Decidable.not_not.mp hwt⟩, ?_⟩
    have hc : unwrapTemplate t = .ok := Decidable.not_not.mp hc
    unfold unwrapTemplate at hc
    split at hc
    · rename_i hf
      subst hc
      unfold findValidAttr at hf
      repeat' split at hf
      all_goals cases hf
    rename_i k hk
    split at hc; · cases hc
    split at hc
    · rename_i hf
      subst hc
      unfold findValidAttr at hf
      repeat' split at hf
      all_goals cases hf
    rename_i c hcl
    split at hc; · cases hc
    split at hc; · cases hc
    rename_i hwr
    simp only [wrappable, Bool.not_eq_true', Bool.not_eq_false, Bool.and_eq_true, beq_iff_eq] at hwr
    rw [← hwr.1, ← hwr.2]
    exact ⟨findValidAttr_last hcl, findValidAttr_last hk⟩

/-- What shows the operation of every session but `h`. -/
def otherOp (h : Nat) (s : Session) : Nat × Option OpSt := (s.handle, if s.handle = h then none else some s.op)

theorem otherOp_upd {l : Lib} {h : Nat} {f : Session → Session} (hf : ∀ t, (f t).handle = t.handle) :
    SameAt (otherOp h) l (l.upd h f) := by
  unfold SameAt Lib.upd
  rw [List.map_map]
  refine List.map_congr_left fun t _ => ?_
  simp only [Function.comp]
  split
  · rename_i he
    have he : t.handle = h := by simpa using he
    simp [otherOp, hf, he]
  · rfl

theorem otherOp_objs (h : Nat) : NoObjs (otherOp h) := fun _ _ => rfl

theorem operation_other {l l' : Lib} {h h' : Nat} (hs : SameAt (otherOp h) l l') (hne : h' ≠ h) :
    operation l' h' = operation l h' := by
  unfold SameAt at hs
  unfold operation
  generalize l.sessions = a at hs ⊢
  generalize l'.sessions = b at hs ⊢
  induction a generalizing b with
  | nil => cases b with
    | nil => rfl
    | cons y b => simp at hs
  | cons x a ih => cases b with
    | nil => simp at hs
    | cons y b =>
      simp only [List.map_cons, List.cons.injEq, otherOp, Prod.mk.injEq] at hs
      obtain ⟨⟨h1, h2⟩, h3⟩ := hs
      rw [List.find?_cons, List.find?_cons, h1]
      by_cases hx : x.handle = h'
      · have : x.handle ≠ h := by rw [hx]; exact hne
        rw [h1, if_neg this, if_neg this] at h2
        simp only [hx, beq_self_eq_true, Option.map_some]
        exact h2
      · simp only [beq_eq_false_iff_ne.mpr hx]
        exact ih b h3

theorem otherOp_sessCall {l : Lib} {s : Session} {c : SessCall} (hc : c.Wraps) :
    SameAt (otherOp s.handle) l (sessCall e l s c).1 := by
  cases c <;> simp only [SessCall.Wraps] at hc
  case wrap m wk key ob =>
    show SameAt _ l (cWrap e l s m wk key ob).1
    unfold cWrap
    dsimp only
    repeat' split
    all_goals first | exact .of rfl | exact otherOp_upd fun _ => rfl
  case unwrap m wk d t p =>
    show SameAt _ l (cUnwrap e l s m wk d t p).1
    have h1 : ∀ (l : Lib) (t : List Entry) (d : Bytes), SameAt (otherOp s.handle) l (addRsaPrivate e l s t d).1 := by
      intro l t d
      unfold addRsaPrivate
      repeat' split
      all_goals first | exact .of rfl | exact same_addObject (otherOp_objs _) ..
    unfold cUnwrap
    dsimp only
    repeat' split
    all_goals first
      | exact .of rfl
      | exact otherOp_upd fun _ => rfl
      | exact SameAt.trans (otherOp_upd (by intro _; rfl)) (h1 ..)

theorem upd_self {l : Lib} {s : Session} (hi : SInv l) (hs : s ∈ l.sessions) :
    (l.upd s.handle fun u => { u with op := s.op }).sessions = l.sessions := by
  have : ∀ t ∈ l.sessions, (if t.handle = s.handle then { t with op := s.op } else t) = id t := by
    intro t ht
    split
    · rename_i he
      have h1 := (find_iff hi.nodup).mpr ⟨ht, rfl⟩
      have h2 := (find_iff hi.nodup).mpr ⟨hs, rfl⟩
      rw [he, h2] at h1
      cases h1; rfl
    · rfl
  exact (List.map_congr_left this).trans (List.map_id _)

theorem cbcInit_fail {s : OpSt} {o : Obj} {m : Mech} {p : MechParam} {i : OpInit} (h : (cbcInit s o m p i).2 ≠ .ok)
    (hr : RefusesArguments (cbcInit s o m p i).2) : (cbcInit s o m p i).1 = s := by
  unfold cbcInit OpSt.started at h hr ⊢
  repeat' split at h
  all_goals first
    | (exfalso; simp_all [RefusesArguments]; done)
    | simp_all

theorem refused_newObject {s : Session} {t : List Entry} (hu : s.use = .rw) :
    ¬ RefusesArguments (newObject e s CKK_RSA CKO_PRIVATE_KEY t).1 := by
  have h1 : ∀ (t : List Entry) (o : Obj), ¬ RefusesArguments (setAttrs o t).1 := by
    intro t
    induction t with
    | nil => intro o; simp [setAttrs, RefusesArguments]
    | cons en t ih =>
      intro o
      unfold setAttrs
      dsimp only
      split
      · exact ih _
      all_goals simp [RefusesArguments]
  have h2 : ∀ t : List Entry, ¬ RefusesArguments (checkAttributes true t) := by
    intro t
    induction t with
    | nil => simp [checkAttributes, RefusesArguments]
    | cons en t ih =>
      unfold checkAttributes
      split
      · exact ih
      · unfold checkEntry
        repeat' split
        all_goals simp [RefusesArguments]
  unfold newObject setAttributeValue
  rw [hu]
  dsimp only
  split
  · rename_i h; simp at h
  split
  · exact h2 t
  split
  · rename_i h
    simp [keyParams, newObj, CKO_PRIVATE_KEY, CKO_CERTIFICATE] at h
  split
  · simp [RefusesArguments]
  split
  · exact h1 _ _
  all_goals simp [RefusesArguments]

theorem refused_encrypt {x : Crypto} {s s1 : OpSt} {o : Obj} {p : MechParam} {m : Bytes} {ob : OutBuf} {rnd : Nat}
    (he : encryptInit s o .aesCbcPad p = (s1, .ok)) (ho : ob ≠ .noLen) :
    ¬ RefusesArguments (encrypt x s1 (some o) (some m) ob rnd).2.rv := by
  have h1 : s1.mech = .aesCbcPad ∧ s1.init = .aesCbcPadEnc := by
    simp only [encryptInit, cbcInit, OpSt.started] at he
    repeat' split at he
    all_goals cases he
    exact ⟨rfl, rfl⟩
  simp only [encrypt, withArgs, needInit, h1.1, h1.2, sized, finish]
  cases ob with
  | noLen => exact absurd rfl ho
  | query n => simp [RefusesArguments]
  | buf n =>
    simp only [reduceCtorEq, if_false, if_true]
    split <;> simp [RefusesArguments]

theorem refused_decrypt {x : Crypto} {s s1 : OpSt} {o : Obj} {p : MechParam} {m : Bytes} {n rnd : Nat}
    (he : decryptInit s o .aesCbcPad p = (s1, .ok)) :
    ¬ RefusesArguments (decrypt x s1 (some o) (some m) (.buf n) rnd).2.rv := by
  have h1 : s1.mech = .aesCbcPad ∧ s1.init = .aesCbcPadDec := by
    simp only [decryptInit, cbcInit, OpSt.started] at he
    repeat' split at he
    all_goals cases he
    exact ⟨rfl, rfl⟩
  simp only [decrypt, withArgs, needInit, h1.1, h1.2, finish, reduceCtorEq, if_false, if_true]
  split <;> simp [RefusesArguments]

theorem refused_addRsa {l : Lib} {s : Session} {t : List Entry} {d : Bytes} (hu : s.use = .rw) :
    ¬ RefusesArguments (addRsaPrivate e l s t d).2.rv := by
  unfold addRsaPrivate
  have h := refused_newObject (e := e) (t := t) hu
  split
  · split
    · simp [RefusesArguments]
    · dsimp only
      unfold addObject
      split
      · rename_i h; rw [tokenByte_error h]; simp [RefusesArguments]
      · split <;> simp [RefusesArguments]
  · rename_i rv o _ heq
    rw [heq] at h; exact h

/-- A call that refuses its arguments leaves the sessions alone. -/
theorem refused_sessCall {l : Lib} {s : Session} {c : SessCall} (hi : SInv l) (hs : s ∈ l.sessions) (hc : c.Wraps)
    (hr : RefusesArguments (sessCall e l s c).2.rv) : (sessCall e l s c).1.sessions = l.sessions := by
  cases c <;> simp only [SessCall.Wraps] at hc
  case wrap m wk key ob =>
    change RefusesArguments (cWrap e l s m wk key ob).2.rv at hr
    show (cWrap e l s m wk key ob).1.sessions = _
    unfold cWrap at hr ⊢
    split
    · rfl
    rename_i m p
    dsimp only at hr ⊢
    split
    · rfl
    rename_i h1
    rw [if_neg h1] at hr
    split
    · rfl
    rename_i h2
    rw [if_neg h2] at hr
    cases hk : findObj l s key with
    | none => rfl
    | some k =>
      rw [hk] at hr
      cases hw : findObj l s wk with
      | none => rfl
      | some w =>
        rw [hw] at hr
        dsimp only at hr ⊢
        split
        · rfl
        rename_i h3
        rw [if_neg h3] at hr
        cases hd : e.pkcs8 k.rsa with
        | none => rfl
        | some der =>
          rw [hd] at hr
          dsimp only at hr ⊢
          split
          · rfl
          rename_i h4
          rw [if_neg h4] at hr
          have h4 : m = .aesCbcPad := Classical.not_not.mp h4
          subst h4
          split
          · rfl
          rename_i h5
          rw [if_neg h5] at hr
          split
          · rename_i h6
            rw [if_pos h6] at hr
            rw [show (encryptInit s.op w .aesCbcPad p).1 = s.op from cbcInit_fail h6 hr]
            exact upd_self hi hs
          · rename_i h6
            rw [if_neg h6] at hr
            exact absurd hr (refused_encrypt (Prod.ext rfl (Classical.not_not.mp h6)) h1)
  case unwrap m wk d t p =>
    change RefusesArguments (cUnwrap e l s m wk d t p).2.rv at hr
    show (cUnwrap e l s m wk d t p).1.sessions = _
    unfold cUnwrap at hr ⊢
    split
    · rfl
    rename_i h1
    rw [if_neg h1] at hr
    split
    · rename_i m p d t
      dsimp only at hr ⊢
      split
      · rfl
      rename_i h2
      rw [if_neg h2] at hr
      cases hw : findObj l s wk with
      | none => rfl
      | some w =>
        rw [hw] at hr
        dsimp only at hr ⊢
        split
        · rfl
        rename_i h4
        rw [if_neg h4] at hr
        have h4 : m = .aesCbcPad := Classical.not_not.mp h4
        subst h4
        split
        · rfl
        rename_i h5
        rw [if_neg h5] at hr
        split
        · rfl
        rename_i h6
        rw [if_neg h6] at hr
        split
        · rename_i h7
          rw [if_pos h7] at hr
          rw [show (decryptInit s.op w .aesCbcPad p).1 = s.op from cbcInit_fail h7 hr]
          exact upd_self hi hs
        rename_i h7
        rw [if_neg h7] at hr
        split
        · rename_i h8
          rw [if_pos h8] at hr
          exact absurd hr (refused_decrypt (Prod.ext rfl (Classical.not_not.mp h7)))
        · rename_i h8
          rw [if_neg h8] at hr
          exact absurd hr (refused_addRsa (Classical.not_not.mp h1))
    · rfl

/-- C85: `C_WrapKey` and `C_UnwrapKey` do not disturb the operations running in other sessions, nor
the one of the session itself when they refuse their arguments.
Missing: the operation of the session itself otherwise (`c85_violated`). -/
theorem c85_partial {l₀ : Lib} (h₀ : Start l₀) (cs : List Call) (h : Nat) (c : SessCall) (hc : c.Wraps) :
    (∀ h', h' ≠ h → operation (run e l₀ (cs ++ [.sess h c])) h' = operation (run e l₀ cs) h') ∧
    (RefusesArguments (answer e (run e l₀ cs) (.sess h c)).rv →
      operation (run e l₀ (cs ++ [.sess h c])) h = operation (run e l₀ cs) h) := by
  have hi := h₀.sinv.run e cs
  have hrun : run e l₀ (cs ++ [.sess h c]) = (step e (run e l₀ cs) (.sess h c)).1 := by rw [run_append]; rfl
  rw [hrun]
  generalize run e l₀ cs = l at *
  cases hb : l.bad with
  | true => rw [step_bad hb]; exact ⟨fun _ _ => rfl, fun _ => rfl⟩
  | false =>
    unfold operation answer
    rw [(step_sessions hb _).1, step_resp hb]
    show (∀ h', h' ≠ h → operation (callBody e l (.sess h c)).1 h' = operation l h') ∧
      (_ → operation (callBody e l (.sess h c)).1 h = operation l h)
    simp only [callBody]
    split
    · exact ⟨fun _ _ => rfl, fun _ => rfl⟩
    split
    · exact ⟨fun _ _ => rfl, fun _ => rfl⟩
    rename_i s hs
    obtain ⟨g1, _, g2⟩ := getSession_handle hs
    refine ⟨fun h' hne => operation_other (by have := otherOp_sessCall (e := e) (l := l) (s := s) hc; rwa [g1] at this) hne,
      fun hr => ?_⟩
    unfold operation
    rw [refused_sessCall hi g2 hc hr]

set_option maxRecDepth 20000 in
/-- C85 fails: an HMAC signature was begun in the session; `C_WrapKey` succeeds, and the signature
cannot be finished any more. -/
theorem c85_violated :
    ∃ (e : Env) (l₀ : Lib) (cs : List Call) (c d : Call), Start l₀ ∧ NoToken l₀ ∧ BoolToken cs ∧
      c = wrapCall 65538 2 1 Demo.iv 16 ∧ d = .sess 65538 (.crypt (.signFinal (.buf 64))) ∧
      (answer e (run e l₀ cs) c).rv = .ok ∧ (answer e (run e l₀ cs) d).rv = .ok ∧
      (answer e (run e l₀ (cs ++ [c])) d).rv = .mechanismInvalid := by
  refine ⟨Demo.wrapEnv, Demo.fresh, Demo.wrapKeys ++
    [createCall 65538 [.of .cls (ulong CKO_SECRET_KEY), .of .keyType (ulong CKK_GENERIC_SECRET), .of .value [1, 2, 3]],
     .sess 65538 (.cryptInit .sign (some (.hmac .sha256, .null 0)) 3), .sess 65538 (.crypt (.signUpdate (some [1])))],
    _, _, Demo.fresh_start, Demo.noToken, by unfold BoolToken; decide, rfl, rfl, by decide, by decide, by decide⟩

set_option maxRecDepth 20000 in
/-- A refused call while an encryption runs. -/
example :
    let cs := Demo.wrapKeys ++ [.sess 65538 (.cryptInit .encrypt (some (.aesCbc, .raw Demo.iv)) 2)]
    RefusesArguments (answer Demo.wrapEnv (run Demo.wrapEnv Demo.fresh cs) (wrapCall 65538 9 1 Demo.iv 16)).rv ∧
    (operation (run Demo.wrapEnv Demo.fresh cs) 65538).map (·.init) = some .aesCbcEnc := by
  unfold RefusesArguments; decide

end Verif
