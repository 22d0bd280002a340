import Verif.Spec.Endured
import Verif.Props.ImportPair
import Verif.Props.Imported

/-!
# C141: RSA and EC keys that an orderly application imports onto the token work at any later time
-/

namespace Verif

variable {e : Env}

/-- Importing a key onto the token, and using it at any later time. -/
theorem import_endured (hx : StoreLaws e.store) (hse : SealLen e) (hh : HashLen e) (hr : RandLen e) {l₀ : Lib} (h₀ : Start l₀)
    (hd : NoToken l₀) (cs : List Call) (h : Nat) (ho : stateOf e (run e l₀ cs) h = some .rwUser) {t : List Entry} {o₀ : Obj}
    (hcr : ∀ s : Session, s.use = .rw → createObject e s t = (.ok, o₀)) (hon : tokenByte t 0 = .ok 1)
    (henc : ∀ key b u, (encodeObj e.store key false { o₀ with onToken := b, uid := u }).1 = true)
    (hcls : o₀.cls ≠ CKO_CERTIFICATE) (hroom : (tokenObjs (run e l₀ cs)).length < 64) :
    ∃ κ, answer e (run e l₀ cs) (createCall h t) = { rv := .ok, handle := some κ } ∧
      ∀ now h', Endured e l₀ cs h t κ now h' → ∀ (kd : Kind) (m : Mech) (p : MechParam),
        (∀ s o, o.typ = o₀.typ → o.data = o₀.data → (initCall e.crypto kd s o m p).2 = .ok) →
        answer e (run e l₀ now) (initOf h' kd m p κ) = { rv := .ok } ∧
        ∀ later, Going e l₀ now h' κ kd m p later → OnKey e (run e l₀ later) h' kd m p o₀.data := by
  have hi := h₀.sinv.run e cs
  obtain ⟨s, hs, hb, hc, hlg⟩ := user_of_state hi (.inl ho)
  have hu : s.use = .rw := by
    rw [stateOf_eq hi hb hs] at ho
    unfold sessState at ho
    rw [hlg] at ho
    by_cases hw : s.use = .rw
    · exact hw
    · simp [hw] at ho
  obtain ⟨κ, l', hstep, hb', hc', hlog, s', o, hs', hmem, hk, h1, h2, h3⟩ := import_ok (e := e) hb hc hs hu true
    (hcr s hu) (by simpa using hon) (fun _ => henc) hroom
  refine ⟨κ, by unfold answer; rw [hstep], ?_⟩
  rintro now h' ⟨⟨mid, rfl, hmid⟩, hord, hbt, hlen, hclock, hgood, hu'⟩ kd m p hfit
  have hrun1 : run e l₀ (cs ++ [createCall h t]) = l' := by
    rw [run_append]; simp only [run, hstep]
  have hsplit : cs ++ createCall h t :: mid = (cs ++ [createCall h t]) ++ mid := by simp
  rw [hsplit] at hord hbt hlen hclock hgood hu' ⊢
  have hb1 : BoolToken (cs ++ [createCall h t]) := fun d hd => hbt d (List.mem_append_left _ hd)
  have hn1 : 2 * (cs ++ [createCall h t]).length < 2 ^ 28 := by
    rw [List.length_append] at hlen; omega
  obtain ⟨i1, i2, i3⟩ := reach_inv hh hr h₀ hd _ hb1 hn1
  rw [hrun1] at i1 i2 i3
  unfold HandleInv at i3
  rw [if_pos hc'] at i3
  simp only [if_true] at hmem
  have had : Addressed l' h κ o := ⟨List.mem_append_right _ hmem, hk⟩
  have hrg := i3.tok.range o.hb (List.mem_map.mpr ⟨o, hmem, rfl⟩)
  have hon : handleOnToken κ = true := by
    simp only [Obj.hb, hk] at hrg
    exact tok_handle hrg.1 (by omega)
  have hus : UserIn e l' h := by
    unfold UserIn
    rw [stateOf_eq i1 hb' hs']
    unfold sessState
    rw [hlog, hlg]
    by_cases hw : s'.use = .rw <;> simp [hw]
  rw [← hrun1] at had hus
  obtain ⟨⟨o', had', hsh⟩, -, -⟩ := c125_kept hx hse hh hr h₀ hd _ mid h h' κ o hbt hlen hclock hord hus had hon hmid hgood hu'
  have t1 : o'.typ = o₀.typ := (congrArg (·.typ) hsh :).trans h1
  have t2 : o'.cls = o₀.cls := (congrArg (·.cls) hsh :).trans h2
  have t3 : o'.data = o₀.data := (congrArg (·.data) hsh :).trans h3
  obtain ⟨k1, _, k3⟩ := reach_inv hh hr h₀ hd _ hbt hlen
  obtain ⟨sm, hsm, hgm, hcm, _⟩ := user_of_state k1 hu'
  unfold HandleInv at k3
  rw [if_pos hcm] at k3
  have hfind := addressed_find k3 hlen hsm had'
  have hinit : answer e (run e l₀ ((cs ++ [createCall h t]) ++ mid)) (initOf h' kd m p κ) = { rv := .ok } := by
    generalize hL : run e l₀ ((cs ++ [createCall h t]) ++ mid) = L at *
    have hbody : (callBody e L (.sess h' (.cryptInit kd (some (m, p)) κ))).2 = { rv := .ok } := by
      have hc0 : ¬ L.count ≤ 0 := by omega
      have : ¬ ((initCall e.crypto kd sm.op o' m p).2 = .ok ∧ o'.cls = CKO_CERTIFICATE) := by
        rintro ⟨_, hx⟩; rw [t2] at hx; exact hcls hx
      simp only [callBody, if_neg hc0, hsm, sessCall, cCryptInit, hfind]
      rw [if_neg this, hfit sm.op o' t1 t3]
    unfold answer initOf
    rw [step_eq hgm (by rw [hbody]; simp)]
    exact hbody
  refine ⟨hinit, ?_⟩
  rintro later ⟨⟨cs', rfl, hcs'⟩, hgd⟩
  obtain ⟨sx, ox, st, g1, g2, g3, g4⟩ := one_shot_at hh hr h₀ hd _ cs' h' κ kd m p (by rw [hinit]) hcs' hgd
  obtain rfl : ox = o' := addressed_unique k3 hlen hsm g2 had'
  exact ⟨_, ox, st, t3, g3, g4⟩

theorem half_endured (hx : StoreLaws e.store) (hse : SealLen e) (hh : HashLen e) (hr : RandLen e) {l₀ : Lib} (h₀ : Start l₀)
    (hd : NoToken l₀) (cs : List Call) (h : Nat) (ho : stateOf e (run e l₀ cs) h = some .rwUser) (A : Half) {k : KeyData}
    (hk : A.Makes e.key k) (hs : A.Stores e.store k) (hroom : (tokenObjs (run e l₀ cs)).length < 64) :
    ∃ κ, answer e (run e l₀ cs) (createCall h (A.tmpl true)) = { rv := .ok, handle := some κ } ∧
      ∀ now h', Endured e l₀ cs h (A.tmpl true) κ now h' → ∀ kd m p, A.For kd m → ParamOk m p →
        answer e (run e l₀ now) (initOf h' kd m p κ) = { rv := .ok } ∧
        ∀ later, Going e l₀ now h' κ kd m p later → OnKey e (run e l₀ later) h' kd m p k := by
  have hc : (A.obj k).cls ≠ CKO_CERTIFICATE := A.not_cert
  obtain ⟨κ, h1, h2⟩ := import_endured hx hse hh hr h₀ hd cs h ho (fun s hu => createObject_half hu A true hk)
    (by cases A <;> rfl) (fun key b u => half_encode A hs key b u) hc hroom
  exact ⟨κ, h1, fun now h' hn kd m p hf hp => h2 now h' hn kd m p (fun s o ht _ => half_init e.crypto A hf hp s o ht)⟩

/-- **C141** for RSA and EC keys: importing one onto the token succeeds, and at any later time at which the user is logged
in, if it has not been destroyed, every operation the type of key is for can be begun with it, in any session.  An RSA key
then gives what RSA gives under the imported numbers, and nothing if RSA gives nothing. -/
theorem c141_imported (hx : StoreLaws e.store) (hse : SealLen e) (hh : HashLen e) (hr : RandLen e) {l₀ : Lib} (h₀ : Start l₀)
    (hd : NoToken l₀) (cs : List Call) (h : Nat) (ho : stateOf e (run e l₀ cs) h = some .rwUser) (A : Half) (k : KeyData)
    (hk : A.Makes e.key k) (hs : A.Stores e.store k) (hroom : (tokenObjs (run e l₀ cs)).length < 64) :
    ∃ κ, answer e (run e l₀ cs) (createCall h (A.tmpl true)) = { rv := .ok, handle := some κ } ∧
      ∀ now h', Endured e l₀ cs h (A.tmpl true) κ now h' → ∀ kd m p, A.For kd m → ParamOk m p →
        answer e (run e l₀ now) (.sess h' (.cryptInit kd (some (m, p)) κ)) = { rv := .ok } ∧
        ∀ later, Going e l₀ now h' κ kd m p later → kd ≠ .verify → m ≠ .ecdsa → ∀ r, k = .rsa r → ∀ inp n rnd w, r.keyLen ≤ n →
          (answer e (run e l₀ later) (goCall h' n rnd inp kd) = wrote w ↔ rsaOut e.crypto.rsa r rnd inp kd m p = some w) := by
  obtain ⟨κ, h1, h2⟩ := half_endured hx hse hh hr h₀ hd cs h ho A hk hs hroom
  refine ⟨κ, h1, fun now h' hn kd m p hf hp => ?_⟩
  obtain ⟨g1, g2⟩ := h2 now h' hn kd m p hf hp
  refine ⟨g1, fun later hla hv hm r hkr inp n rnd w hl => ?_⟩
  subst hkr
  exact onKey_rsa (g2 later hla) hf hp hv hm hl

/-- The key is what was imported. -/
theorem endured_going (hx : StoreLaws e.store) (hse : SealLen e) (hh : HashLen e) (hr : RandLen e) {l₀ : Lib} (h₀ : Start l₀)
    (hd : NoToken l₀) {cs : List Call} {h κ : Nat} (ho : stateOf e (run e l₀ cs) h = some .rwUser) {A : Half} {k : KeyData}
    (hk : A.Makes e.key k) (hs : A.Stores e.store k) (hroom : (tokenObjs (run e l₀ cs)).length < 64)
    (hmade : answer e (run e l₀ cs) (createCall h (A.tmpl true)) = { rv := .ok, handle := some κ }) {now : List Call} {h' : Nat}
    (hn : Endured e l₀ cs h (A.tmpl true) κ now h') {kd : Kind} {m : Mech} {p : MechParam} (hf : A.For kd m) (hp : ParamOk m p)
    {later : List Call} (hla : Going e l₀ now h' κ kd m p later) : OnKey e (run e l₀ later) h' kd m p k := by
  obtain ⟨κ', h1, h2⟩ := half_endured hx hse hh hr h₀ hd cs h ho A hk hs hroom
  have : κ' = κ := by
    rw [hmade] at h1
    exact (Option.some.inj (congrArg Resp.handle h1 :)).symm
  subst this
  exact (h2 now h' hn kd m p hf hp).2 later hla

/-- **C141** for signatures: what is signed at any later time with a private key that was imported onto the token is
accepted by everybody who imports the public key, in whatever process and after whatever history.
Missing: plain RSA with data shorter than the key (`c51_violated_refused`). -/
theorem c141_sign_partial (hx : StoreLaws e.store) (hse : SealLen e) (hl : e.crypto.rsa.Lawful) (hh : HashLen e) (hr : RandLen e)
    -- the private half is imported, and data is signed with it
    {l₀ : Lib} (h₀ : Start l₀) (hd₀ : NoToken l₀) (cs : List Call) (h κ : Nat) (ho : stateOf e (run e l₀ cs) h = some .rwUser)
    (A : Half) (a : KeyData) (hA : A.Makes e.key a) (hsA : A.Stores e.store a) (hroom : (tokenObjs (run e l₀ cs)).length < 64)
    (hmade : answer e (run e l₀ cs) (createCall h (A.tmpl true)) = { rv := .ok, handle := some κ })
    (now later : List Call) (j : Nat) (hn : Endured e l₀ cs h (A.tmpl true) κ now j) (m : Mech) (p : MechParam) (hfA : A.For .sign m)
    (hp : ParamOk m p) (hla : Going e l₀ now j κ .sign m p later) (d : Bytes) (n rnd : Nat) (w : Bytes)
    (hraw : m = .rsaX509 → d.length = (Obj.rsa { data := a }).keyLen ∧ d.length < 2 ^ 31)
    (hsig : answer e (run e l₀ later) (.sess j (.crypt (.sign (some d) (.buf n) rnd))) = wrote w)
    -- the public half is imported, and the signature is checked with it
    {l₁ : Lib} (h₁ : Start l₁) (hd₁ : NoToken l₁) (cs' : List Call) (h' κ' : Nat) (tok' : Bool) (B : Half) (b : KeyData)
    (hB : B.Makes e.key b) (hsB : tok' = true → B.Stores e.store b)
    (hmade' : answer e (run e l₁ cs') (createCall h' (B.tmpl tok')) = { rv := .ok, handle := some κ' })
    (now' later' : List Call) (hn' : Since e l₁ cs' h' (B.tmpl tok') κ' now') (hfB : B.For .verify m)
    (hla' : Going e l₁ now' h' κ' .verify m p later')
    -- the two belong together
    (hpair : KeyPair e.crypto m { data := a } { data := b }) :
    (answer e (run e l₁ later') (.sess h' (.crypt (.verify (some d) (some w))))).rv = .ok :=
  onKey_sign hl (endured_going hx hse hh hr h₀ hd₀ ho hA hsA hroom hmade hn hfA hp hla)
    (half_going hh hr h₁ hd₁ hB hsB hmade' hn' hfB hp hla') hraw hsig hpair

/-- **C141** for encryption: what anybody encrypts with the public key is decrypted at any later time with the private key
that was imported onto the token. -/
theorem c141_decrypt (hx : StoreLaws e.store) (hse : SealLen e) (hh : HashLen e) (hr : RandLen e)
    -- the public half is imported, and data is encrypted with it
    {l₁ : Lib} (h₁ : Start l₁) (hd₁ : NoToken l₁) (cs' : List Call) (h' κ' : Nat) (tok' : Bool) (B : Half) (b : RsaKey)
    (hB : B.Makes e.key (.rsa b)) (hsB : tok' = true → B.Stores e.store (.rsa b))
    (hmade' : answer e (run e l₁ cs') (createCall h' (B.tmpl tok')) = { rv := .ok, handle := some κ' })
    (now' later' : List Call) (hn' : Since e l₁ cs' h' (B.tmpl tok') κ' now') (m : Mech) (p : MechParam) (hfB : B.For .encrypt m)
    (hp : ParamOk m p) (hla' : Going e l₁ now' h' κ' .encrypt m p later') (d : Bytes) (n rnd : Nat) (w : Bytes)
    (henc : answer e (run e l₁ later') (.sess h' (.crypt (.encrypt (some d) (.buf n) rnd))) = wrote w)
    -- the private half is imported, and the ciphertext is decrypted with it
    {l₀ : Lib} (h₀ : Start l₀) (hd₀ : NoToken l₀) (cs : List Call) (h κ : Nat) (ho : stateOf e (run e l₀ cs) h = some .rwUser)
    (A : Half) (a : RsaKey) (hA : A.Makes e.key (.rsa a)) (hsA : A.Stores e.store (.rsa a))
    (hfree : (tokenObjs (run e l₀ cs)).length < 64)
    (hmade : answer e (run e l₀ cs) (createCall h (A.tmpl true)) = { rv := .ok, handle := some κ })
    (now later : List Call) (j : Nat) (hn : Endured e l₀ cs h (A.tmpl true) κ now j) (hfA : A.For .decrypt m)
    (hla : Going e l₀ now j κ .decrypt m p later) (n' rnd' : Nat) (hroom : a.keyLen ≤ n')
    (hraw : m = .rsaX509 → d.length = a.keyLen)
    -- the two belong together
    (hpair : RsaPair e.crypto.rsa a b) :
    answer e (run e l₀ later) (.sess j (.crypt (.decrypt (some w) (.buf n') rnd'))) = wrote d :=
  onKey_decrypt hfB (endured_going hx hse hh hr h₀ hd₀ ho hA hsA hfree hmade hn hfA hp hla)
    (half_going hh hr h₁ hd₁ hB hsB hmade' hn' hfB hp hla') henc hroom hraw hpair

/-! ## A case -/

namespace Demo

/-- The imported RSA key. -/
def halfKey : RsaKey := { n := 271, e := 65537, d := 3, p := 3, q := 5, dP := 1, dQ := 1, u := 2, isPriv := true }

/-- An environment that can encode it. -/
def halfEnv : Env := { pairEnv with
  store := { store with
    rsaToDer := fun k => if k = halfKey then some [1] else none
    rsaOfDer := fun d => if d = [1] then some halfKey else none } }

theorem halfEnv_laws : StoreLaws halfEnv.store where
  cipher := store_laws.cipher
  tag := store_laws.tag
  rsa k d h := by
    simp only [halfEnv] at h ⊢
    split at h
    · rename_i hk; cases h; simp [hk]
    · cases h
  rsaPub := store_laws.rsaPub
  ec := store_laws.ec
  ecPub := store_laws.ecPub
  dh := store_laws.dh

theorem halfEnv_seal : SealLen halfEnv where
  enc := sealLen.enc
  dec := sealLen.dec
  rsa k d h := by
    simp only [halfEnv] at h
    split at h
    · cases h; decide
    · cases h
  rsaPub := nofun
  ec := nofun
  ecPub := nofun

def halfOrdered? (l : Lib) : List Call → Bool
  | [] => true
  | c :: cs => orderly? l c && halfOrdered? (Verif.step halfEnv l c).1 cs

theorem halfOrdered_of {l : Lib} {cs : List Call} (h : halfOrdered? l cs = true) : Ordered halfEnv l cs := by
  induction cs generalizing l with
  | nil => trivial
  | cons c cs ih =>
    rw [halfOrdered?, Bool.and_eq_true] at h
    exact ⟨orderly_of h.1, ih h.2⟩

def halfLong : List Call := setup ++ createCall 65538 (rsaHalf.tmpl true) :: longerWay

set_option maxRecDepth 100000 in
/-- The hypotheses of `c141_imported`, `c141_sign_partial` and `c141_decrypt` about the private key are met, through logouts,
a PIN change, a second key and two restarts. -/
example : stateOf halfEnv (run halfEnv fresh setup) 65538 = some .rwUser ∧ (tokenObjs (run halfEnv fresh setup)).length < 64 ∧
    rsaHalf.Makes halfEnv.key (.rsa halfKey) ∧ rsaHalf.Stores halfEnv.store (.rsa halfKey) ∧ HashLen halfEnv ∧ RandLen halfEnv ∧
    halfEnv.crypto.rsa.Lawful ∧ RsaPair halfEnv.crypto.rsa halfKey { n := 271, e := 65537 } ∧
    answer halfEnv (run halfEnv fresh setup) (createCall 65538 (rsaHalf.tmpl true)) = { rv := .ok, handle := some tok1 } ∧
    Endured halfEnv fresh setup 65538 (rsaHalf.tmpl true) tok1 halfLong 65538 ∧
    Going halfEnv fresh halfLong 65538 tok1 .sign .rsaPkcs (.null 0) (halfLong ++ [initOf 65538 .sign .rsaPkcs (.null 0) tok1]) ∧
    answer halfEnv (run halfEnv fresh (halfLong ++ [initOf 65538 .sign .rsaPkcs (.null 0) tok1]))
      (.sess 65538 (.crypt (.sign (some [4, 5]) (.buf 2) 0))) = wrote [4, 5] := by
  refine ⟨by decide +kernel, by decide +kernel, ⟨by decide, by decide, by decide, by decide, by decide, by decide, by decide, by decide, by decide,
    by decide⟩, by simp [Half.Stores, rsaHalf, halfEnv], hashLen, randLen, blockRsa_lawful, blockRsa_pair' _ _ rfl, by decide +kernel,
    ⟨⟨longerWay, rfl, ?_⟩, halfOrdered_of (by decide +kernel), by unfold BoolToken; decide, by decide, clockWithin_of (by decide), by decide +kernel,
      by unfold UserIn; decide +kernel⟩, ⟨⟨[], rfl, by simp⟩, by decide +kernel⟩, by decide +kernel⟩
  intro h hm
  simp [longerWay, longWay, openCall, createCall, loginCall, tok1] at hm

end Demo

end Verif
