import Verif.Spec.OrderlyAgree
import Verif.Props.Agree
import Verif.Props.TokenPair

/-!
# C142: key agreement with a key of the token works at any later time
-/

namespace Verif

variable {e : Env}

/-- A private key of the token is kept by an orderly application. -/
theorem orders_kept (hx : StoreLaws e.store) (hse : SealLen e) (hh : HashLen e) (hr : RandLen e) {p : Party} {m : DeriveMech}
    (hp : p.Orders e m) (priv o : Obj) (a2 : Addressed (run e p.lib p.generated) p.h p.priv priv)
    (o1 : Addressed (run e p.lib (p.generated ++ p.between)) p.h' p.priv o) : o.data = priv.data := by
  obtain ⟨⟨h₀, hd, hb, hn, hgen, hder⟩, hon, hu, ho, hclock, hk, hu'⟩ := hp
  obtain ⟨hgood, _⟩ := sess_step (c := .derive (some m) p.priv (some p.keyT) true)
    (show (answer e (run e p.lib (p.generated ++ p.between)) (deriveCall p.h' p.priv m p.keyT)).rv = .ok by rw [hder])
  exact ordered_key hx hse hh hr h₀ hd p.generated p.between _ rfl (fun d hd => hb d (List.mem_append_left _ hd))
    (by unfold Party.derived at hn; rw [List.length_append] at hn; omega) hon hk ho hclock hu hu' hgood a2 o1

/-- **C142**: two orderly applications that each make an EC pair on the same curve, with the private
key on the token, and later derive keys by ECDH with the other's point, get keys with the same value,
whenever they do so: after any number of logouts, PIN changes and restarts on either side. -/
theorem c142_agree (hx : StoreLaws e.store) (hse : SealLen e) (hh : HashLen e) (hr : RandLen e) (hg : GenLawful e) (hk : e.key.Lawful)
    (hl : EcdhLawful e) (a b : Party) (params ptA ptB : Bytes) (ha : a.EcOrders e params ptA ptB) (hb : b.EcOrders e params ptB ptA) :
    SameKey e a b (.ecdh (some (true, some ptB))) (.ecdh (some (true, some ptA))) :=
  ec_same hl (ec_key hh hr hg hk ha.toDoes ha.toOnCurve fun q o h _ => orders_kept hx hse hh hr ha.toOrders q o h)
    (ec_key hh hr hg hk hb.toDoes hb.toOnCurve fun q o h _ => orders_kept hx hse hh hr hb.toOrders q o h)

/-- The same with a party whose key is not on the token, or that just leaves it alone (C90). -/
theorem c142_agree_any (hx : StoreLaws e.store) (hse : SealLen e) (hh : HashLen e) (hr : RandLen e) (hg : GenLawful e) (hk : e.key.Lawful)
    (hl : EcdhLawful e) (a b : Party) (params ptA ptB : Bytes) (ha : a.EcOrders e params ptA ptB) (hb : b.EcAgrees e params ptB ptA) :
    SameKey e a b (.ecdh (some (true, some ptB))) (.ecdh (some (true, some ptA))) :=
  ec_same hl (ec_key hh hr hg hk ha.toDoes ha.toOnCurve fun q o h _ => orders_kept hx hse hh hr ha.toOrders q o h)
    (ec_key hh hr hg hk hb.toDoes hb.toOnCurve (agrees_kept hx hh hr hb.toAgrees))

/-- The values that can be read from both keys are the same. -/
theorem c142_same_value (hx : StoreLaws e.store) (hse : SealLen e) (hh : HashLen e) (hr : RandLen e) (hg : GenLawful e) (hk : e.key.Lawful)
    (hl : EcdhLawful e) (a b : Party) (params ptA ptB v w : Bytes) (ha : a.EcOrders e params ptA ptB) (hb : b.EcOrders e params ptB ptA)
    (hv : Shows e (run e a.lib (a.derived (.ecdh (some (true, some ptB))))) a.h' a.key .value v)
    (hw : Shows e (run e b.lib (b.derived (.ecdh (some (true, some ptA))))) b.h' b.key .value w) : v = w :=
  c90_same_value hh hr a b _ _ v w ha.toDoes hb.toDoes (c142_agree hx hse hh hr hg hk hl a b params ptA ptB ha hb) hv hw

/-! ## A case -/

namespace Demo

/-- A generated EC key with the point (x, 2). -/
def agreeKey (x : Nat) : EcKey := { dp := some ⟨7, 32, [42, 3]⟩, k := 5, x, y := 2, typ := .priv }
def agreePub (x : Nat) : EcKey := { dp := some ⟨7, 32, [42, 3]⟩, x, y := 2, typ := .pub }

/-- An environment that can encode the EC keys that `ecEnv` generates. -/
def agreeEnv : Env := { ecEnv with
  store := { store with
    eccToDer := fun k => if k = agreeKey 1 then some [1] else if k = agreeKey 2 then some [2] else none
    eccOfDer := fun d => if d = [1] then some (agreeKey 1) else if d = [2] then some (agreeKey 2) else none
    eccToPubDer := fun k => if k = agreePub 1 then some [3] else if k = agreePub 2 then some [4] else none
    eccOfPubDer := fun d => if d = [3] then some (agreePub 1) else if d = [4] then some (agreePub 2) else none } }

theorem agreeEnv_laws : StoreLaws agreeEnv.store where
  cipher := store_laws.cipher
  tag := store_laws.tag
  rsa := store_laws.rsa
  rsaPub := store_laws.rsaPub
  ec k d h := by
    simp only [agreeEnv] at h ⊢
    repeat' split at h
    · rename_i hk; cases h; simp [hk]
    · rename_i hk; cases h; simp [hk]
    · cases h
  ecPub k d h := by
    simp only [agreeEnv] at h ⊢
    repeat' split at h
    · rename_i hk; cases h; simp [hk, agreePub]
    · rename_i hk; cases h; simp [hk, agreePub]
    · cases h
  dh := store_laws.dh

theorem agreeEnv_seal : SealLen agreeEnv where
  enc := sealLen.enc
  dec := sealLen.dec
  rsa := nofun
  rsaPub := nofun
  ec k d h := by
    simp only [agreeEnv] at h
    repeat' split at h
    all_goals cases h
    all_goals decide
  ecPub k d h := by
    simp only [agreeEnv] at h
    repeat' split at h
    all_goals cases h
    all_goals decide

theorem agreeEnv_gen : GenLawful agreeEnv where
  rsa := ecEnv_gen.rsa
  ec := ecEnv_gen.ec
  dh := ecEnv_gen.dh

theorem agreeEnv_ecdh : EcdhLawful agreeEnv := by
  intro a b A B c c' P Q s s' _ _ _ _ _ h h'
  exact Option.some.inj (h.symm.trans h')

def agreeOrdered? (l : Lib) : List Call → Bool
  | [] => true
  | c :: cs => orderly? l c && agreeOrdered? (Verif.step agreeEnv l c).1 cs

theorem agreeOrdered_of {l : Lib} {cs : List Call} (h : agreeOrdered? l cs = true) : Ordered agreeEnv l cs := by
  induction cs generalizing l with
  | nil => trivial
  | cons c cs ih =>
    rw [agreeOrdered?, Bool.and_eq_true] at h
    exact ⟨orderly_of h.1, ih h.2⟩

/-- A party with an EC pair on the token. -/
def agreeParty (before between : List Call) (key : Nat) : Party where
  lib := fresh
  before := setup ++ before
  between
  h := 65538
  h' := 65538
  pub := tok1
  priv := tok1 + 1
  key
  mech := .ecKeyPairGen
  param := .null 0
  pubT := [.of .token [1], .of .ecParams [6, 2, 0x2a, 3]]
  privT := [.of .token [1], .of .derive [1]]
  keyT := [.of .cls (ulong CKO_SECRET_KEY), .of .keyType (ulong CKK_GENERIC_SECRET), .of .sensitive [0], .of .extractable [1]]

/-- One party restarts the library after a change of the PIN; the other has made an AES key before,
and logs out and in. -/
def agreeA : Party := agreeParty [] longWay 1
def agreeB : Party := agreeParty [.sess 65538 (.genKey (some (.aesKeyGen, .null 0)) (some [.of .valueLen (ulong 16)]) true)] (again 65538) 2

set_option maxRecDepth 100000 in
theorem agreeA_orders : agreeA.EcOrders agreeEnv [6, 2, 0x2a, 3] (pointOf 1) (pointOf 2) :=
  { start := fresh_start, noToken := noToken, tokens := by unfold BoolToken; decide +kernel, few := by decide,
    generates := by decide +kernel, derives := by decide +kernel, onToken := by decide, user := by unfold UserIn; decide +kernel,
    ordered := agreeOrdered_of (by decide +kernel), clock := clockWithin_of (by decide),
    kept := by intro h hm; simp [agreeA, agreeParty, longWay, openCall, loginCall] at hm,
    userThen := by unfold UserIn; decide +kernel, mech := rfl, params := by unfold Shows; decide +kernel,
    publishes := by unfold Shows; decide +kernel }

set_option maxRecDepth 100000 in
theorem agreeB_orders : agreeB.EcOrders agreeEnv [6, 2, 0x2a, 3] (pointOf 2) (pointOf 1) :=
  { start := fresh_start, noToken := noToken, tokens := by unfold BoolToken; decide +kernel, few := by decide,
    generates := by decide +kernel, derives := by decide +kernel, onToken := by decide, user := by unfold UserIn; decide +kernel,
    ordered := agreeOrdered_of (by decide +kernel), clock := clockWithin_of (by decide),
    kept := by intro h hm; simp [agreeB, agreeParty, again, loginCall] at hm,
    userThen := by unfold UserIn; decide +kernel, mech := rfl, params := by unfold Shows; decide +kernel,
    publishes := by unfold Shows; decide +kernel }

set_option maxRecDepth 100000 in
/-- The hypotheses of `c142_agree`, `c142_agree_any` and `c142_same_value` are met. -/
example : StoreLaws agreeEnv.store ∧ SealLen agreeEnv ∧ HashLen agreeEnv ∧ RandLen agreeEnv ∧ GenLawful agreeEnv ∧ agreeEnv.key.Lawful ∧
    EcdhLawful agreeEnv ∧ agreeA.EcOrders agreeEnv [6, 2, 0x2a, 3] (pointOf 1) (pointOf 2) ∧
    agreeB.EcOrders agreeEnv [6, 2, 0x2a, 3] (pointOf 2) (pointOf 1) ∧
    Shows agreeEnv (run agreeEnv agreeA.lib (agreeA.derived (.ecdh (some (true, some (pointOf 2)))))) 65538 1 .value [7, 9] ∧
    (ecParty other).EcAgrees agreeEnv [6, 2, 0x2a, 3] (pointOf 2) (pointOf 1) :=
  ⟨agreeEnv_laws, agreeEnv_seal, hashLen, randLen, agreeEnv_gen, kx_lawful, agreeEnv_ecdh, agreeA_orders, agreeB_orders,
    by unfold Shows; decide +kernel,
    { start := fresh_start, noToken := noToken, tokens := by unfold BoolToken; decide +kernel, few := by decide,
      generates := by decide +kernel, derives := by decide +kernel, untouched := .inl ⟨rfl, fun c hc => by simp [ecParty] at hc⟩,
      mech := rfl, params := by unfold Shows; decide +kernel, publishes := by unfold Shows; decide +kernel }⟩

/-- An EC pair of the token that signs. -/
def curvedGen : Call := Verif.pairCall 65538 .ecKeyPairGen (.null 0)
  [.of .token [1], .of .verify [1], .of .ecParams [6, 2, 0x2a, 3]] [.of .token [1], .of .sign [1]]
def curvedMade : List Call := setup ++ [curvedGen]
def curvedSign : List Call := [initOf 65538 .sign .ecdsa (.null 0) (tok1 + 1)]
/-- Its signature: r and s. -/
def curvedSig : Bytes := List.replicate 31 0 ++ [1] ++ List.replicate 31 0 ++ [1]
def curvedLater : List Call :=
  curvedMade ++ again 65538 ++ curvedSign ++ (dataOf 65538 (.sign (some [1, 2]) (.buf 100) 0) :: longWay)

set_option maxRecDepth 100000 in
/-- The hypotheses of `c140_signs_partial` are met by an EC pair as well. -/
example : SignsWith .ecKeyPairGen .ecdsa ∧
    answer agreeEnv (run agreeEnv fresh setup) curvedGen = { rv := .ok, handle := some tok1, priv := some (tok1 + 1) } ∧
    UserIn agreeEnv (run agreeEnv fresh curvedMade) 65538 ∧ UserIn agreeEnv (run agreeEnv fresh (curvedMade ++ again 65538)) 65538 ∧
    (answer agreeEnv (run agreeEnv fresh (curvedMade ++ again 65538)) (initOf 65538 .sign .ecdsa (.null 0) (tok1 + 1))).rv = .ok ∧
    answer agreeEnv (run agreeEnv fresh (curvedMade ++ again 65538 ++ curvedSign))
      (dataOf 65538 (.sign (some [1, 2]) (.buf 100) 0)) = { rv := .ok, out := some { rv := .ok, wr := curvedSig, len := some 64 } } ∧
    UserIn agreeEnv (run agreeEnv fresh curvedLater) 65538 ∧
    (answer agreeEnv (run agreeEnv fresh curvedLater) (initOf 65538 .verify .ecdsa (.null 0) tok1)).rv = .ok ∧
    Ordered agreeEnv fresh curvedLater ∧ ClockWithin (2 ^ 62) (curvedLater.map .call) ∧ BoolToken curvedLater ∧
    (run agreeEnv fresh (curvedLater ++ [initOf 65538 .verify .ecdsa (.null 0) tok1])).bad = false :=
  ⟨.inr ⟨rfl, rfl⟩, by decide +kernel, by unfold UserIn; decide +kernel, by unfold UserIn; decide +kernel, by decide +kernel, by decide +kernel,
    by unfold UserIn; decide +kernel, by decide +kernel, agreeOrdered_of (by decide +kernel), clockWithin_of (by decide),
    by unfold BoolToken; decide +kernel, by decide +kernel⟩

end Demo

end Verif
