import Verif.Props.Derive
import Verif.Props.KeyKept

/-!
# C90: Diffie-Hellman agreement
-/

namespace Verif

variable {e : Env}

theorem shows_get {l : Lib} {h k n : Nat} {a : CKA} {v : Bytes} {o : Obj} (hx : HandleInv n l) (hn : n < 2 ^ 28)
    (hs : Shows e l h k a v) (ho : Addressed l h k o) :
    (getAttr e.key o a true v.length).ret = .ok ∧ (getAttr e.key o a true v.length).len = v.length ∧
      (getAttr e.key o a true v.length).wr ++ (List.replicate v.length 0).drop (getAttr e.key o a true v.length).wr.length = v := by
  obtain ⟨_, hs⟩ := hs
  have hrv : (answer e l (readCall h k [Entry.of a (List.replicate v.length 0)])).rv = .ok := by rw [hs]
  obtain ⟨_, hpos, s, hg, hst⟩ := sess_step (c := .getAttr k (some [Entry.of a (List.replicate v.length 0)])) hrv
  have hst : step e l (readCall h k [Entry.of a (List.replicate v.length 0)]) =
    cGetAttr e l s k (some [Entry.of a (List.replicate v.length 0)]) := hst
  unfold HandleInv at hx
  rw [if_pos hpos] at hx
  have hf : findObj l s k = some o := addressed_find hx hn hg ho
  unfold answer at hs
  rw [hst] at hs
  unfold cGetAttr at hs
  simp only [hf] at hs
  injection hs with h1 _ _ _ h2 _ _ _
  have h2 := Option.some.inj h2
  unfold getAttributeValue at h1 h2
  dsimp only at h1 h2
  split at h1
  · rename_i hc; exact absurd h1 hc
  rename_i hc
  rw [if_neg hc] at h2
  unfold getEntries at h1 h2
  dsimp only at h1 h2
  split at h1
  · rename_i hok
    rw [if_pos hok] at h2
    simp only [getEntries, List.cons.injEq, and_true] at h2
    unfold getEntry at hok h2
    simp only [Entry.of, Option.isSome_some, List.length_replicate, Option.map_some] at hok h2
    generalize getAttr e.key o a true v.length = r at *
    revert hok h2
    cases r.ret <;> intro hok h2 <;> simp at hok h2 ⊢
    exact ⟨h2.2, h2.1⟩
  · rename_i hok; exact absurd h1 hok

theorem getData_ok {d v : Bytes} (h : (getData d true v.length).ret = .ok) (hl : (getData d true v.length).len = v.length)
    (hw : (getData d true v.length).wr ++ (List.replicate v.length 0).drop (getData d true v.length).wr.length = v) :
    d = v := by
  unfold getData at h hl hw
  simp only [Bool.not_true, Bool.false_eq_true, if_false] at h hl hw
  split at h
  · cases h
  · rename_i hc
    simp only [if_neg hc] at hl hw
    simpa [hl] using hw

/-- A key that shows a prime is a DH key. -/
theorem shows_prime {l : Lib} {h k n : Nat} {v : Bytes} {o : Obj} (hx : HandleInv n l) (hn : n < 2 ^ 28)
    (hs : Shows e l h k .prime v) (ho : Addressed l h k o) :
    o.cls ≠ CKO_CERTIFICATE ∧ o.typ = CKK_DH ∧ mpBytes o.dh.p = v := by
  obtain ⟨h1, h2, h3⟩ := shows_get hx hn hs ho
  have hg : getAttr e.key o .prime true v.length = getKeyAttr e.key o .prime true v.length := rfl
  rw [hg] at h1 h2 h3
  have hm : ¬ misread o .prime = true := by
    intro hm
    simp [getKeyAttr, hm] at h1
  have ht : o.typ = CKK_DH := by
    by_cases ht : o.typ = CKK_DH
    · exact ht
    · simp only [getKeyAttr, reduceCtorEq, and_false, if_false, if_neg hm, if_neg ht, rsaGetAttr, ecGetAttr, secretGetAttr,
        getNotAvail] at h1
      repeat' split at h1
      all_goals cases h1
  have hc : o.cls ≠ CKO_CERTIFICATE := by
    intro hc
    exact hm (by simp [misread, hc, ht])
  refine ⟨hc, ht, ?_⟩
  have hk : getKeyAttr e.key o .prime true v.length = getData (mpBytes o.dh.p) true v.length := by
    simp [getKeyAttr, hc, hm, ht, dhGetAttr, CKK_DH, CKK_RSA, CKK_EC]
  rw [hk] at h1 h2 h3
  exact getData_ok h1 h2 h3

theorem shows_base {l : Lib} {h k n : Nat} {v : Bytes} {o : Obj} (hx : HandleInv n l) (hn : n < 2 ^ 28)
    (hs : Shows e l h k .base v) (ho : Addressed l h k o) (hc : o.cls ≠ CKO_CERTIFICATE) (ht : o.typ = CKK_DH) :
    mpBytes o.dh.g = v := by
  obtain ⟨h1, h2, h3⟩ := shows_get hx hn hs ho
  have hk : getAttr e.key o .base true v.length = getData (mpBytes o.dh.g) true v.length := by
    simp [getAttr, getKeyAttr, misread, hc, ht, dhGetAttr, CKK_DH, CKK_RSA, CKK_EC]
  rw [hk] at h1 h2 h3
  exact getData_ok h1 h2 h3

theorem shows_value {l : Lib} {h k n : Nat} {v : Bytes} {o : Obj} (hx : HandleInv n l) (hn : n < 2 ^ 28)
    (hs : Shows e l h k .value v) (ho : Addressed l h k o) (hc : o.cls ≠ CKO_CERTIFICATE) (ht : o.typ = CKK_DH) :
    o.dh.key = v := by
  obtain ⟨h1, h2, h3⟩ := shows_get hx hn hs ho
  have hk : getAttr e.key o .value true v.length =
      if o.cls != CKO_PRIVATE_KEY || !o.noPriv then getData o.dh.key true v.length else getNone := by
    simp [getAttr, getKeyAttr, misread, hc, ht, dhGetAttr, CKK_DH, CKK_RSA, CKK_EC]
  rw [hk] at h1 h2 h3
  split at h1
  · rename_i hp
    simp only [hp, if_true] at h2 h3
    exact getData_ok h1 h2 h3
  · rename_i hp
    simp only [hp] at h2
    have := hs.1
    have h2 : unavailableInfo = v.length := h2
    unfold unavailableInfo at h2
    omega

theorem shows_ec {l : Lib} {h k n : Nat} {v : Bytes} {o : Obj} (hx : HandleInv n l) (hn : n < 2 ^ 28)
    (hs : Shows e l h k .ecParams v) (ho : Addressed l h k o) :
    o.typ = CKK_EC ∧ ∃ c, o.ec.dp = some c ∧ 0x06 :: UInt8.ofNat c.oid.length :: c.oid = v := by
  obtain ⟨h1, h2, h3⟩ := shows_get hx hn hs ho
  have hg : getAttr e.key o .ecParams true v.length = getKeyAttr e.key o .ecParams true v.length := rfl
  rw [hg] at h1 h2 h3
  have hm : ¬ misread o .ecParams = true := by simp [misread]
  have ht : o.typ = CKK_EC := by
    by_cases ht : o.typ = CKK_EC
    · exact ht
    · simp only [getKeyAttr, reduceCtorEq, and_false, if_false, if_neg hm, if_neg ht, rsaGetAttr, dhGetAttr, secretGetAttr,
        getNotAvail] at h1
      repeat' split at h1
      all_goals cases h1
  refine ⟨ht, ?_⟩
  have hk : getKeyAttr e.key o .ecParams true v.length = getEcParams o.ec true v.length := by
    simp [getKeyAttr, hm, ht, ecGetAttr, CKK_RSA, CKK_EC]
  rw [hk] at h1 h2 h3
  unfold getEcParams at h1 h2 h3
  cases hdp : o.ec.dp with
  | none => rw [hdp] at h1; cases h1
  | some c =>
    rw [hdp] at h1 h2 h3
    exact ⟨c, rfl, getData_ok h1 h2 h3⟩

theorem hdr_length (n : Nat) : (ecPointHdr n).length = if n < 128 then 2 else 3 := by
  unfold ecPointHdr
  by_cases h : n < 128
  · rw [if_neg (by omega), if_pos h]; rfl
  · rw [if_pos (by omega), if_neg h]; rfl

theorem hdr_der (n : Nat) : 0x04 :: Spec.derLen n = ecPointHdr n := by
  unfold ecPointHdr Spec.derLen
  by_cases h : n < 128
  · rw [if_pos h, if_neg (by omega)]
  · rw [if_neg h, if_pos (by omega)]

theorem shows_point (hk : e.key.Lawful) {l : Lib} {h k n : Nat} {p : Bytes} {o : Obj} (hx : HandleInv n l) (hn : n < 2 ^ 28)
    (hs : Shows e l h k .ecPoint (0x04 :: (Spec.derLen p.length ++ p))) (ho : Addressed l h k o) (ht : o.typ = CKK_EC) :
    e.key.exportX963 o.ec = some p := by
  obtain ⟨h1, h2, h3⟩ := shows_get hx hn hs ho
  have hlt := hs.1
  rw [← List.cons_append, hdr_der] at h1 h2 h3 hlt
  generalize hv : ecPointHdr p.length ++ p = v at *
  have hg : getAttr e.key o .ecPoint true v.length = if o.ec.typ == .privOnly then getNone else getEcPoint e.key o.ec true v.length := by
    simp [getAttr, getKeyAttr, misread, ht, ecGetAttr, CKK_RSA, CKK_EC]
  rw [hg] at h1 h2 h3
  by_cases hp : (o.ec.typ == .privOnly) = true
  · simp only [hp, if_true] at h2
    have h2 : unavailableInfo = v.length := h2
    unfold unavailableInfo at h2
    omega
  · simp only [hp] at h1 h2 h3
    unfold getEcPoint at h1 h2 h3
    cases hdp : o.ec.dp with
    | none => rw [hdp] at h1; cases h1
    | some c =>
      rw [hdp] at h1 h2 h3
      simp only [Bool.not_true, Bool.false_eq_true, if_false] at h1 h2 h3
      by_cases hl : v.length < 2 * c.size + 1
      · simp only [if_pos hl] at h1
        cases h1
      · simp only [if_neg hl] at h1 h2 h3
        cases hx : e.key.exportX963 o.ec with
        | none => rw [hx] at h1; cases h1
        | some q =>
          rw [hx] at h1 h2 h3
          have hq := hk.export_len _ _ _ hdp hx
          dsimp only at h2 h3
          rw [← hq] at h2 h3
          have hv2 : v.length = (ecPointHdr p.length).length + p.length := by rw [← hv, List.length_append]
          rw [hv2] at h2
          have hpq : q.length = p.length := by
            rw [hdr_length, hdr_length] at h2
            split at h2 <;> split at h2 <;> omega
          rw [List.drop_eq_nil_of_le (by rw [List.length_replicate, List.length_append, hv2]; omega), List.append_nil, ← hv, hpq] at h3
          rw [List.append_cancel_left h3]

/-- What one party has at the end, if the private key is kept: the base key is the private key of the pair. -/
theorem party_does (hh : HashLen e) (hr : RandLen e) (hg : GenLawful e) {p : Party} {m : DeriveMech} (hp : p.Does e m)
    (hkeep : ∀ priv o, Addressed (run e p.lib p.generated) p.h p.priv priv → priv.cls ≠ CKO_CERTIFICATE →
      Addressed (run e p.lib (p.generated ++ p.between)) p.h' p.priv o → o.data = priv.data) :
    ∃ pub priv o q sec, Addressed (run e p.lib p.generated) p.h p.pub pub ∧ BelongTogether e p.mech pub priv ∧
      o.data = priv.data ∧ SharedSecret e o m sec ∧
      Addressed (run e p.lib (p.derived m)) p.h' p.key q ∧ (q.typ = CKK_AES ∨ q.typ = CKK_GENERIC_SECRET) ∧ q.data = .symm sec ∧
      HandleInv (2 * (p.before.length + 1)) (run e p.lib p.generated) ∧ 2 * (p.before.length + 1) < 2 ^ 28 := by
  obtain ⟨h₀, hd, hb, hn, hgen, hder⟩ := hp
  have hlen : (p.derived m).length = p.before.length + 1 + p.between.length + 1 := by
    simp [Party.derived, Party.generated]; omega
  have hb3 : BoolToken (p.generated ++ p.between) := fun d hd => hb d (List.mem_append_left _ hd)
  have hb2 : BoolToken p.generated := fun d hd => hb3 d (List.mem_append_left _ hd)
  have hlen2 : p.generated.length = p.before.length + 1 := by simp [Party.generated]
  obtain ⟨_, _, hi⟩ := reach_inv hh hr h₀ hd p.generated hb2 (by omega)
  rw [hlen2] at hi
  obtain ⟨k₁, k₂, pub, priv, e1, e2, a1, a2, hbt, _, _, ⟨_, hcert⟩, _⟩ :=
    c79_partial hh hr hg h₀ hd p.before p.h p.mech p.param p.pubT p.privT hb2 (by omega) (by rw [hgen])
  rw [hgen] at e1 e2
  cases e1; cases e2
  obtain ⟨o, q, sec, o1, o2, _, o4, o5, o6, _⟩ :=
    c60_partial hh hr h₀ hd (p.generated ++ p.between) p.h' p.priv p.key m p.keyT hb
      (by rw [List.length_append]; omega) (by rw [hder]) (by rw [hder])
  exact ⟨pub, priv, o, q, sec, a1, hbt, hkeep priv o a2 hcert o1, o2, o4, o5, o6, hi, by omega⟩

/-- A private key that is left alone is kept. -/
theorem agrees_kept (hx : StoreLaws e.store) (hh : HashLen e) (hr : RandLen e) {p : Party} {m : DeriveMech} (hp : p.Agrees e m)
    (priv o : Obj) (a2 : Addressed (run e p.lib p.generated) p.h p.priv priv) (hcert : priv.cls ≠ CKO_CERTIFICATE)
    (o1 : Addressed (run e p.lib (p.generated ++ p.between)) p.h' p.priv o) : o.data = priv.data := by
  obtain ⟨⟨h₀, hd, hb, hn, hgen, hder⟩, hspare⟩ := hp
  have hlen : (p.derived m).length = p.before.length + 1 + p.between.length + 1 := by
    simp [Party.derived, Party.generated]; omega
  have hlen2 : p.generated.length = p.before.length + 1 := by simp [Party.generated]
  have hb3 : BoolToken (p.generated ++ p.between) := fun d hd => hb d (List.mem_append_left _ hd)
  -- the session is open after the generation
  obtain ⟨hcnt, s, hs⟩ : 0 < (run e p.lib p.generated).count ∧ ∃ s, getSession (run e p.lib p.generated) p.h = some s := by
    have hrun : run e p.lib p.generated = (step e (run e p.lib p.before) (pairCall p.h p.mech p.param p.pubT p.privT)).1 := by
      unfold Party.generated; rw [run_append]; rfl
    obtain ⟨hbad, hpos, s, hs, _⟩ := sess_step (c := .genPair (some (p.mech, p.param)) (some p.pubT) (some p.privT) true)
      (show (answer e (run e p.lib p.before) (pairCall p.h p.mech p.param p.pubT p.privT)).rv = .ok by rw [hgen])
    obtain ⟨hk, hc⟩ := keeps_step (e := e) (q := false) (ov := priv) (c := pairCall p.h p.mech p.param p.pubT p.privT)
      ((Start.capInv h₀ hd).run hh hr h₀.sinv p.before).pop (h₀.sinv.run e p.before) hbad hpos trivial (fun h => by cases h) hs
    obtain ⟨s', g1, _⟩ := hk.ses s hs
    rw [hrun]
    exact ⟨hc, s', g1⟩
  obtain ⟨hgood, _⟩ := sess_step (c := .derive (some m) p.priv (some p.keyT) true)
    (show (answer e (run e p.lib (p.generated ++ p.between)) (deriveCall p.h' p.priv m p.keyT)).rv = .ok by rw [hder])
  exact untouched_data hx hh hr h₀ hd p.generated p.between hb3
    (by rw [List.length_append]; omega) hcnt hs a2 hcert hspare hgood o1

/-- Both derived keys have the same value. -/
def SameKey (e : Env) (a b : Party) (m m' : DeriveMech) : Prop :=
  ∃ o o' v, Addressed (run e a.lib (a.derived m)) a.h' a.key o ∧ Addressed (run e b.lib (b.derived m')) b.h' b.key o' ∧
    (o.typ = CKK_AES ∨ o.typ = CKK_GENERIC_SECRET) ∧ (o'.typ = CKK_AES ∨ o'.typ = CKK_GENERIC_SECRET) ∧
    o.data = .symm v ∧ o'.data = .symm v

theorem dh_key (hx : StoreLaws e.store) (hh : HashLen e) (hr : RandLen e) (hg : GenLawful e) {enc : Nat → Nat → Bytes}
    (hl : ∀ k pub s, e.dhAgree k pub = some s → s = enc k.p (ofBytes pub ^ ofBytes k.key % k.p))
    {p : Party} {prime base mine theirs : Bytes} (hp : p.DhAgrees e prime base mine theirs) :
    ∃ (x : Nat) (q : Obj), ofBytes mine = ofBytes base ^ x % ofBytes prime ∧
      Addressed (run e p.lib (p.derived (.dh (some theirs)))) p.h' p.key q ∧ (q.typ = CKK_AES ∨ q.typ = CKK_GENERIC_SECRET) ∧
      q.data = .symm (enc (ofBytes prime) (ofBytes theirs ^ x % ofBytes prime)) := by
  obtain ⟨hp, hm, sp, sb, sv⟩ := hp
  obtain ⟨pub, priv, o, q, sec, a1, hbt, hdata, o2, o4, o5, o6, hi, hn⟩ := party_does hh hr hg hp.toDoes (agrees_kept hx hh hr hp)
  rw [hm] at hbt
  obtain ⟨c1, c2, c3⟩ := shows_prime hi (by omega) sp a1
  have c4 := shows_base hi (by omega) sb a1 c1 c2
  have c5 := shows_value hi (by omega) sv a1 c1 c2
  obtain ⟨b1, b2, b3⟩ : pub.dh.p = priv.dh.p ∧ pub.dh.g = priv.dh.g ∧
      ofBytes pub.dh.key = priv.dh.g ^ ofBytes priv.dh.key % priv.dh.p := hbt
  have p1 : ofBytes prime = priv.dh.p := by rw [← c3, ofBytes_mpBytes, b1]
  have p2 : ofBytes base = priv.dh.g := by rw [← c4, ofBytes_mpBytes, b2]
  obtain ⟨_, _, _, o3⟩ : theirs ≠ [] ∧ o.cls ≠ CKO_CERTIFICATE ∧ o.typ = CKK_DH ∧ e.dhAgree o.dh theirs = some sec := o2
  have hdh : o.dh = priv.dh := by unfold Obj.dh; rw [hdata]
  refine ⟨ofBytes priv.dh.key, q, ?_, o4, o5, ?_⟩
  · rw [← c5, b3, p1, p2]
  · rw [o6, hl _ _ _ o3, hdh, p1]

/-- **C90** for Diffie-Hellman: two parties that generate pairs over the same prime and
base, each in a process of its own with any history, and derive keys with the value of the
other's public key, get keys with the same value, whatever calls that leave the private
key alone are made in between: with a key of the token these may be logouts, logins, changes of
the PIN and restarts of the library. Missing: what `c107_partial` leaves out. -/
theorem c90_dh_partial (hx : StoreLaws e.store) (hh : HashLen e) (hr : RandLen e) (hg : GenLawful e) (hl : DhLawful e)
    (a b : Party) (prime base pubA pubB : Bytes) (ha : a.DhAgrees e prime base pubA pubB)
    (hb : b.DhAgrees e prime base pubB pubA) : SameKey e a b (.dh (some pubB)) (.dh (some pubA)) := by
  obtain ⟨enc, hl⟩ := hl
  obtain ⟨x, o, a1, a2, a3, a4⟩ := dh_key hx hh hr hg hl ha
  obtain ⟨y, o', b1, b2, b3, b4⟩ := dh_key hx hh hr hg hl hb
  refine ⟨o, o', _, a2, b2, a3, b3, a4, ?_⟩
  rw [b4, a1, b1, ← Nat.pow_mod, ← Nat.pow_mod, ← Nat.pow_mul, ← Nat.pow_mul, Nat.mul_comm]

/-- What a party has that derives a key with a private EC key: on the curve named by `params`, with the
points `mine` and `theirs`. -/
def EcHas (e : Env) (p : Party) (params mine theirs : Bytes) : Prop :=
  ∃ (k A : EcKey) (c : Curve) (q : Obj) (s : Bytes), EcPair e.crypto.ecdsa k A c ∧
    0x06 :: UInt8.ofNat c.oid.length :: c.oid = params ∧ e.key.exportX963 A = some mine ∧
    e.ecdh k theirs (theirs.length / 2) = some s ∧
    Addressed (run e p.lib (p.derived (.ecdh (some (true, some theirs))))) p.h' p.key q ∧
    (q.typ = CKK_AES ∨ q.typ = CKK_GENERIC_SECRET) ∧ q.data = .symm s

theorem ec_key (hh : HashLen e) (hr : RandLen e) (hg : GenLawful e) (hk : e.key.Lawful)
    {p : Party} {params mine theirs : Bytes} (hp : p.Does e (.ecdh (some (true, some theirs)))) (hc : p.OnCurve e params mine)
    (hkeep : ∀ priv o, Addressed (run e p.lib p.generated) p.h p.priv priv → priv.cls ≠ CKO_CERTIFICATE →
      Addressed (run e p.lib (p.generated ++ p.between)) p.h' p.priv o → o.data = priv.data) : EcHas e p params mine theirs := by
  obtain ⟨hm, sp, sv⟩ := hc
  obtain ⟨pub, priv, o, q, sec, a1, hbt, hdata, o2, o4, o5, o6, hi, hn⟩ := party_does hh hr hg hp hkeep
  rw [hm] at hbt
  obtain ⟨c, hc⟩ : ∃ c, EcPair e.crypto.ecdsa priv.ec pub.ec c := hbt
  obtain ⟨ht, c', d1, d2⟩ := shows_ec hi (by omega) sp a1
  have hcc : c' = c := by rw [hc.pub_curve] at d1; exact (Option.some.inj d1).symm
  subst hcc
  obtain ⟨_, _, _, _, o3⟩ : true = true ∧ theirs ≠ [] ∧ o.cls ≠ CKO_CERTIFICATE ∧ o.typ = CKK_EC ∧
      e.ecdh o.ec theirs (theirs.length / 2) = some sec := o2
  have hec : o.ec = priv.ec := by unfold Obj.ec; rw [hdata]
  rw [hec] at o3
  exact ⟨priv.ec, pub.ec, c', q, sec, hc, d2, shows_point hk hi (by omega) sv a1 ht, o3, o4, o5, o6⟩

theorem ec_same (hl : EcdhLawful e) {a b : Party} {params ptA ptB : Bytes} (ha : EcHas e a params ptA ptB) (hb : EcHas e b params ptB ptA) :
    SameKey e a b (.ecdh (some (true, some ptB))) (.ecdh (some (true, some ptA))) := by
  obtain ⟨k, A, c, q, s, a1, a2, a3, a4, a5, a6, a7⟩ := ha
  obtain ⟨k', B, c', q', s', b1, b2, b3, b4, b5, b6, b7⟩ := hb
  have hc : c.oid = c'.oid := by
    rw [← b2] at a2
    simp only [List.cons.injEq] at a2
    exact a2.2.2
  have := hl _ _ _ _ _ _ _ _ _ _ a1 b1 hc a3 b3 a4 b4
  exact ⟨q, q', s, a5, b5, a6, b6, a7, by rw [b7, this]⟩

/-- **C90** for ECDH: the same with pairs on the same curve and the other's public point. -/
theorem c90_ecdh_partial (hx : StoreLaws e.store) (hh : HashLen e) (hr : RandLen e) (hg : GenLawful e) (hk : e.key.Lawful) (hl : EcdhLawful e)
    (a b : Party) (params ptA ptB : Bytes) (ha : a.EcAgrees e params ptA ptB) (hb : b.EcAgrees e params ptB ptA) :
    SameKey e a b (.ecdh (some (true, some ptB))) (.ecdh (some (true, some ptA))) :=
  ec_same hl (ec_key hh hr hg hk ha.toDoes ha.toOnCurve (agrees_kept hx hh hr ha.toAgrees))
    (ec_key hh hr hg hk hb.toDoes hb.toOnCurve (agrees_kept hx hh hr hb.toAgrees))

/-- The values that can be read from both keys are the same. -/
theorem c90_same_value (hh : HashLen e) (hr : RandLen e) (a b : Party) (m m' : DeriveMech) (v w : Bytes)
    (ha : a.Does e m) (hb : b.Does e m') (hsame : SameKey e a b m m')
    (hv : Shows e (run e a.lib (a.derived m)) a.h' a.key .value v)
    (hw : Shows e (run e b.lib (b.derived m')) b.h' b.key .value w) : v = w := by
  obtain ⟨o, o', u, a1, b1, a2, b2, a3, b3⟩ := hsame
  have key : ∀ (p : Party) (m : DeriveMech), p.Does e m → ∀ v o,
      Shows e (run e p.lib (p.derived m)) p.h' p.key .value v →
      Addressed (run e p.lib (p.derived m)) p.h' p.key o → (o.typ = CKK_AES ∨ o.typ = CKK_GENERIC_SECRET) →
      o.data = .symm u → u = v := by
    intro p m hp v o hs ho ht hd
    obtain ⟨_, _, hx⟩ := reach_inv hh hr hp.start hp.noToken (p.derived m) hp.tokens hp.few
    obtain ⟨h1, h2, h3⟩ := shows_get hx hp.few hs ho
    have hty := typed_addressed hp.start (p.derived m) ho
    unfold Obj.Typed at hty
    rw [hd] at hty
    have hsym : o.symm = u := by simp [Obj.symm, hd]
    have hk : getAttr e.key o .value true v.length = secretGetAttr o .value true v.length := by
      simp [getAttr, getKeyAttr, misread, hty, ht]
    rw [hk] at h1 h2 h3
    simp only [secretGetAttr, hsym] at h1 h2 h3
    by_cases hnp : o.noPriv = true
    · simp only [hnp, if_true] at h2
      have := hs.1
      have h2 : unavailableInfo = v.length := h2
      unfold unavailableInfo at h2
      omega
    · simp only [hnp] at h1 h2 h3
      by_cases hm : (decide (u.length > maxSymKey) && true && decide (u.length ≤ v.length)) = true
      · simp only [hm, if_true] at h1
        cases h1
      · simp only [hm] at h1 h2 h3
        exact getData_ok h1 h2 h3
  exact (key a _ ha v o hv a1 a2 a3).symm.trans (key b _ hb w o' hw b1 b2 b3)

namespace Demo

/-- Diffie-Hellman on numbers; the private value comes from the random generator. -/
def dhEnv : Env := { pairEnv with
  dhGen := fun n p g => some ([UInt8.ofNat (n % 3 + 2)], mpBytes (g ^ (ofBytes [UInt8.ofNat (n % 3 + 2)]) % p))
  dhAgree := fun k pub => some (mpBytes (ofBytes pub ^ ofBytes k.key % k.p)) }

theorem dhEnv_gen : GenLawful dhEnv where
  rsa := pair_gen.rsa
  ec := pair_gen.ec
  dh n p g x y h := by
    simp only [dhEnv] at h
    injection h with h
    obtain ⟨h1, h2⟩ := Prod.mk.inj h
    subst h1 h2
    rw [ofBytes_mpBytes]

theorem dhEnv_agree : DhLawful dhEnv :=
  ⟨fun _ x => mpBytes x, fun k pub s h => by
    simp only [dhEnv] at h
    injection h with h
    exact h.symm⟩

/-- A party that makes the calls `more` first. -/
def party (more : List Call) (n : Nat) : Party where
  lib := fresh
  before := setup ++ more
  between := [.sess 65538 (.random true 16)]
  h := 65538
  h' := 65538
  pub := n
  priv := n + 1
  key := n + 2
  mech := .dhKeyPairGen
  param := .null 0
  pubT := [.of .prime [23], .of .base [5]]
  privT := []
  keyT := [.of .cls (ulong CKO_SECRET_KEY), .of .keyType (ulong CKK_GENERIC_SECRET), .of .sensitive [0], .of .extractable [1]]

/-- The calls the second party makes first. -/
def other : List Call := [openCall false, .sess 65538 (.random true 3)]

end Demo

set_option maxRecDepth 100000 in
/-- Non-vacuity of `c90_dh_partial`: two parties with different histories and
different private values. -/
example : StoreLaws Demo.dhEnv.store ∧ HashLen Demo.dhEnv ∧ RandLen Demo.dhEnv ∧ GenLawful Demo.dhEnv ∧ DhLawful Demo.dhEnv ∧
    (Demo.party [] 1).DhAgrees Demo.dhEnv [23] [5] [2] [10] ∧ (Demo.party Demo.other 1).DhAgrees Demo.dhEnv [23] [5] [10] [2] ∧
    Shows Demo.dhEnv (run Demo.dhEnv Demo.fresh ((Demo.party [] 1).derived (.dh (some [10])))) 65538 3 .value [8] ∧
    Shows Demo.dhEnv (run Demo.dhEnv Demo.fresh ((Demo.party Demo.other 1).derived (.dh (some [2])))) 65538 3 .value [8] := by
  refine ⟨Demo.store_laws, Demo.hashLen, Demo.randLen, Demo.dhEnv_gen, Demo.dhEnv_agree, ?_, ?_, ?_, ?_⟩
  · exact { start := Demo.fresh_start, noToken := Demo.noToken, tokens := by unfold BoolToken; decide, few := by decide,
            generates := by decide, mech := rfl, prime := by unfold Shows; decide, base := by unfold Shows; decide,
            publishes := by unfold Shows; decide, untouched := .inl ⟨rfl, fun c hc => by simp [Demo.party] at hc; subst hc; trivial⟩,
            derives := by decide }
  · exact { start := Demo.fresh_start, noToken := Demo.noToken, tokens := by unfold BoolToken; decide, few := by decide,
            generates := by decide, mech := rfl, prime := by unfold Shows; decide, base := by unfold Shows; decide,
            publishes := by unfold Shows; decide, untouched := .inl ⟨rfl, fun c hc => by simp [Demo.party] at hc; subst hc; trivial⟩,
            derives := by decide }
  · unfold Shows; decide
  · unfold Shows; decide

/-- A party whose private key is on the token and who logs out and in again, in a second
session, before it derives the key. -/
def Demo.tokParty : Party := { Demo.party [] 1 with
  privT := [.of .token [1]]
  between := [openCall true, .sess 65538 .logout, loginCall 65537 .user Demo.userPin 0]
  h' := 65537
  priv := Demo.tok1
  key := 1 }

/-- The objects are DH private keys. -/
def Demo.dhOnly (l : Lib) : Bool := (tokenObjs l).all fun o => o.typ == CKK_DH && o.cls == CKO_PRIVATE_KEY &&
  decide (o.data = .dh { p := 23, g := 5, key := [2] })

theorem Demo.dhOnly_encodable {l : Lib} (h : Demo.dhOnly l = true) : AllEncodable Demo.dhEnv l := by
  intro o ho
  have := List.all_eq_true.mp h o ho
  simp only [Bool.and_eq_true, beq_iff_eq, decide_eq_true_eq] at this
  obtain ⟨⟨h1, h2⟩, h3⟩ := this
  refine .inr ⟨⟨by rw [h2]; decide, .inr (.inr (.inl ⟨h1, .inl h2, _, h3, by decide, by decide, by decide, by decide⟩))⟩, ?_⟩
  rw [Obj.keyBytes, h3]
  rfl

set_option maxRecDepth 100000 in
theorem Demo.tokParty_agrees : Demo.tokParty.DhAgrees Demo.dhEnv [23] [5] [2] [10] :=
  { start := Demo.fresh_start, noToken := Demo.noToken, tokens := by unfold BoolToken; decide, few := by decide,
    generates := by decide +kernel, mech := rfl, prime := by unfold Shows; decide, base := by unfold Shows; decide,
    publishes := by unfold Shows; decide, derives := by decide,
    untouched := .inr ⟨by decide, .inl (by decide), .inl (by decide), trivial,
      fun _ => Demo.dhOnly_encodable (l := run Demo.dhEnv Demo.fresh (Demo.tokParty.generated ++ [openCall true])) (by decide),
      fun _ => Demo.onePin_of (p := Demo.userPin)
        (l := run Demo.dhEnv Demo.fresh (Demo.tokParty.generated ++ [openCall true, .sess 65538 .logout])) (by decide) (by decide),
      trivial⟩ }

set_option maxRecDepth 100000 in
/-- Its key has the value that the other party's key has. -/
example : Shows Demo.dhEnv (run Demo.dhEnv Demo.fresh (Demo.tokParty.derived (.dh (some [10])))) 65537 1 .value [8] := by
  unfold Shows; decide

/-- A party with an EC key. -/
def Demo.ecParty (more : List Call) : Party where
  lib := Demo.fresh
  before := Demo.setup ++ more
  between := []
  h := 65538
  h' := 65538
  pub := 1
  priv := 2
  key := 3
  mech := .ecKeyPairGen
  param := .null 0
  pubT := [.of .ecParams [6, 2, 0x2a, 3]]
  privT := []
  keyT := [.of .cls (ulong CKO_SECRET_KEY), .of .keyType (ulong CKK_GENERIC_SECRET)]

/-- Points that depend on the random generator. -/
def Demo.ecEnv : Env := { Demo.pairEnv with
  ecGen := fun n c => if 0 < c.size ∧ c.size ≤ 124 then some { k := 5, x := n % 3 + 1, y := 2 } else none
  ecdh := fun _ _ _ => some [7, 9] }

/-- The points of the two parties. -/
def Demo.pointOf (x : UInt8) : Bytes := 4 :: (List.replicate 31 0 ++ [x] ++ List.replicate 31 0 ++ [2])

theorem Demo.ecEnv_gen : GenLawful Demo.ecEnv where
  rsa := Demo.pair_gen.rsa
  dh := Demo.pair_gen.dh
  ec n c k h pub h1 h2 h3 := by
    simp only [Demo.ecEnv] at h
    split at h
    · rename_i hs
      exact Demo.ecdsa_pair' _ _ _ rfl h1 hs
    · cases h

set_option maxRecDepth 100000 in
/-- Non-vacuity of `c90_ecdh_partial`. -/
example : StoreLaws Demo.ecEnv.store ∧ HashLen Demo.ecEnv ∧ RandLen Demo.ecEnv ∧ GenLawful Demo.ecEnv ∧ Demo.ecEnv.key.Lawful ∧ EcdhLawful Demo.ecEnv ∧
    (Demo.ecParty []).EcAgrees Demo.ecEnv [6, 2, 0x2a, 3] (Demo.pointOf 1) (Demo.pointOf 2) ∧
    (Demo.ecParty Demo.other).EcAgrees Demo.ecEnv [6, 2, 0x2a, 3] (Demo.pointOf 2) (Demo.pointOf 1) := by
  refine ⟨Demo.store_laws, Demo.hashLen, Demo.randLen, Demo.ecEnv_gen, Demo.kx_lawful, ?_, ?_, ?_⟩
  · intro a b A B c c' P Q s s' _ _ _ _ _ h h'
    exact Option.some.inj (h.symm.trans h')
  · exact { start := Demo.fresh_start, noToken := Demo.noToken, tokens := by unfold BoolToken; decide, few := by decide,
            generates := by decide, mech := rfl, params := by unfold Shows; decide,
            publishes := by unfold Shows; decide, untouched := .inl ⟨rfl, fun c hc => by simp [Demo.ecParty] at hc⟩,
            derives := by decide }
  · exact { start := Demo.fresh_start, noToken := Demo.noToken, tokens := by unfold BoolToken; decide, few := by decide,
            generates := by decide, mech := rfl, params := by unfold Shows; decide,
            publishes := by unfold Shows; decide, untouched := .inl ⟨rfl, fun c hc => by simp [Demo.ecParty] at hc⟩,
            derives := by decide }

end Verif
