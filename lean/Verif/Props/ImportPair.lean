import Verif.Spec.ImportPair
import Verif.Spec.Param
import Verif.Proofs.Import
import Verif.Props.Import
import Verif.Props.Pair

/-!
# RSA and EC keys that the application brings along work (C130)
-/

namespace Verif

variable {e : Env}

/-- The object made from the template. -/
def Half.obj (A : Half) (k : KeyData) : Obj := { newObj 0 A.typ with cls := A.cls, data := k }

theorem Half.cls_cases (A : Half) : A.cls = CKO_PUBLIC_KEY ∨ A.cls = CKO_PRIVATE_KEY := by
  cases A <;> simp [Half.cls]

theorem Half.typ_cases (A : Half) : A.typ = CKK_RSA ∨ A.typ = CKK_EC := by
  cases A <;> simp [Half.typ]

theorem Half.not_cert (A : Half) : A.cls ≠ CKO_CERTIFICATE := by
  rcases A.cls_cases with h | h <;> rw [h] <;> decide

theorem checkData {a : CKA} {b : Bytes} (ha : a.kind = some .data) (hb : b.length < 2 ^ 32) : checkEntry true (.of a b) = .ok := by
  have hne : (b.length == unavailableInfo) = false := by
    rw [beq_eq_false_iff_ne]; unfold unavailableInfo; omega
  simp only [checkEntry, Entry.of, ha, hne, Bool.and_false, Bool.false_eq_true, if_false]

theorem setMpi_ok {x : KeyExt} {b : Bytes} (h : NumOk x b) : setMpi x (some b) = some (ofBytes b) := by
  unfold setMpi; dsimp only; rw [if_pos h.1]

theorem of_val (a : CKA) (b : Bytes) : (Entry.of a b).val = b := by
  show b.take b.length = b
  rw [List.take_length]

theorem octets_point {pt : Bytes} (h0 : 0 < pt.length) (h1 : pt.length < 256) : ecPointDer (octetString pt) = .ok pt := by
  unfold octetString
  cases pt with
  | nil => cases h0
  | cons a pt =>
    have hto : (UInt8.ofNat (a :: pt).length).toNat = (a :: pt).length := by
      rw [UInt8.toNat_ofNat', Nat.mod_eq_of_lt (by omega)]
    split
    · rename_i h
      have hlt : ¬ UInt8.ofNat (a :: pt).length ≥ 0x80 := by
        intro hx
        have : (0x80 : UInt8).toNat ≤ (UInt8.ofNat (a :: pt).length).toNat := hx
        rw [hto] at this
        have h80 : (0x80 : UInt8).toNat = 128 := rfl
        omega
      unfold ecPointDer
      dsimp only
      rw [if_neg (by simp), if_neg hlt, hto, if_neg (by simp)]
    · unfold ecPointDer
      dsimp only
      rw [if_neg (by simp), if_pos (by decide), if_neg (by simp), hto, if_neg (by simp)]

theorem octets_length (pt : Bytes) : (octetString pt).length ≤ pt.length + 3 := by
  unfold octetString; split <;> simp

theorem oid_params {x : KeyExt} {oid : Bytes} {c : Curve} (h0 : oid.length < 128) (hc : x.curve oid = some c) :
    ecSetParams x (0x06 :: UInt8.ofNat oid.length :: oid) = .ok c := by
  have hto : (UInt8.ofNat oid.length).toNat = oid.length := by
    rw [UInt8.toNat_ofNat', Nat.mod_eq_of_lt (by omega)]
  unfold ecSetParams
  dsimp only
  rw [if_neg (by simp), hto, if_neg (by simp), hc]

theorem half_setKey (A : Half) (tok : Bool) {k : KeyData} (hk : A.Makes e.key k) :
    setKey e.key { newObj 0 A.typ with cls := A.cls } (keyVals (A.tmpl tok)) = (.ok, A.obj k) := by
  cases A with
  | rsaPub n ex =>
    obtain ⟨h1, h2, rfl⟩ := hk
    have v1 : keyVals ((Half.rsaPub n ex).tmpl tok) .modulus = some n := congrArg some (of_val _ _)
    have v2 : keyVals ((Half.rsaPub n ex).tmpl tok) .publicExponent = some ex := congrArg some (of_val _ _)
    have v3 : ∀ a ∈ [CKA.privateExponent, .prime1, .prime2, .exponent1, .exponent2, .coefficient, .modulusBits],
        keyVals ((Half.rsaPub n ex).tmpl tok) a = none := by
      intro a ha
      simp only [List.mem_cons, List.not_mem_nil, or_false] at ha
      rcases ha with rfl | rfl | rfl | rfl | rfl | rfl | rfl <;> rfl
    show setRsaKey _ _ _ = _
    unfold setRsaKey
    rw [v1, v2, v3 .privateExponent (by simp), v3 .prime1 (by simp), v3 .prime2 (by simp), v3 .exponent1 (by simp),
      v3 .exponent2 (by simp), v3 .coefficient (by simp), v3 .modulusBits (by simp), setMpi_ok h1, setMpi_ok h2]
    rfl
  | rsaPriv n ex d p q dP dQ u =>
    obtain ⟨h1, h2, h3, h4, h5, h6, h7, h8, h9, rfl⟩ := hk
    have v1 : keyVals ((Half.rsaPriv n ex d p q dP dQ u).tmpl tok) .modulus = some n := congrArg some (of_val _ _)
    have v2 : keyVals ((Half.rsaPriv n ex d p q dP dQ u).tmpl tok) .publicExponent = some ex := congrArg some (of_val _ _)
    have v3 : keyVals ((Half.rsaPriv n ex d p q dP dQ u).tmpl tok) .privateExponent = some d := congrArg some (of_val _ _)
    have v4 : keyVals ((Half.rsaPriv n ex d p q dP dQ u).tmpl tok) .prime1 = some p := congrArg some (of_val _ _)
    have v5 : keyVals ((Half.rsaPriv n ex d p q dP dQ u).tmpl tok) .prime2 = some q := congrArg some (of_val _ _)
    have v6 : keyVals ((Half.rsaPriv n ex d p q dP dQ u).tmpl tok) .exponent1 = some dP := congrArg some (of_val _ _)
    have v7 : keyVals ((Half.rsaPriv n ex d p q dP dQ u).tmpl tok) .exponent2 = some dQ := congrArg some (of_val _ _)
    have v8 : keyVals ((Half.rsaPriv n ex d p q dP dQ u).tmpl tok) .coefficient = some u := congrArg some (of_val _ _)
    have v9 : keyVals ((Half.rsaPriv n ex d p q dP dQ u).tmpl tok) .modulusBits = none := rfl
    show setRsaKey _ _ _ = _
    unfold setRsaKey
    rw [v1, v2, v3, v4, v5, v6, v7, v8, v9, setMpi_ok h1, setMpi_ok h2, setMpi_ok h3, setMpi_ok h4, setMpi_ok h5,
      setMpi_ok h6, setMpi_ok h7, setMpi_ok h8]
    have hp : (!(ofBytes d == 0 && ofBytes p == 0)) = true := by simp [h9]
    dsimp only
    rw [hp]
    rfl
  | ecPub oid pt =>
    obtain ⟨c, q, h1, h2, h3, h4, h5, rfl⟩ := hk
    have v1 : keyVals ((Half.ecPub oid pt).tmpl tok) .ecParams = some (0x06 :: UInt8.ofNat oid.length :: oid) := congrArg some (of_val _ _)
    have v2 : keyVals ((Half.ecPub oid pt).tmpl tok) .ecPoint = some (octetString pt) := congrArg some (of_val _ _)
    have v3 : keyVals ((Half.ecPub oid pt).tmpl tok) .value = none := rfl
    show setEcKey _ _ _ = _
    unfold setEcKey
    rw [v1, v2, v3]
    simp only [ecStep1, oid_params h1 h2, ecThen, ecStep2, ecStep3, ecSetPoint, octets_point h3 h4, if_true, reduceCtorEq, if_false, h5]
    rfl
  | ecPriv oid v =>
    obtain ⟨c, h1, h2, h3, rfl⟩ := hk
    have v1 : keyVals ((Half.ecPriv oid v).tmpl tok) .ecParams = some (0x06 :: UInt8.ofNat oid.length :: oid) := congrArg some (of_val _ _)
    have v2 : keyVals ((Half.ecPriv oid v).tmpl tok) .ecPoint = none := rfl
    have v3 : keyVals ((Half.ecPriv oid v).tmpl tok) .value = some v := congrArg some (of_val _ _)
    show setEcKey _ _ _ = _
    unfold setEcKey
    rw [v1, v2, v3]
    simp only [ecStep1, oid_params h1 h2, ecThen, ecStep2, ecStep3, setMpi_ok h3, if_true]
    rfl

theorem half_check (A : Half) (tok : Bool) {k : KeyData} (hk : A.Makes e.key k) : checkAttributes true (A.tmpl tok) = .ok := by
  have h5 : checkEntry true (.of .keyType (ulong A.typ)) = .ok := by rcases A.typ_cases with h | h <;> rw [h] <;> decide
  have h6 : checkEntry true (.of .token [if tok then 1 else 0]) = .ok := by cases tok <;> decide
  have h7 : checkEntry true (.of .cls (ulong A.cls)) = .ok := by rcases A.cls_cases with h | h <;> rw [h] <;> decide
  have oid : ∀ o : Bytes, o.length < 128 → (0x06 :: UInt8.ofNat o.length :: o : Bytes).length < 2 ^ 32 := by
    intro o ho; simp only [List.length_cons]; omega
  cases A with
  | rsaPub n ex =>
    obtain ⟨h1, h2, _⟩ := hk
    simp only [Half.tmpl, Half.parts, checkAttributes, h5, h6, h7, checkData (a := .modulus) rfl h1.2,
      checkData (a := .publicExponent) rfl h2.2, if_true]
  | rsaPriv n ex d p q dP dQ u =>
    obtain ⟨g1, g2, g3, g4, g5, g6, g7, g8, _⟩ := hk
    simp only [Half.tmpl, Half.parts, checkAttributes, h5, h6, h7, checkData (a := .modulus) rfl g1.2,
      checkData (a := .publicExponent) rfl g2.2, checkData (a := .privateExponent) rfl g3.2, checkData (a := .prime1) rfl g4.2,
      checkData (a := .prime2) rfl g5.2, checkData (a := .exponent1) rfl g6.2, checkData (a := .exponent2) rfl g7.2,
      checkData (a := .coefficient) rfl g8.2, if_true]
  | ecPub o pt =>
    obtain ⟨c, q, g1, _, _, g2, _⟩ := hk
    have := octets_length pt
    simp only [Half.tmpl, Half.parts, checkAttributes, h5, h6, h7, checkData (a := .ecParams) rfl (oid o g1),
      checkData (a := .ecPoint) (b := octetString pt) rfl (by omega), if_true]
  | ecPriv o v =>
    obtain ⟨c, g1, _, g2, _⟩ := hk
    simp only [Half.tmpl, Half.parts, checkAttributes, h5, h6, h7, checkData (a := .ecParams) rfl (oid o g1),
      checkData (a := .value) rfl g2.2, if_true]

theorem createObject_half {s : Session} (hu : s.use = .rw) (A : Half) (tok : Bool) {k : KeyData} (hk : A.Makes e.key k) :
    createObject e s (A.tmpl tok) = (.ok, A.obj k) := by
  have h4 := half_check A tok hk
  have h6 := half_setKey A tok hk
  have f1 : findAttr (A.tmpl tok) .cls = some (.of .cls (ulong A.cls)) := by
    cases A <;> simp [findAttr, Half.tmpl, Half.parts, Entry.of]
  have f2 : findAttr (A.tmpl tok) .keyType = some (.of .keyType (ulong A.typ)) := by
    cases A <;> simp [findAttr, Half.tmpl, Half.parts, Entry.of]
  have h1 : templClass (A.tmpl tok) = .ok A.cls := by
    unfold templClass; rw [f1]
    rcases A.cls_cases with h | h <;> rw [h] <;> rfl
  have h2 : templUlong (A.tmpl tok) .keyType = .ok A.typ := by
    unfold templUlong; rw [f2]
    rcases A.typ_cases with h | h <;> rw [h] <;> rfl
  have h3 : keyTypeOk A.typ = true := by rcases A.typ_cases with h | h <;> rw [h] <;> rfl
  have a1 : setAttr (A.obj k) (.of .cls (ulong A.cls)) = (.ok, A.obj k) := by
    have hl : leNat (ulong A.cls) = A.cls := by rcases A.cls_cases with h | h <;> rw [h] <;> rfl
    have hr : reinterprets (A.obj k) A.cls = false := by
      unfold reinterprets Half.obj
      rcases A.cls_cases with h | h <;> rw [h] <;> rfl
    unfold setAttr
    simp only [Entry.of, Entry.val, Option.getD_some, List.take_length, hl, hr]
    rfl
  have h7 : setAttrs (A.obj k) (A.tmpl tok) = (.ok, A.obj k) := by
    unfold Half.tmpl
    simp only [setAttrs, a1]
    cases A <;> rfl
  have h5 : ∃ ps, keyParams { newObj 0 A.typ with cls := A.cls } = some ps ∧
      (ps.any fun a => (keyAttr (A.tmpl tok) a).any fun e => e.mem.isNone) = false := by
    cases A <;> exact ⟨_, rfl, rfl⟩
  obtain ⟨ps, h5, h8⟩ := h5
  exact createObject_of hu h1 h2 A.not_cert h3 h4 h5 h8 h6 h7

/-- The Inits of the mechanisms the key is for. -/
theorem half_init (x : Crypto) (A : Half) {kd : Kind} {m : Mech} {p : MechParam} (hf : A.For kd m) (hp : ParamOk m p) (s : OpSt)
    (o : Obj) (ht : o.typ = A.typ) : (initCall x kd s o m p).2 = .ok := by
  have plain : ∀ t i, o.typ = t → p = .null 0 → (plainInit s o t m p i).2 = .ok := by
    intro t i h1 h2
    subst h2
    unfold plainInit
    rw [if_neg (fun h => h h1)]
    rfl
  have pss : ∀ i, o.typ = CKK_RSA → m = .rsaPss → (pssInit s o p i).2 = .ok := by
    intro i h1 h2
    subst h2
    unfold pssInit
    rw [if_neg (fun h => h h1)]
    cases p with
    | pss a b n =>
      cases a with
      | none => exact absurd hp id
      | some a =>
        cases b with
        | none => exact absurd hp id
        | some b =>
          have hp : n ≤ 62 := hp
          have hi : toInt32 n = n := by
            unfold toInt32
            rw [Nat.mod_eq_of_lt (by omega), if_pos (by omega)]
          have : ¬ (n : Int) > pssSaltMax := by unfold pssSaltMax; omega
          simp only [setPss, hi, if_neg this, if_true]
          rfl
    | _ => exact absurd hp id
  have oaep : ∀ i, o.typ = CKK_RSA → m = .rsaOaep → (oaepInit s o p i).2 = .ok := by
    intro i h1 h2
    subst h2
    unfold oaepInit
    rw [if_neg (fun h => h h1)]
    cases p with
    | oaep a b src lab =>
      cases a with
      | none => exact absurd hp id
      | some a =>
        cases b with
        | none => exact absurd hp id
        | some b =>
          have hp : src = true := hp
          subst hp
          rfl
    | _ => exact absurd hp id
  cases kd with
  | encrypt =>
    obtain ⟨h1, rfl | rfl | rfl⟩ := hf
    · exact plain _ _ (ht.trans h1) hp
    · exact plain _ _ (ht.trans h1) hp
    · exact oaep _ (ht.trans h1) rfl
  | decrypt =>
    obtain ⟨h1, rfl | rfl | rfl⟩ := hf
    · exact plain _ _ (ht.trans h1) hp
    · exact plain _ _ (ht.trans h1) hp
    · exact oaep _ (ht.trans h1) rfl
  | sign =>
    rcases hf with ⟨h1, rfl | rfl | rfl⟩ | ⟨h1, rfl⟩
    · exact plain _ _ (ht.trans h1) hp
    · exact plain _ _ (ht.trans h1) hp
    · exact pss _ (ht.trans h1) rfl
    · exact plain _ _ (ht.trans h1) hp
  | verify =>
    rcases hf with ⟨h1, rfl | rfl | rfl⟩ | ⟨h1, rfl⟩
    · exact plain _ _ (ht.trans h1) hp
    · exact plain _ _ (ht.trans h1) hp
    · exact pss _ (ht.trans h1) rfl
    · exact plain _ _ (ht.trans h1) hp

theorem half_encode (A : Half) {k : KeyData} (hs : A.Stores e.store k) (key : Bytes) (b : Bool) (u : Nat) :
    (encodeObj e.store key false { A.obj k with onToken := b, uid := u }).1 = true := by
  cases A <;> cases k <;> try exact absurd hs id
  all_goals
    have hs := hs
    simp only [Half.Stores] at hs
    simp only [encodeObj, encodeKey, encodeRsa, encodeEcc, Half.obj, Half.cls, Half.typ, newObj, Obj.rsa, Obj.ec]
    simp (config := { decide := true }) [hs]

/-- In the state `l` an operation with the key `k` is in progress in session `h`. -/
def OnKey (e : Env) (l : Lib) (h : Nat) (kd : Kind) (m : Mech) (p : MechParam) (k : KeyData) : Prop :=
  ∃ s o st, o.data = k ∧ initCall e.crypto kd s o m p = (st, .ok) ∧
    ∀ d, answer e l (dataOf h d) = { rv := (d.run e.crypto st (some o)).2.rv, out := some (d.run e.crypto st (some o)).2 }

/-- Importing a key, and using it. -/
theorem half_use (hh : HashLen e) (hr : RandLen e) {l₀ : Lib} (h₀ : Start l₀) (hd : NoToken l₀) (cs : List Call) (h : Nat)
    (ho : OpenAs e (run e l₀ cs) h true) (tok : Bool) (A : Half) {k : KeyData} (hk : A.Makes e.key k)
    (hs : tok = true → A.Stores e.store k)
    (hroom : if tok then (tokenObjs (run e l₀ cs)).length < 64 else (sessObjs (run e l₀ cs) h).length < 8) :
    ∃ κ, answer e (run e l₀ cs) (createCall h (A.tmpl tok)) = { rv := .ok, handle := some κ } ∧
      ∀ now, Since e l₀ cs h (A.tmpl tok) κ now → ∀ kd m p, A.For kd m → ParamOk m p →
        answer e (run e l₀ now) (initOf h kd m p κ) = { rv := .ok } ∧
        ∀ later, Going e l₀ now h κ kd m p later →
          OnKey e (run e l₀ later) h kd m p k := by
  have hc : (A.obj k).cls ≠ CKO_CERTIFICATE := A.not_cert
  obtain ⟨κ, h1, h2⟩ := import_use hh hr h₀ hd cs h ho tok (fun s hu => createObject_half hu A tok hk)
    (by cases A <;> cases tok <;> rfl) (fun ht key b u => half_encode A (hs ht) key b u) hc hroom
  refine ⟨κ, h1, fun now hn kd m p hf hp => ?_⟩
  obtain ⟨⟨mid, hnow, hmid⟩, hb, hl, hg⟩ := hn
  obtain ⟨g1, g2⟩ := h2 mid hmid now hnow hb hl hg kd m p (fun s o ht _ => half_init e.crypto A hf hp s o ht)
  refine ⟨g1, fun later hla => ?_⟩
  obtain ⟨⟨cs', rfl, hcs⟩, hgd⟩ := hla
  obtain ⟨s, o, st, _, a2, a3, a4⟩ := g2 cs' hcs hgd
  exact ⟨s, o, st, a2, a3, a4⟩

/-- **C130**: an RSA or EC key that an application brings along can be used, whatever happened before.  After any history,
in any read/write session with room for the key, importing it succeeds; and then, for as long as the key is not touched,
every operation the type of key is for can be begun with it. -/
theorem c130_import (hh : HashLen e) (hr : RandLen e) {l₀ : Lib} (h₀ : Start l₀) (hd : NoToken l₀) (cs : List Call) (h : Nat)
    (ho : OpenAs e (run e l₀ cs) h true) (tok : Bool) (A : Half) (k : KeyData) (hk : A.Makes e.key k)
    (hs : tok = true → A.Stores e.store k)
    (hroom : if tok then (tokenObjs (run e l₀ cs)).length < 64 else (sessObjs (run e l₀ cs) h).length < 8) :
    ∃ κ, answer e (run e l₀ cs) (createCall h (A.tmpl tok)) = { rv := .ok, handle := some κ } ∧
      ∀ now, Since e l₀ cs h (A.tmpl tok) κ now → ∀ kd m p, A.For kd m → ParamOk m p →
        answer e (run e l₀ now) (.sess h (.cryptInit kd (some (m, p)) κ)) = { rv := .ok } := by
  obtain ⟨κ, h1, h2⟩ := half_use hh hr h₀ hd cs h ho tok A hk hs hroom
  exact ⟨κ, h1, fun now hn kd m p hf hp => (h2 now hn kd m p hf hp).1⟩

theorem finish_wrote {s : OpSt} {r : Option Bytes} {w : Bytes} :
    ({ rv := (finish s r).2.rv, out := some (finish s r).2 } : Resp) = wrote w ↔ r = some w := by
  cases r with
  | none => simp [finish, wrote]
  | some v => simp only [finish, wrote, Resp.mk.injEq, Option.some.injEq, Out.mk.injEq]; constructor <;> simp_all

theorem finishSig_wrote {s : OpSt} {n : Nat} {r : Option Bytes} {w : Bytes} :
    ({ rv := (finishSig s n r).2.rv, out := some (finishSig s n r).2 } : Resp) = wrote w ↔ r = some w := by
  cases r with
  | none => simp [finishSig, wrote]
  | some v => simp only [finishSig, wrote, Resp.mk.injEq, Option.some.injEq, Out.mk.injEq]; constructor <;> simp_all

/-- What an operation with an RSA key answers. -/
theorem onKey_rsa {l : Lib} {h : Nat} {A : Half} {kd : Kind} {m : Mech} {p : MechParam} {k : RsaKey} (hon : OnKey e l h kd m p (.rsa k))
    (hf : A.For kd m) (hp : ParamOk m p) (hv : kd ≠ .verify) (hm : m ≠ .ecdsa) {inp : Bytes} {n rnd : Nat} {w : Bytes} (hl : k.keyLen ≤ n) :
    answer e l (goCall h n rnd inp kd) = wrote w ↔ rsaOut e.crypto.rsa k rnd inp kd m p = some w := by
  obtain ⟨s, o, st, hdat, hi, hans⟩ := hon
  have hkey : o.rsa = k := by unfold Obj.rsa; rw [hdat]
  have hn' : ¬ o.rsa.keyLen > n := by rw [hkey]; omega
  have hpad : (if inp.length < o.rsa.keyLen then List.replicate (o.rsa.keyLen - inp.length) 0 ++ inp else inp) =
      List.replicate (k.keyLen - inp.length) 0 ++ inp := by
    rw [hkey]
    split
    · rfl
    · rw [show k.keyLen - inp.length = 0 by omega]; rfl
  cases kd with
  | verify => exact absurd rfl hv
  | sign =>
    have := hans (.sign (some inp) (.buf n) rnd)
    unfold dataOf at this
    simp only [goCall]
    rw [this]
    rcases hf with ⟨_, rfl | rfl | rfl⟩ | ⟨_, rfl⟩
    · obtain ⟨b1, b2⟩ := plainInit_ok hi
      simp only [DataCall.run, Verif.sign, withArgs, b1, b2, needInit, sized, if_neg hn', if_true, reduceCtorEq, if_false, rsaSign, hpad]
      rw [finishSig_wrote, hkey]; rfl
    · obtain ⟨b1, b2⟩ := plainInit_ok hi
      simp only [DataCall.run, Verif.sign, withArgs, b1, b2, needInit, sized, if_neg hn', if_true, reduceCtorEq, if_false]
      rw [finishSig_wrote, hkey]; rfl
    · obtain ⟨b1, b2, ha, hb, nn, rfl, b3⟩ := pssInit_ok hi
      have hp : nn ≤ 62 := hp
      have hi32 : toInt32 nn = nn := by
        unfold toInt32
        rw [Nat.mod_eq_of_lt (by omega), if_pos (by omega)]
      simp only [DataCall.run, Verif.sign, withArgs, b1, b2, b3, needInit, sized, if_neg hn', if_true, reduceCtorEq, if_false, pssSign,
        Bool.false_eq_true, hi32]
      rw [finishSig_wrote, hkey]; rfl
    · exact absurd rfl hm
  | encrypt =>
    have := hans (.encrypt (some inp) (.buf n) rnd)
    unfold dataOf at this
    simp only [goCall]
    rw [this]
    obtain ⟨_, rfl | rfl | rfl⟩ := hf
    · obtain ⟨b1, b2⟩ := plainInit_ok hi
      simp only [DataCall.run, Verif.encrypt, withArgs, b1, b2, needInit, sized, if_neg hn', if_true, reduceCtorEq, if_false]
      rw [finish_wrote, hkey]; rfl
    · obtain ⟨b1, b2⟩ := plainInit_ok hi
      simp only [DataCall.run, Verif.encrypt, withArgs, b1, b2, needInit, sized, if_neg hn', if_true, reduceCtorEq, if_false]
      rw [finish_wrote, hkey]; rfl
    · obtain ⟨b1, b2, ha, hb, nn, rfl, b3⟩ := oaepInit_ok hi
      simp only [DataCall.run, Verif.encrypt, withArgs, b1, b2, needInit, sized, if_neg hn', if_true, reduceCtorEq, if_false]
      rw [finish_wrote]
      simp only [oaepEnc, b3, Bool.false_eq_true, if_false, hkey]; rfl
  | decrypt =>
    have := hans (.decrypt (some inp) (.buf n) rnd)
    unfold dataOf at this
    simp only [goCall]
    rw [this]
    obtain ⟨_, rfl | rfl | rfl⟩ := hf
    · obtain ⟨b1, b2⟩ := plainInit_ok hi
      simp only [DataCall.run, Verif.decrypt, withArgs, b1, b2, needInit, sized, if_neg hn', if_true, reduceCtorEq, if_false]
      rw [finish_wrote, hkey]; rfl
    · obtain ⟨b1, b2⟩ := plainInit_ok hi
      simp only [DataCall.run, Verif.decrypt, withArgs, b1, b2, needInit, sized, if_neg hn', if_true, reduceCtorEq, if_false]
      rw [finish_wrote, hkey]; rfl
    · obtain ⟨b1, b2, ha, hb, nn, rfl, b3⟩ := oaepInit_ok hi
      simp only [DataCall.run, Verif.decrypt, withArgs, b1, b2, needInit, sized, if_neg hn', if_true, reduceCtorEq, if_false]
      rw [finish_wrote]
      simp only [oaepDec, b3, Bool.false_eq_true, if_false, hkey]; rfl

/-- **C130** for RSA: the operation begun with the imported key gives what RSA gives under the imported numbers, and nothing
if RSA gives nothing: `C_Sign`, `C_Encrypt` or `C_Decrypt`, after calls that do not concern the operation, with a buffer as
long as the modulus. -/
theorem c130_rsa (hh : HashLen e) (hr : RandLen e) {l₀ : Lib} (h₀ : Start l₀) (hd : NoToken l₀) (cs : List Call) (h : Nat)
    (ho : OpenAs e (run e l₀ cs) h true) (tok : Bool) (A : Half) (k : RsaKey) (hk : A.Makes e.key (.rsa k))
    (hs : tok = true → A.Stores e.store (.rsa k))
    (hroom : if tok then (tokenObjs (run e l₀ cs)).length < 64 else (sessObjs (run e l₀ cs) h).length < 8) :
    ∃ κ, answer e (run e l₀ cs) (createCall h (A.tmpl tok)) = { rv := .ok, handle := some κ } ∧
      ∀ now, Since e l₀ cs h (A.tmpl tok) κ now → ∀ kd m p, A.For kd m → ParamOk m p → kd ≠ .verify → m ≠ .ecdsa →
        ∀ later, Going e l₀ now h κ kd m p later → ∀ inp n rnd w, k.keyLen ≤ n →
          (answer e (run e l₀ later) (goCall h n rnd inp kd) = wrote w ↔ rsaOut e.crypto.rsa k rnd inp kd m p = some w) := by
  obtain ⟨κ, h1, h2⟩ := half_use hh hr h₀ hd cs h ho tok A hk hs hroom
  refine ⟨κ, h1, fun now hn kd m p hf hp hv hm later hla inp n rnd w hl => ?_⟩
  exact onKey_rsa ((h2 now hn kd m p hf hp).2 later hla) hf hp hv hm hl

/-- A key that was imported: what its operations answer. -/
theorem half_going (hh : HashLen e) (hr : RandLen e) {l₀ : Lib} (h₀ : Start l₀) (hd : NoToken l₀) {cs : List Call} {h κ : Nat}
    {tok : Bool} {A : Half} {k : KeyData} (hk : A.Makes e.key k) (hs : tok = true → A.Stores e.store k)
    (hmade : answer e (run e l₀ cs) (createCall h (A.tmpl tok)) = { rv := .ok, handle := some κ })
    {now later : List Call} (hn : Since e l₀ cs h (A.tmpl tok) κ now) {kd : Kind} {m : Mech} {p : MechParam} (hf : A.For kd m)
    (hp : ParamOk m p) (hla : Going e l₀ now h κ kd m p later) :
    OnKey e (run e l₀ later) h kd m p k := by
  obtain ⟨s, o, on, k', l', hb, hc, hs', hu, hcr, hon, hadd, hstep⟩ := create_answer (by rw [hmade])
  have hon' : tokenByte (A.tmpl tok) 0 = .ok (if tok then 1 else 0) := by cases A <;> cases tok <;> rfl
  have ho : OpenAs e (run e l₀ cs) h true := (openAs_iff (h₀.sinv.run e cs)).mpr ⟨hb, s, hs', by rw [hu]; rfl⟩
  have hroom : if tok then (tokenObjs (run e l₀ cs)).length < 64 else (sessObjs (run e l₀ cs) h).length < 8 := by
    rw [hon'] at hon
    have hon := Except.ok.inj hon
    subst hon
    have hso : sessObjs (run e l₀ cs) h = s.objs := by unfold sessObjs; rw [hs']; rfl
    unfold sessAddObject at hadd
    cases tok with
    | false =>
      simp only [Bool.false_eq_true, if_false, hso]
      apply Nat.lt_of_not_le
      intro hx
      have : s.objs.length ≥ sessObjMax := hx
      simp [this] at hadd
    | true =>
      simp only [if_true]
      apply Nat.lt_of_not_le
      intro hx
      have : (run e l₀ cs).token.objs.length ≥ tokenObjMax := hx
      simp [this] at hadd
  obtain ⟨κ', h1, h2⟩ := half_use hh hr h₀ hd cs h ho tok A hk hs hroom
  have : κ' = κ := by
    rw [hmade] at h1
    exact (Option.some.inj (congrArg Resp.handle h1 :)).symm
  subst this
  exact (h2 now hn kd m p hf hp).2 later hla

/-- A signature under one key, checked under the other of the pair. -/
theorem onKey_sign (hl : e.crypto.rsa.Lawful) {l l' : Lib} {h h' : Nat} {m : Mech} {p : MechParam} {a b : KeyData}
    (hA : OnKey e l h .sign m p a) (hB : OnKey e l' h' .verify m p b) {d : Bytes} {n rnd : Nat} {w : Bytes}
    (hraw : m = .rsaX509 → d.length = (Obj.rsa { data := a }).keyLen ∧ d.length < 2 ^ 31)
    (hsig : answer e l (.sess h (.crypt (.sign (some d) (.buf n) rnd))) = wrote w)
    (hpair : KeyPair e.crypto m { data := a } { data := b }) :
    (answer e l' (.sess h' (.crypt (.verify (some d) (some w))))).rv = .ok := by
  obtain ⟨s, o, s1, a1, a2, a3⟩ := hA
  obtain ⟨t, q, t1, b1, b2, b3⟩ := hB
  have ro : o.rsa = Obj.rsa { data := a } := by unfold Obj.rsa; rw [a1]
  have rq : q.rsa = Obj.rsa { data := b } := by unfold Obj.rsa; rw [b1]
  have eo : o.ec = Obj.ec { data := a } := by unfold Obj.ec; rw [a1]
  have eq' : q.ec = Obj.ec { data := b } := by unfold Obj.ec; rw [b1]
  have so : o.symm = Obj.symm { data := a } := by unfold Obj.symm; rw [a1]
  have sq : q.symm = Obj.symm { data := b } := by unfold Obj.symm; rw [b1]
  have hkp : KeyPair e.crypto m o q := by
    unfold KeyPair at hpair ⊢
    rw [ro, rq, eo, eq', so, sq]
    exact hpair
  have g := a3 (.sign (some d) (.buf n) rnd)
  unfold dataOf at g
  rw [hsig] at g
  have g1 : (Verif.sign e.crypto s1 (some o) (some d) (.buf n) rnd).2.rv = .ok := ((congrArg Resp.rv g :)).symm
  have g2 : (Verif.sign e.crypto s1 (some o) (some d) (.buf n) rnd).2.wr = w :=
    (congrArg Out.wr (Option.some.inj (congrArg Resp.out g :)) :).symm
  have hv := b3 (.verify (some d) (some w))
  unfold dataOf at hv
  rw [hv]
  have := c77_partial e.crypto hl s t s1 t1 o q m p d n rnd hkp (fun hm => by rw [ro]; exact hraw hm) a2 b2 g1
  rw [g2] at this
  exact this

/-- **C130** for signatures: what is signed with an imported private key is accepted with the imported public key.  The two
halves may be imported after different histories, in different sessions or by different processes; each need only not be
touched before it is used.
Missing: plain RSA with data shorter than the key (`c51_violated_refused`). -/
theorem c130_sign_partial (hl : e.crypto.rsa.Lawful) (hh : HashLen e) (hr : RandLen e)
    -- the private half is imported, and data is signed with it
    {l₀ : Lib} (h₀ : Start l₀) (hd₀ : NoToken l₀) (cs : List Call) (h κ : Nat) (tok : Bool) (A : Half) (a : KeyData)
    (hA : A.Makes e.key a) (hsA : tok = true → A.Stores e.store a)
    (hmade : answer e (run e l₀ cs) (createCall h (A.tmpl tok)) = { rv := .ok, handle := some κ })
    (now later : List Call) (hn : Since e l₀ cs h (A.tmpl tok) κ now) (m : Mech) (p : MechParam) (hfA : A.For .sign m)
    (hp : ParamOk m p) (hla : Going e l₀ now h κ .sign m p later) (d : Bytes) (n rnd : Nat) (w : Bytes)
    (hraw : m = .rsaX509 → d.length = (Obj.rsa { data := a }).keyLen ∧ d.length < 2 ^ 31)
    (hsig : answer e (run e l₀ later) (.sess h (.crypt (.sign (some d) (.buf n) rnd))) = wrote w)
    -- the public half is imported, and the signature is checked with it
    {l₁ : Lib} (h₁ : Start l₁) (hd₁ : NoToken l₁) (cs' : List Call) (h' κ' : Nat) (tok' : Bool) (B : Half) (b : KeyData)
    (hB : B.Makes e.key b) (hsB : tok' = true → B.Stores e.store b)
    (hmade' : answer e (run e l₁ cs') (createCall h' (B.tmpl tok')) = { rv := .ok, handle := some κ' })
    (now' later' : List Call) (hn' : Since e l₁ cs' h' (B.tmpl tok') κ' now') (hfB : B.For .verify m)
    (hla' : Going e l₁ now' h' κ' .verify m p later')
    -- the two belong together
    (hpair : KeyPair e.crypto m { data := a } { data := b }) :
    (answer e (run e l₁ later') (.sess h' (.crypt (.verify (some d) (some w))))).rv = .ok := by
  exact onKey_sign hl (half_going hh hr h₀ hd₀ hA hsA hmade hn hfA hp hla) (half_going hh hr h₁ hd₁ hB hsB hmade' hn' hfB hp hla')
    hraw hsig hpair

/-- What was encrypted under one key is decrypted under the other of the pair. -/
theorem onKey_decrypt {l l' : Lib} {h h' : Nat} {B : Half} {m : Mech} {p : MechParam} {a b : RsaKey} (hfB : B.For .encrypt m)
    (hA : OnKey e l h .decrypt m p (.rsa a)) (hB : OnKey e l' h' .encrypt m p (.rsa b)) {d : Bytes} {n rnd n' rnd' : Nat} {w : Bytes}
    (henc : answer e l' (.sess h' (.crypt (.encrypt (some d) (.buf n) rnd))) = wrote w)
    (hroom : a.keyLen ≤ n') (hraw : m = .rsaX509 → d.length = a.keyLen) (hpair : RsaPair e.crypto.rsa a b) :
    answer e l (.sess h (.crypt (.decrypt (some w) (.buf n') rnd'))) = wrote d := by
  obtain ⟨s, o, s1, a1, a2, a3⟩ := hA
  obtain ⟨t, q, t1, b1, b2, b3⟩ := hB
  have ro : o.rsa = a := by unfold Obj.rsa; rw [a1]
  have rq : q.rsa = b := by unfold Obj.rsa; rw [b1]
  have hm : m = .rsaX509 ∧ d.length = o.rsa.keyLen ∨ m = .rsaPkcs ∨ m = .rsaOaep := by
    obtain ⟨_, h | h | h⟩ := hfB
    · exact .inl ⟨h, by rw [ro]; exact hraw h⟩
    · exact .inr (.inl h)
    · exact .inr (.inr h)
  have g := b3 (.encrypt (some d) (.buf n) rnd)
  unfold dataOf at g
  rw [henc] at g
  have g1 : (Verif.encrypt e.crypto t1 (some q) (some d) (.buf n) rnd).2.rv = .ok := ((congrArg Resp.rv g :)).symm
  have g2 : (Verif.encrypt e.crypto t1 (some q) (some d) (.buf n) rnd).2.wr = w :=
    (congrArg Out.wr (Option.some.inj (congrArg Resp.out g :)) :).symm
  have key := c78_rsa_round_trip e.crypto t s t1 s1 o q m p d n n' rnd rnd' (by rw [ro, rq]; exact hpair) hm b2 a2 g1
    (by rw [ro]; exact hroom)
  rw [g2] at key
  have hv := a3 (.decrypt (some w) (.buf n') rnd')
  unfold dataOf at hv
  rw [hv]
  simp only [DataCall.run]
  rw [key]
  rfl

/-- **C130** for encryption: what is encrypted with an imported public key is decrypted with the imported private key. -/
theorem c130_decrypt (hh : HashLen e) (hr : RandLen e)
    -- the public half is imported, and data is encrypted with it
    {l₁ : Lib} (h₁ : Start l₁) (hd₁ : NoToken l₁) (cs' : List Call) (h' κ' : Nat) (tok' : Bool) (B : Half) (b : RsaKey)
    (hB : B.Makes e.key (.rsa b)) (hsB : tok' = true → B.Stores e.store (.rsa b))
    (hmade' : answer e (run e l₁ cs') (createCall h' (B.tmpl tok')) = { rv := .ok, handle := some κ' })
    (now' later' : List Call) (hn' : Since e l₁ cs' h' (B.tmpl tok') κ' now') (m : Mech) (p : MechParam) (hfB : B.For .encrypt m)
    (hp : ParamOk m p) (hla' : Going e l₁ now' h' κ' .encrypt m p later') (d : Bytes) (n rnd : Nat) (w : Bytes)
    (henc : answer e (run e l₁ later') (.sess h' (.crypt (.encrypt (some d) (.buf n) rnd))) = wrote w)
    -- the private half is imported, and the ciphertext is decrypted with it
    {l₀ : Lib} (h₀ : Start l₀) (hd₀ : NoToken l₀) (cs : List Call) (h κ : Nat) (tok : Bool) (A : Half) (a : RsaKey)
    (hA : A.Makes e.key (.rsa a)) (hsA : tok = true → A.Stores e.store (.rsa a))
    (hmade : answer e (run e l₀ cs) (createCall h (A.tmpl tok)) = { rv := .ok, handle := some κ })
    (now later : List Call) (hn : Since e l₀ cs h (A.tmpl tok) κ now) (hfA : A.For .decrypt m)
    (hla : Going e l₀ now h κ .decrypt m p later) (n' rnd' : Nat) (hroom : a.keyLen ≤ n')
    (hraw : m = .rsaX509 → d.length = a.keyLen)
    -- the two belong together
    (hpair : RsaPair e.crypto.rsa a b) :
    answer e (run e l₀ later) (.sess h (.crypt (.decrypt (some w) (.buf n') rnd'))) = wrote d := by
  exact onKey_decrypt hfB (half_going hh hr h₀ hd₀ hA hsA hmade hn hfA hp hla) (half_going hh hr h₁ hd₁ hB hsB hmade' hn' hfB hp hla')
    henc hroom hraw hpair

/-! ## Keys imported into used sessions -/

namespace Demo

def rsaHalf : Half := .rsaPriv [1, 15] [1, 0, 1] [3] [3] [5] [1] [1] [2]
def rsaOther : Half := .rsaPub [1, 15] [1, 0, 1]
def ecHalf : Half := .ecPriv [0x2a, 0x03] [7]
def ecOther : Half := .ecPub [0x2a, 0x03] (0x04 :: List.replicate 64 9)

/-- The halves are ones wolfCrypt takes, and belong together. -/
example : (∃ a, rsaHalf.Makes pairEnv.key (.rsa a) ∧ ∃ b, rsaOther.Makes pairEnv.key (.rsa b) ∧ a.keyLen = 2 ∧
      RsaPair pairEnv.crypto.rsa a b) ∧
    ∃ a, ecHalf.Makes pairEnv.key (.ec a) ∧ ∃ b, ecOther.Makes pairEnv.key (.ec b) ∧ ∃ c, EcPair pairEnv.crypto.ecdsa a b c := by
  refine ⟨⟨_, ⟨by decide, by decide, by decide, by decide, by decide, by decide, by decide, by decide, by decide, rfl⟩,
    _, ⟨by decide, by decide, rfl⟩, by decide, blockRsa_pair' _ _ rfl⟩, ?_⟩
  exact ⟨_, ⟨curve, by decide, rfl, by decide, rfl⟩, _, ⟨curve, _, by decide, rfl, by decide, by decide, rfl, rfl⟩,
    curve, ecdsa_pair' _ _ _ rfl rfl (by decide)⟩

/-- What the application does with a key it imports: sign in a session in which other things have happened. -/
def signedRsa : List Call :=
  used ++ [createCall 65538 (rsaHalf.tmpl false), createCall 65538 (openTmpl true 3),
    .sess 65538 (.cryptInit .sign (some (.rsaPkcs, .null 0)) 1), .sess 65538 (.findInit (some []))]

set_option maxRecDepth 40000 in
example : answer pairEnv (run pairEnv fresh used) (createCall 65538 (rsaHalf.tmpl false)) = { rv := .ok, handle := some 1 } ∧
    (run pairEnv fresh signedRsa).bad = false ∧
    answer pairEnv (run pairEnv fresh signedRsa) (.sess 65538 (.crypt (.sign (some [4, 5]) (.buf 2) 0))) = wrote [4, 5] ∧
    (answer pairEnv (run pairEnv fresh (setup ++ [createCall 65538 (rsaOther.tmpl false),
      .sess 65538 (.cryptInit .verify (some (.rsaPkcs, .null 0)) 1)]))
      (.sess 65538 (.crypt (.verify (some [4, 5]) (some [4, 5]))))).rv = .ok ∧
    (answer pairEnv (run pairEnv fresh (setup ++ [createCall 65538 (rsaOther.tmpl false),
      .sess 65538 (.cryptInit .verify (some (.rsaPkcs, .null 0)) 1)]))
      (.sess 65538 (.crypt (.verify (some [4, 6]) (some [4, 5]))))).rv = .signatureInvalid :=
  ⟨by decide +kernel, by decide +kernel, by decide +kernel, by decide +kernel, by decide +kernel⟩

set_option maxRecDepth 40000 in
example : Since pairEnv fresh used 65538 (rsaHalf.tmpl false) 1 (used ++ [createCall 65538 (rsaHalf.tmpl false), createCall 65538 (openTmpl true 3)]) ∧
    Going pairEnv fresh (used ++ [createCall 65538 (rsaHalf.tmpl false), createCall 65538 (openTmpl true 3)]) 65538 1 .sign .rsaPkcs
      (.null 0) signedRsa :=
  ⟨⟨⟨[createCall 65538 (openTmpl true 3)], rfl, by simp [createCall, Spares]⟩, by unfold BoolToken; decide, by decide, by decide +kernel⟩,
    ⟨⟨[.sess 65538 (.findInit (some []))], rfl, by simp [Bystander, Spares, Crypts]⟩, by decide +kernel⟩⟩

end Demo

end Verif
