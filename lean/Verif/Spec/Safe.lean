import Verif.Spec.InUse
import Verif.Spec.Usage
import Verif.Spec.Find
import Verif.Spec.Derive
import Verif.Spec.SignVerify
import Verif.Spec.Param

/-!
# Calls that stay clear of what the library does not check
-/

namespace Verif

/-- The key storage's encryption adds a tag of 16 bytes and takes it off again; serialised RSA and
EC keys are shorter than 1 GB. -/
structure SealLen (e : Env) : Prop where
  enc : ∀ k iv pt, (e.store.aeadEnc k iv pt).length = pt.length + 16
  dec : ∀ k iv ct pt, e.store.aeadDec k iv ct = some pt → pt.length + 16 ≤ ct.length
  rsa : ∀ k d, e.store.rsaToDer k = some d → d.length < 2 ^ 30
  rsaPub : ∀ k d, e.store.rsaToPubDer k = some d → d.length < 2 ^ 30
  ec : ∀ k d, e.store.eccToDer k = some d → d.length < 2 ^ 30
  ecPub : ∀ k d, e.store.eccToPubDer k = some d → d.length < 2 ^ 30

/-- What wolfCrypt is relied on for. -/
structure SafeLaws (e : Env) : Prop where
  hash : HashLen e
  rand : RandLen e
  sealed : SealLen e
  /-- generated DH keys fit an array of 512 bytes -/
  dhKeys : ∀ n p g a b, e.dhGen n p g = some (a, b) → a.length ≤ 512 ∧ b.length ≤ 512
  /-- generated keys can be encoded -/
  rsaStored : ∀ n b x k, e.rsaGen n b x = some k → e.store.rsaToDer k ≠ none ∧ e.store.rsaToPubDer k ≠ none
  ecStored : ∀ n c k, e.ecGen n c = some k → e.store.eccToDer { k with dp := some c, typ := .priv } ≠ none ∧
    e.store.eccToPubDer { k with dp := some c, typ := .priv } ≠ none
  /-- importing a point sets a curve -/
  ecImport : ∀ k p k', e.key.importX963 k p = some k' → k'.dp ≠ none
  /-- signatures are the DER encoding of two numbers that fit the curve -/
  ecSign : ∀ k c d n der, k.dp = some c → e.crypto.ecdsa.sign k d n = some der →
    ∃ r s, Spec.IsDerSig r s der ∧ r < 256 ^ c.size ∧ s < 256 ^ c.size

/-- The template says that the object is a certificate. -/
def SaysCert (t : List Entry) : Prop := ∃ en ∈ t, en.typ = .cls ∧ leNat en.val = CKO_CERTIFICATE

/-- Identifier and label are not a NULL pointer with a length. -/
def NoNull (t : List Entry) : Prop := ∀ en ∈ t, en.typ = .id ∨ en.typ = .label → en.mem = none → en.len = 0

/-- Key value and key length (`CKA_VALUE`, `CKA_VALUE_LEN`) are at most 512 bytes. -/
def Fits (t : List Entry) : Prop :=
  ∀ en ∈ t, (en.typ = .value → en.val.length ≤ 512) ∧ (en.typ = .valueLen → leNat en.val ≤ 512)

/-- A point comes with its curve. -/
def Curved (t : List Entry) : Prop := (∃ en ∈ t, en.typ = .ecPoint) → ∃ en ∈ t, en.typ = .ecParams

/-- Attributes that exist for RSA and DH keys only. -/
def keyParts : List CKA := [.modulus, .privateExponent, .prime1, .prime2, .exponent1, .exponent2,
  .coefficient, .publicExponent, .modulusBits, .prime, .base]

/-- The curve of an EC key is known. -/
def HasCurve (o : Obj) : Prop := ∃ k c, o.data = .ec k ∧ k.dp = some c

/-- Asking the object for this attribute makes sense: certificates are not asked for parts
of a key, and an EC key without a curve not for curve and point. -/
def Askable (o : Obj) (a : CKA) : Prop :=
  (o.cls = CKO_CERTIFICATE → a ∉ keyParts) ∧
  (o.typ = CKK_EC → a = .ecParams ∨ a = .ecPoint → HasCurve o)

/-- What every template for a new object keeps to. -/
structure PlainTmpl (t : List Entry) : Prop where
  noNull : NoNull t
  curved : Curved t
  len : ∀ en ∈ t, en.typ = .valueLen → leNat en.val ≤ 512

/-- A template for a key. -/
structure KeyTmpl (t : List Entry) : Prop extends PlainTmpl t where
  cls : ¬ SaysCert t
  value : ∀ en ∈ t, en.typ = .value → en.val.length ≤ 512

/-- A template for a certificate: no entry says that it is something else. -/
structure CertTmpl (t : List Entry) : Prop extends PlainTmpl t where
  cls : SaysCert t ∧ ∀ en ∈ t, en.typ = .cls → leNat en.val = CKO_CERTIFICATE

/-- What a data call of session `s` needs: AES-GCM ciphertexts are at least as long as the
tag, ECDSA keys have a curve. -/
def DataOk (l : Lib) (h : Nat) (s : Session) (c : DataCall) : Prop :=
  (s.op.mech = .aesGcm → match c with
    | .decrypt (some d) _ _ => s.op.gcm.tagSz ≤ d.length
    | .decryptFinal _ => s.op.gcm.tagSz ≤ s.op.gcm.enc.length
    | _ => True) ∧
  (s.op.mech = .ecdsa → ∀ o ∈ sessObjs l h ++ tokenObjs l, s.curr = some o.uid → HasCurve o)

/-- Key and parameter are such that an Init call does not fail after it has written to the
session, over the parameters of the operation in progress: known functions and a salt that is
not too long for RSA-OAEP and RSA-PSS, a key of 16, 24 or 32 bytes for AES-CBC, a key that
wolfCrypt accepts for HMAC. -/
def InitFits (e : Env) (o : Obj) (m : Mech) (p : MechParam) : Prop :=
  match m with
  | .rsaOaep | .rsaPss => o.typ = CKK_RSA → ParamOk m p
  | .aesCbc | .aesCbcPad => o.typ = CKK_AES → o.symm.length = 16 ∨ o.symm.length = 24 ∨ o.symm.length = 32
  | .hmac a => o.typ = CKK_GENERIC_SECRET → e.crypto.mac.keyOk a o.symm = true
  | _ => True

/-- What the call of a session needs. -/
def SessCall.Safe (e : Env) (l : Lib) (h : Nat) : SessCall → Prop
  | .create (some t) _ => KeyTmpl t ∨ CertTmpl t
  | .genKey _ (some t) _ => KeyTmpl t
  | .unwrap mp k _ (some t) _ => KeyTmpl t ∧ ∀ m p, mp = some (m, p) → ∀ o, Addressed l h k o → InitFits e o m p
  | .wrap mp k _ _ => ∀ m p, mp = some (m, p) → ∀ o, Addressed l h k o → InitFits e o m p
  | .genPair m (some tp) (some tq) _ =>
      KeyTmpl tp ∧ KeyTmpl tq ∧ (∀ p, m = some (.ecKeyPairGen, p) → ∃ en ∈ tp, en.typ = .ecParams) ∧
      (∀ en ∈ tq, en.typ = .token → en.mem ≠ none ∧ en.len = 1) ∧
      (sessObjs l h).length + 2 ≤ 8 ∧ (tokenObjs l).length + 2 ≤ 64
  | .copy k (some t) _ =>
      Curved t ∧ (∀ en ∈ t, en.typ = .id ∨ en.typ = .label → en.mem ≠ none) ∧
      ∀ o, Addressed l h k o → (∀ en ∈ t, Askable o en.typ) ∧
        (o.cls = CKO_CERTIFICATE → o.typ ≤ 2 ∧ ∀ en ∈ t, en.typ ≠ .cls)
  | .getAttr k (some t) => ∀ o, Addressed l h k o → ∀ en ∈ t, Askable o en.typ
  | .setAttr k (some t) =>
      NoNull t ∧ Curved t ∧ (∀ en ∈ t, en.typ ≠ .cls) ∧
      ∀ o, Addressed l h k o → Fits t ∨ o.cls = CKO_CERTIFICATE
  | .findInit (some t) =>
      ∀ en ∈ t, en.typ ≠ .ecPoint ∧ (en.mem = none → en.len = 0) ∧
        ∀ o ∈ sessObjs l h ++ tokenObjs l, Shown l.token.login o → Askable o en.typ
  | .cryptInit _ mp k =>
      ∀ o, Addressed l h k o → o.cls ≠ CKO_CERTIFICATE ∧ ∀ m p, mp = some (m, p) → InitFits e o m p
  | .crypt c => KeyAlive l h ∧ ∀ s, getSession l h = some s → DataOk l h s c
  | .derive (some m) base (some t) _ =>
      KeyTmpl t ∧ (∀ en ∈ t, en.typ ≠ .value) ∧
      ∀ o, Addressed l h base o → o.cls ≠ CKO_CERTIFICATE ∧
        (∀ p, m = .ecdh p → o.typ = CKK_EC) ∧ (∀ p, m = .dh p → o.typ = CKK_DH) ∧
        ∀ sec, SharedSecret e o m sec → sec.length ≤ 512 ∧
          ∀ en ∈ t, en.typ = .valueLen → leNat en.val = 0 ∨ sec.length ≤ leNat en.val
  | _ => True

/-- What a call needs. -/
def Call.Safe (e : Env) (l : Lib) : Call → Prop
  | .sess h c => c.Safe e l h
  | _ => True

/-- Every call of the history has what it needs when it is made. -/
def Safe (e : Env) (l : Lib) : List Call → Prop
  | [] => True
  | c :: cs => c.Safe e l ∧ Safe e (step e l c).1 cs

end Verif
