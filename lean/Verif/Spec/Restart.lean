import Verif.Spec.Objs
import Verif.Spec.Codec
import Verif.Spec.Der

/-!
# Keys at rest: what it means that a key is kept
-/

namespace Verif

open Spec

/-- What the storage code expects of wolfCrypt: the cipher undoes itself under the same
key and nonce and adds at least the tag, and each decoder of keys undoes the encoder. -/
structure StoreLaws (x : StoreExt) : Prop where
  cipher : ∀ key iv pt, x.aeadDec key iv (x.aeadEnc key iv pt) = some pt
  tag : ∀ key iv pt, 16 ≤ (x.aeadEnc key iv pt).length
  rsa : ∀ k d, x.rsaToDer k = some d → x.rsaOfDer d = some k
  rsaPub : ∀ k d, x.rsaToPubDer k = some d → x.rsaOfPubDer d = some { n := k.n, e := k.e }
  ec : ∀ k d, x.eccToDer k = some d → x.eccOfDer d = some k
  ecPub : ∀ k d, x.eccToPubDer k = some d →
    x.eccOfPubDer d = some { dp := k.dp, x := k.x, y := k.y, typ := .pub }
  dh : ∀ p g d, IsDerSeq2 p g d → x.dhOfDer d = some (p, g)

/-- A private or secret key. -/
def Obj.isSecret (o : Obj) : Bool :=
  o.cls == CKO_PRIVATE_KEY || o.typ == CKK_AES || o.typ == CKK_GENERIC_SECRET

/-- A private or a public key object. -/
def Obj.Asym (o : Obj) : Prop := o.cls = CKO_PRIVATE_KEY ∨ o.cls = CKO_PUBLIC_KEY

/-- The object holds a key of its type; a public key has no private part; the parameters
of a DH key are set; byte strings fit their arrays. -/
def Obj.IsKey (o : Obj) : Prop :=
  o.cls ≠ CKO_CERTIFICATE ∧
  ((o.typ = CKK_RSA ∧ o.Asym ∧ ∃ k, o.data = .rsa k ∧ (o.cls = CKO_PUBLIC_KEY → k = { n := k.n, e := k.e })) ∨
   (o.typ = CKK_EC ∧ o.Asym ∧ ∃ k, o.data = .ec k ∧
      (o.cls = CKO_PUBLIC_KEY → k = { dp := k.dp, x := k.x, y := k.y, typ := .pub })) ∨
   (o.typ = CKK_DH ∧ o.Asym ∧ ∃ k, o.data = .dh k ∧ k.p ≠ 0 ∧ k.g ≠ 0 ∧ dhDerBound k.p k.g < 2 ^ 24 ∧
      k.key.length ≤ 512) ∨
   ((o.typ = CKK_AES ∨ o.typ = CKK_GENERIC_SECRET) ∧ ∃ k, o.data = .symm k ∧ k.length ≤ 512))

/-- The key as bytes: DER for RSA and EC keys, the value for the others. -/
def Obj.keyBytes (x : StoreExt) (o : Obj) : Option Bytes :=
  match o.data with
  | .rsa k => if o.cls = CKO_PRIVATE_KEY then x.rsaToDer k else x.rsaToPubDer k
  | .ec k => if o.cls = CKO_PRIVATE_KEY then x.eccToDer k else x.eccToPubDer k
  | .dh k => some k.key
  | .symm k => some k
  | _ => none

/-- The form in which the key is kept: encrypted if it is private or secret. -/
def Obj.sealedKey (x : StoreExt) (key : Bytes) (o : Obj) : Option Bytes :=
  (o.keyBytes x).map fun b => if o.isSecret then x.aeadEnc key o.iv b else b

/-- The kept form is that of the present key, under this storage key. -/
def Obj.KeptUnder (x : StoreExt) (key : Bytes) (o : Obj) : Prop :=
  ∃ c, o.sealedKey x key = some c ∧ o.keyData = some c

/-- An object for a key, whether the key is there in clear or only in its kept form; the
parameters of a DH key are set. -/
def Obj.KeyForm (o : Obj) : Prop :=
  o.cls ≠ CKO_CERTIFICATE ∧
  (o.typ = CKK_RSA ∨ o.typ = CKK_EC ∨ o.typ = CKK_DH ∨ o.typ = CKK_AES ∨ o.typ = CKK_GENERIC_SECRET) ∧
  (o.typ = CKK_DH → o.dh.p ≠ 0 ∧ o.dh.g ≠ 0 ∧ dhDerBound o.dh.p o.dh.g < 2 ^ 24)

/-- A key object that is stored as it is: it has its kept form, and its fields fit their C
types. -/
structure Obj.Storable (o : Obj) : Prop where
  form : o.KeyForm
  fits : o.Fits
  kept : ∃ d, o.keyData = some d ∧ d.length < 2 ^ 31

/-- What the functions reading attributes can tell about an object: all but where it is in
memory, the size asked for at its generation, and how it is kept. -/
def Obj.shown (o : Obj) : Obj :=
  { o with uid := 0, size := 0, iv := [], keyData := none, encoded := false }

/-- What is written for an object besides the key. -/
def Obj.record (o : Obj) : Obj := { o with uid := 0, size := 0, encoded := false, data := .none, keyData := none }

/-- The process ends without `C_Finalize`; a new one starts. Only the directory stays. -/
def afterDeath (l : Lib) : Lib := { disk := l.disk, uid := l.uid, rng := l.rng }

end Verif
