import Verif.Spec.KeyKept
import Verif.Spec.Safe
import Verif.Spec.Counters

/-!
# An application that keeps its keys on the token
-/

namespace Verif

/-- A template that makes no certificate and whose values fit: a key of at most 512 bytes, an
identifier and a label shorter than 2 GB, dates of 8 bytes. -/
structure SecretTmpl (t : List Entry) : Prop where
  cls : ¬ SaysCert t
  len : ∀ en ∈ t, en.typ = .valueLen → leNat en.val ≤ 512
  names : ∀ en ∈ t, en.typ = .id ∨ en.typ = .label → en.val.length < 2 ^ 31
  dates : ∀ en ∈ t, en.typ = .startDate ∨ en.typ = .endDate → en.val.length = 8

/-- The template gives the key type `CKK_AES` or `CKK_GENERIC_SECRET`. -/
def SaysSecret (t : List Entry) : Prop :=
  ∃ en, findAttr t .keyType = some en ∧ (leNat en.val = CKK_AES ∨ leNat en.val = CKK_GENERIC_SECRET)

/-- The template gives the number `n` as the attribute `a`. -/
def Says (a : CKA) (n : Nat) (t : List Entry) : Prop := ∃ en, findAttr t a = some en ∧ leNat en.val = n

/-- The template of a private key: if it gives a class, it is that of private keys. -/
structure PrivateTmpl (t : List Entry) : Prop where
  fits : SecretTmpl t
  cls : ∀ en ∈ t, en.typ = .cls → leNat en.val = CKO_PRIVATE_KEY

/-- The template of a public key: if it gives a class, it is that of public keys, and it gives no
part of a private key and no point (generated keys have their own). -/
structure PublicTmpl (t : List Entry) : Prop where
  fits : SecretTmpl t
  cls : ∀ en ∈ t, en.typ = .cls → leNat en.val = CKO_PUBLIC_KEY
  plain : ∀ en ∈ t, en.typ ≠ .privateExponent ∧ en.typ ≠ .prime1 ∧ en.typ ≠ .prime2 ∧ en.typ ≠ .exponent1 ∧ en.typ ≠ .exponent2 ∧
    en.typ ≠ .coefficient ∧ en.typ ≠ .value ∧ en.typ ≠ .ecPoint

/-- The template of a key that is to be put on the token with `C_CreateObject`: an AES or generic
secret key, an RSA or EC private key, or an RSA public key. -/
def KeepTmpl (t : List Entry) : Prop :=
  (SecretTmpl t ∧ SaysSecret t) ∨
  (PrivateTmpl t ∧ Says .cls CKO_PRIVATE_KEY t ∧ (Says .keyType CKK_RSA t ∨ Says .keyType CKK_EC t)) ∨
  (PublicTmpl t ∧ Says .cls CKO_PUBLIC_KEY t ∧ Says .keyType CKK_RSA t)

/-- The rules for a call in the state `l`:
* the user logs out before the last `C_Finalize`;
* the token is initialised, the user's PIN is set by the security officer or changed in a public
  session, only while there is no object on the token;
* objects on the token are keys other than DH keys, made while the user is logged in:
  imported (but no EC public keys), generated, unwrapped or derived with a template for that kind
  of key; `C_CopyObject` makes session objects;
* attributes are changed of session objects only;
* no two PINs pass for the user's. -/
def Orderly (e : Env) (l : Lib) : Call → Prop
  | .cInit => True
  | .cFinal => l.count = 1 → l.token.login ≠ .user
  | .slot _ c =>
    match c with
    | .initToken .. => tokenObjs l = []
    | _ => True
  | .sess _ c =>
    match c with
    | .create (some t) _ => ForToken t → l.token.login = .user ∧ KeepTmpl t
    | .genKey _ (some t) _ => ForToken t → l.token.login = .user ∧ SecretTmpl t
    | .genPair (some m) (some t) (some t') _ =>
      (ForToken t ∨ ForToken t' → l.token.login = .user ∧ (m.1 = .rsaKeyPairGen ∨ m.1 = .ecKeyPairGen)) ∧
      (ForToken t → PublicTmpl t) ∧ (ForToken t' → PrivateTmpl t')
    | .unwrap _ _ _ (some t) _ => ForToken t → l.token.login = .user ∧ PrivateTmpl t
    | .derive _ _ (some t) _ => ForToken t → l.token.login = .user ∧ SecretTmpl t ∧ SaysSecret t
    | .copy .. => ∀ t ∈ c.creates, ¬ ForToken t
    | .setAttr i _ => handleOnToken i = false
    | .initPin _ => l.token.login = .so → tokenObjs l = []
    | .setPin .. => l.token.login = .pub → tokenObjs l = []
    | .login u _ _ => u = .user → OnePin e l
    | _ => True

/-- Every call of a history obeys the rules in the state in which it is made. -/
def Ordered (e : Env) : Lib → List Call → Prop
  | _, [] => True
  | l, c :: cs => Orderly e l c ∧ Ordered e (step e l c).1 cs

/-- No call destroys the object with the handle `k`. -/
def NotDestroyed (k : Nat) (cs : List Call) : Prop := ∀ h, Call.sess h (.destroy k) ∉ cs

end Verif
