import Verif.Spec.Isolated
import Verif.Spec.KeyKept
import Verif.Spec.Import
import Verif.Spec.SignVerify

/-!
# What an RSA or EC key that the application brings along is good for
-/

namespace Verif

/-- An octet string in DER, of fewer than 256 bytes. -/
def octetString (b : Bytes) : Bytes :=
  if b.length < 128 then 0x04 :: UInt8.ofNat b.length :: b else 0x04 :: 0x81 :: UInt8.ofNat b.length :: b

/-- One half of a key pair, as the application has it: big-endian numbers for RSA; the object
identifier of the curve and the private value or the point for EC. -/
inductive Half where
  | rsaPub (n e : Bytes)
  | rsaPriv (n e d p q dP dQ u : Bytes)
  | ecPub (oid point : Bytes)
  | ecPriv (oid value : Bytes)

/-- The class of object. -/
def Half.cls : Half → Nat
  | .rsaPub .. | .ecPub .. => CKO_PUBLIC_KEY
  | .rsaPriv .. | .ecPriv .. => CKO_PRIVATE_KEY

/-- The type of key. -/
def Half.typ : Half → Nat
  | .rsaPub .. | .rsaPriv .. => CKK_RSA
  | .ecPub .. | .ecPriv .. => CKK_EC

/-- The parts of the key as attributes. -/
def Half.parts : Half → List Entry
  | .rsaPub n e => [.of .modulus n, .of .publicExponent e]
  | .rsaPriv n e d p q dP dQ u =>
    [.of .modulus n, .of .publicExponent e, .of .privateExponent d, .of .prime1 p, .of .prime2 q, .of .exponent1 dP,
      .of .exponent2 dQ, .of .coefficient u]
  | .ecPub oid pt => [.of .ecParams (0x06 :: UInt8.ofNat oid.length :: oid), .of .ecPoint (octetString pt)]
  | .ecPriv oid v => [.of .ecParams (0x06 :: UInt8.ofNat oid.length :: oid), .of .value v]

/-- The template with which an application imports a key, on the token or in the session. -/
def Half.tmpl (A : Half) (tok : Bool) : List Entry :=
  .of .cls (ulong A.cls) :: .of .keyType (ulong A.typ) :: .of .token [if tok then 1 else 0] :: A.parts

/-- A number wolfCrypt takes. -/
def NumOk (x : KeyExt) (b : Bytes) : Prop := x.mpOk b.length = true ∧ b.length < 2 ^ 32

instance (x : KeyExt) (b : Bytes) : Decidable (NumOk x b) := by unfold NumOk; infer_instance

/-- The key that the parts make, if wolfCrypt takes them: each number, the curve and the point. -/
def Half.Makes (x : KeyExt) : Half → KeyData → Prop
  | .rsaPub n e, k => NumOk x n ∧ NumOk x e ∧ k = .rsa { n := ofBytes n, e := ofBytes e }
  | .rsaPriv n e d p q dP dQ u, k =>
    NumOk x n ∧ NumOk x e ∧ NumOk x d ∧ NumOk x p ∧ NumOk x q ∧ NumOk x dP ∧ NumOk x dQ ∧ NumOk x u ∧ ofBytes d ≠ 0 ∧
      k = .rsa { n := ofBytes n, e := ofBytes e, d := ofBytes d, p := ofBytes p, q := ofBytes q, dP := ofBytes dP, dQ := ofBytes dQ, u := ofBytes u, isPriv := true }
  | .ecPub oid pt, k => ∃ c q, oid.length < 128 ∧ x.curve oid = some c ∧ 0 < pt.length ∧ pt.length < 256 ∧
      x.importX963 { dp := some c, typ := .pub } pt = some q ∧ k = .ec q
  | .ecPriv oid v, k => ∃ c, oid.length < 128 ∧ x.curve oid = some c ∧ NumOk x v ∧
      k = .ec { dp := some c, typ := .privOnly, k := ofBytes v }

/-- wolfCrypt can write the key in DER, as is needed to keep it on the token. -/
def Half.Stores (x : StoreExt) : Half → KeyData → Prop
  | .rsaPub .., .rsa k => (x.rsaToPubDer k).isSome
  | .rsaPriv .., .rsa k => (x.rsaToDer k).isSome
  | .ecPub .., .ec k => (x.eccToPubDer k).isSome
  | .ecPriv .., .ec k => (x.eccToDer k).isSome
  | _, _ => False

/-- The mechanisms a key of the type is for. -/
def Half.For (A : Half) (kd : Kind) (m : Mech) : Prop :=
  match kd with
  | .sign | .verify => A.typ = CKK_RSA ∧ (m = .rsaX509 ∨ m = .rsaPkcs ∨ m = .rsaPss) ∨ A.typ = CKK_EC ∧ m = .ecdsa
  | .encrypt | .decrypt => A.typ = CKK_RSA ∧ (m = .rsaX509 ∨ m = .rsaPkcs ∨ m = .rsaOaep)

/-- `now` is a history in which after `cs` a key with handle `κ` was imported in session `h` with template `t` and then
not touched, and in which nothing undefined has happened. -/
structure Since (e : Env) (l₀ : Lib) (cs : List Call) (h : Nat) (t : List Entry) (κ : Nat) (now : List Call) : Prop where
  spared : ∃ mid, now = cs ++ createCall h t :: mid ∧ ∀ c ∈ mid, Spares h κ c
  bool : BoolToken now
  short : 2 * now.length < 2 ^ 28
  good : (run e l₀ now).bad = false

/-- `later` is a history in which after `now` an operation was begun in session `h` with the key `κ`, followed by calls
that do not concern it. -/
structure Going (e : Env) (l₀ : Lib) (now : List Call) (h κ : Nat) (kd : Kind) (m : Mech) (p : MechParam) (later : List Call) :
    Prop where
  split : ∃ cs', later = now ++ .sess h (.cryptInit kd (some (m, p)) κ) :: cs' ∧ ∀ c ∈ cs', Bystander h κ c
  good : (run e l₀ later).bad = false

/-- What RSA gives: the signature, the ciphertext or the message. -/
def rsaOut (r : Rsa) (k : RsaKey) (rnd : Nat) (inp : Bytes) : Kind → Mech → MechParam → Option Bytes
  | .sign, .rsaX509, _ => r.raw .privateEncrypt k (List.replicate (k.keyLen - inp.length) 0 ++ inp) rnd
  | .sign, .rsaPkcs, _ => r.signPkcs k inp rnd
  | .sign, .rsaPss, .pss (some a) (some b) n => r.signPss k a b n inp rnd
  | .encrypt, .rsaX509, _ => r.raw .publicEncrypt k inp rnd
  | .encrypt, .rsaPkcs, _ => r.encPkcs k inp rnd
  | .encrypt, .rsaOaep, .oaep (some a) (some b) _ lab => r.encOaep k a b lab (lab.getD []).length inp rnd
  | .decrypt, .rsaX509, _ => r.raw .privateDecrypt k inp rnd
  | .decrypt, .rsaPkcs, _ => r.decPkcs k inp
  | .decrypt, .rsaOaep, .oaep (some a) (some b) _ lab => r.decOaep k a b lab (lab.getD []).length inp
  | _, _, _ => none

/-- The data call of an operation in one part, with a buffer of `n` bytes. -/
def goCall (h n rnd : Nat) (inp : Bytes) : Kind → Call
  | .sign => .sess h (.crypt (.sign (some inp) (.buf n) rnd))
  | .encrypt => .sess h (.crypt (.encrypt (some inp) (.buf n) rnd))
  | .decrypt => .sess h (.crypt (.decrypt (some inp) (.buf n) rnd))
  | .verify => .sess h (.crypt (.verify (some inp) none))

end Verif
