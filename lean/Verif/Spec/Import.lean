import Verif.Spec.Api
import Verif.Spec.Cbc

/-!
# What a key that the application brings along is good for
-/

namespace Verif

/-- The template with which an application imports a secret key: of type `typ`, with value `v`,
on the token or in the session. -/
def secretTmpl (tok : Bool) (typ : Nat) (v : Bytes) : List Entry :=
  [.of .cls (ulong CKO_SECRET_KEY), .of .keyType (ulong typ), .of .token [if tok then 1 else 0], .of .value v]

/-- Something to do with a secret key, in one part: an Init call and a data call. -/
inductive Job where
  /-- encrypt with AES-GCM: nonce, additional data, bits of the tag, message -/
  | seal' (iv : Bytes) (aad : Option Bytes) (t : Nat) (msg : Bytes)
  /-- decrypt with AES-GCM: nonce, additional data, bits of the tag, ciphertext and tag -/
  | open' (iv : Bytes) (aad : Option Bytes) (t : Nat) (data : Bytes)
  /-- encrypt with AES-CBC -/
  | encrypt (iv msg : Bytes)
  /-- decrypt with AES-CBC -/
  | decrypt (iv data : Bytes)
  /-- make an HMAC -/
  | mac (a : HmacAlg) (msg : Bytes)
  /-- check an HMAC -/
  | check (a : HmacAlg) (msg sig : Bytes)

/-- The type of key a job needs. -/
def Job.keyType : Job → Nat
  | .mac .. | .check .. => CKK_GENERIC_SECRET
  | _ => CKK_AES

/-- The Init call of a job. -/
def Job.init (h k : Nat) : Job → Call
  | .seal' iv aad t _ => .sess h (.cryptInit .encrypt (some (.aesGcm, .gcm iv aad t)) k)
  | .open' iv aad t _ => .sess h (.cryptInit .decrypt (some (.aesGcm, .gcm iv aad t)) k)
  | .encrypt iv _ => .sess h (.cryptInit .encrypt (some (.aesCbc, .raw iv)) k)
  | .decrypt iv _ => .sess h (.cryptInit .decrypt (some (.aesCbc, .raw iv)) k)
  | .mac a _ => .sess h (.cryptInit .sign (some (.hmac a, .null 0)) k)
  | .check a _ _ => .sess h (.cryptInit .verify (some (.hmac a, .null 0)) k)

/-- The data call of a job, with a buffer of `n` bytes. -/
def Job.call (h n rnd : Nat) : Job → Call
  | .seal' _ _ _ msg | .encrypt _ msg => .sess h (.crypt (.encrypt (some msg) (.buf n) rnd))
  | .open' _ _ _ data | .decrypt _ data => .sess h (.crypt (.decrypt (some data) (.buf n) rnd))
  | .mac _ msg => .sess h (.crypt (.sign (some msg) (.buf n) rnd))
  | .check _ msg sig => .sess h (.crypt (.verify (some msg) (some sig)))

/-- A job that can be done with a key of value `v` and a buffer of `n` bytes: the parameters and
the key have sizes the algorithm is defined for, and the result has room. -/
def Job.Fit (x : Crypto) (v : Bytes) (n : Nat) : Job → Prop
  | .seal' iv _ t msg => iv.length ≤ 16 ∧ t ≤ 128 ∧ msg.length + t / 8 ≤ n ∧ msg.length + t / 8 < 2 ^ 32
  | .open' iv _ t data => iv.length ≤ 16 ∧ t ≤ 128 ∧ t / 8 ≤ data.length ∧ data.length - t / 8 ≤ n ∧ data.length < 2 ^ 32
  | .encrypt iv msg | .decrypt iv msg =>
    iv.length = 16 ∧ (v.length = 16 ∨ v.length = 24 ∨ v.length = 32) ∧ msg.length % 16 = 0 ∧ msg.length ≤ n
  | .mac a _ => x.mac.keyOk a v = true ∧ x.mac.size a ≤ n
  | .check a _ _ => x.mac.keyOk a v = true

/-- The answer of a data function that has written `w`. -/
def wrote (w : Bytes) : Resp := { rv := .ok, out := some { rv := .ok, wr := w, len := some w.length } }

/-- The answer of a data function that has written nothing. -/
def said (rv : RV) : Resp := { rv, out := some { rv } }

/-- What the data call of a job with a key of value `v` should answer: the result of the
algorithm. -/
def Job.result (x : Crypto) (v : Bytes) : Job → Resp
  | .seal' iv aad t msg =>
    match x.gcm.enc v iv aad (aad.getD []).length msg (t / 8) with
    | some (c, tag) => wrote (c ++ tag)
    | none => said .functionFailed
  | .open' iv aad t data =>
    match x.gcm.dec v iv aad (aad.getD []).length (data.take (data.length - t / 8)) (data.drop (data.length - t / 8)) with
    | some msg => wrote msg
    | none => said .functionFailed
  | .encrypt iv msg => wrote (Spec.cbcEnc (x.aes.enc v) iv msg).1
  | .decrypt iv data => wrote (Spec.cbcDec (x.aes.dec v) iv data).1
  | .mac a msg => wrote (x.mac.mac a v msg)
  | .check a msg sig => if sig = x.mac.mac a v msg then said .ok else said .signatureInvalid

end Verif
