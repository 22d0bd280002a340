import Verif.Spec.Crash

/-!
# What lies in the storage directory
-/

namespace Verif

/-- A key the storage code encrypts with: the initial one of 32 zero bytes, or one derived
from a PIN of allowed length. -/
def StorageKey (e : Env) (k : Bytes) : Prop :=
  k = List.replicate 32 0 ∨ ∃ pin seed, 4 ≤ pin.length ∧ pin.length ≤ 32 ∧ k = e.store.hash pin seed

/-- Encrypted with such a key. (Arrays of 4 GiB and more are cut when they are read back:
a prefix.) -/
def Encrypted (e : Env) (c : Bytes) : Prop := ∃ k iv pt, StorageKey e k ∧ c <+: e.store.aeadEnc k iv pt

/-- The encoding of the public part of an RSA key, or memory not written to. -/
def PublicRsa (e : Env) (c : Bytes) : Prop :=
  (∃ k d, e.store.rsaToPubDer k = some d ∧ c <+: d) ∨ ∃ n, c <+: e.store.junk n

/-- The encoding of the public part of an EC key, or memory not written to. -/
def PublicEc (e : Env) (c : Bytes) : Prop :=
  (∃ k d, e.store.eccToPubDer k = some d ∧ c <+: d) ∨ ∃ n, c <+: e.store.junk n

/-- What may lie in a file of each kind. Nothing is said of DH keys. -/
def MayLie (e : Env) : StoreType → Bytes → Prop
  | .symmKey, c => Encrypted e c
  | .rsaPriv, c | .rsaPub, c => Encrypted e c ∨ PublicRsa e c
  | .eccPriv, c | .eccPub, c => Encrypted e c ∨ PublicEc e c
  | _, _ => True

/-- The kinds of files `MayLie` speaks of. -/
def keyKinds : List StoreType := [.symmKey, .rsaPriv, .rsaPub, .eccPriv, .eccPub]

/-- Every key file is empty or one array that may lie in it. -/
def KeysEncrypted (e : Env) (d : Disk) : Prop :=
  ∀ f ∈ keyKinds, ∀ i b, d (f, i) = some b → b = [] ∨ ∃ c, b = wrArray c ∧ MayLie e f c

/-- No template gives an object the class of certificates. -/
def NoCertificates (cs : List Call) : Prop :=
  ∀ c ∈ cs, ∀ t ∈ c.templates, ∀ en ∈ t, en.typ = .cls → leNat en.val % 2 ^ 64 ≠ CKO_CERTIFICATE

/-- The kinds of files for private and secret keys. -/
def secretKinds : List StoreType := [.symmKey, .rsaPriv, .eccPriv, .dhPriv]

/-- Every file for a private or secret key is empty or holds something encrypted; a file for
a DH key may have the encoding of the prime and the base behind it. A file for a public
RSA or EC key is empty or holds the encoding of the public part. -/
def SecretsEncrypted (e : Env) (d : Disk) : Prop :=
  (∀ f ∈ secretKinds, ∀ i b, d (f, i) = some b → b = [] ∨ ∃ c, Encrypted e c ∧
    (b = wrArray c ∨ (f = .dhPriv ∧ ∃ p g der, dhParamsToDer p g = some der ∧ b = wrArray c ++ wrArray der))) ∧
  (∀ i b, d (.rsaPub, i) = some b → b = [] ∨ ∃ c, PublicRsa e c ∧ b = wrArray c) ∧
  (∀ i b, d (.eccPub, i) = some b → b = [] ∨ ∃ c, PublicEc e c ∧ b = wrArray c)

/-- `C_SetAttributeValue` is not used to change the class of an object. -/
def KeepsClass (cs : List Call) : Prop := ∀ c ∈ cs, ∀ t ∈ c.sets, ∀ en ∈ t, en.typ ≠ .cls

end Verif
