import Verif.Spec.Objs
import Verif.Spec.Attr
import Verif.Spec.KeyKept

/-!
# Keys nobody may learn, as a caller understands it
-/

namespace Verif

/-- Two objects that differ at most in the secret part of a key: the private part of an RSA
key, the private value of an EC or DH key, the value of a secret key of the same length. -/
inductive SecretTwin : Obj → Obj → Prop where
  | same (o : Obj) : SecretTwin o o
  | rsa (o : Obj) (k k' : RsaKey) (d : Option Bytes) : o.typ = CKK_RSA → o.cls = CKO_PRIVATE_KEY →
      SecretTwin { o with data := .rsa k } { o with data := .rsa k', keyData := d }
  | ec (o : Obj) (k k' : EcKey) (d : Option Bytes) : o.typ = CKK_EC → o.cls = CKO_PRIVATE_KEY → k.dp = k'.dp →
      k.typ = k'.typ →
      SecretTwin { o with data := .ec k } { o with data := .ec k', keyData := d }
  | dh (o : Obj) (k k' : DhKey) (d : Option Bytes) : o.typ = CKK_DH → o.cls = CKO_PRIVATE_KEY → k.p = k'.p → k.g = k'.g →
      k.key.length = k'.key.length → SecretTwin { o with data := .dh k } { o with data := .dh k', keyData := d }
  | secret (o : Obj) (b b' : Bytes) (d : Option Bytes) : o.typ = CKK_AES ∨ o.typ = CKK_GENERIC_SECRET →
      o.cls ≠ CKO_CERTIFICATE → b.length = b'.length → SecretTwin { o with data := .symm b } { o with data := .symm b', keyData := d }

/-- Two libraries that differ at most in their files and the secret parts of the token's
keys. -/
structure SameBut (l l' : Lib) : Prop where
  count : l'.count = l.count
  sessions : l'.sessions = l.sessions
  uid : l'.uid = l.uid
  rng : l'.rng = l.rng
  bad : l'.bad = l.bad
  token : l'.token = { l.token with objs := l'.token.objs }
  objs : AllPairs SecretTwin l.token.objs l'.token.objs

/-- No call logs the user in with the right PIN, and none is `C_Finalize`. -/
def NoEntry (e : Env) (l : Lib) : List Call → Prop
  | [] => True
  | c :: cs => c ≠ .cFinal ∧ (∀ h pin now, c = loginCall h .user pin now → ¬ Matches e l.token.user pin) ∧
      NoEntry e (step e l c).1 cs

/-- The template of a secret key, with this value of `CKA_TOKEN`, of this type, with this value, and what `rest` says. -/
def secretWith (on : UInt8) (typ : Nat) (v : Bytes) (rest : List Entry) : List Entry :=
  [.of .cls (ulong CKO_SECRET_KEY), .of .keyType (ulong typ), .of .token [on], .of .value v] ++ rest

/-- The template of a secret key for the token. -/
abbrev secretFor := secretWith 1

/-- The entries a template for a secret key must not repeat. -/
def FreeOfKey (rest : List Entry) : Prop :=
  ∀ en ∈ rest, en.typ ≠ .cls ∧ en.typ ≠ .keyType ∧ en.typ ≠ .token ∧ en.typ ≠ .value

/-- `C_Logout`. -/
def logoutCall (h : Nat) : Call := .sess h .logout

end Verif
