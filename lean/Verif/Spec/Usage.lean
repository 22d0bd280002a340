import Verif.Spec.Find
/-!
# Which keys a mechanism is for, and what nobody must see
-/
namespace Verif

/-- The type of key a mechanism of encryption, decryption, signing or verifying needs;
`none` if the mechanism is not one for that. -/
def serves : Kind → Mech → Option Nat
  | .encrypt, m | .decrypt, m =>
    match m with
    | .rsaX509 | .rsaPkcs | .rsaOaep => some CKK_RSA
    | .aesCbc | .aesCbcPad | .aesGcm => some CKK_AES
    | _ => none
  | .sign, m | .verify, m =>
    match m with
    | .rsaX509 | .rsaPkcs | .rsaPss => some CKK_RSA
    | .ecdsa => some CKK_EC
    | .hmac _ => some CKK_GENERIC_SECRET
    | _ => none

/-- The object `o` is one that session `h` can address with the handle `k`. -/
def Addressed (l : Lib) (h k : Nat) (o : Obj) : Prop := o ∈ sessObjs l h ++ tokenObjs l ∧ o.handle = k

/-- A private key or a secret key. -/
def Obj.IsSecret (o : Obj) : Prop :=
  o.cls ≠ CKO_CERTIFICATE ∧ (o.cls = CKO_PRIVATE_KEY ∨ o.typ = CKK_AES ∨ o.typ = CKK_GENERIC_SECRET)

/-- Nothing of a key is left but its length. -/
def Obj.Blank (o : Obj) : Prop :=
  match o.data with
  | .rsa k => k = {}
  | .ec k => k.k = 0 ∧ k.x = 0 ∧ k.y = 0
  | .dh k => ∀ b ∈ k.key, b = 0
  | .symm b => ∀ c ∈ b, c = 0
  | _ => True

end Verif
