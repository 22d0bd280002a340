/-!
# File names of stored items (src/internal.c:707-863)

Modelled: the default build without a TPM; the environment variable
`WOLFPKCS11_NO_STORE` unset.
-/

namespace Verif

/-- Kinds of stored items, `WOLFPKCS11_STORE_*` (wolfpkcs11/store.h:25-34). -/
inductive StoreType where
  | token | object | symmKey | rsaPriv | rsaPub | eccPriv | eccPub | dhPriv | dhPub | cert
  deriving DecidableEq, Repr

/-- A lower-case hexadecimal digit. -/
def hexDigit (d : Nat) : Char :=
  if d < 10 then Char.ofNat (48 + d) else Char.ofNat (87 + d)

/-- The last `len` hexadecimal digits of `n`. -/
def hex : Nat → Nat → List Char
  | 0, _ => []
  | len + 1, n => hex len (n / 16) ++ [hexDigit (n % 16)]

/-- The text between path and ids in the format strings (src/internal.c:794-832). -/
def StoreType.text : StoreType → List Char
  | .token => "/wp11_token_".toList
  | .object => "/wp11_obj_".toList
  | .symmKey => "/wp11_symmkey_".toList
  | .rsaPriv => "/wp11_rsakey_priv_".toList
  | .rsaPub => "/wp11_rsakey_pub_".toList
  | .eccPriv => "/wp11_ecckey_priv_".toList
  | .eccPub => "/wp11_ecckey_pub_".toList
  | .dhPriv => "/wp11_dhkey_priv_".toList
  | .dhPub => "/wp11_dhkey_pub_".toList
  | .cert => "/wp11_cert_".toList

/-- The ids as `%016lx` and `%016lx_%016lx` (src/internal.c:794-832). -/
def StoreType.ids (t : StoreType) (id1 id2 : Nat) : List Char :=
  match t with
  | .token => hex 16 id1
  | _ => hex 16 id1 ++ '_' :: hex 16 id2

/-- The file name `wolfPKCS11_Store_Open` builds (src/internal.c:707-863): refused when
the path is longer than 120 - 47 characters; `snprintf` into `name[120]` keeps the first
119 characters. -/
def storeName (path : List Char) (t : StoreType) (id1 id2 : Nat) : Option (List Char) :=
  if path.length > 120 - 47 then none
  else some ((path ++ t.text ++ t.ids id1 id2).take 119)

end Verif
