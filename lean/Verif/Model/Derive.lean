import Verif.Model.Attr

/-!
# Key derivation: the part of `C_DeriveKey` after the shared secret is known
-/

namespace Verif

/-- `SymmKeyLen` (src/crypto.c:4113-4137): `none` when the object has no
CKA_VALUE_LEN to give (`WP11_Object_GetAttr` fails). -/
def symmKeyLen (x : KeyExt) (o : Obj) (len : Nat) : Option Nat :=
  let g := getAttr x o .valueLen true 8
  if g.ret = .ok then
    let v := leNat g.wr % 2 ^ 32
    some (if 0 < v ∧ v ≤ len then v else len)
  else none

/-- Outcome of the last part of `C_DeriveKey`: the return value, and the object
handed to `AddObject` (`none` if it is not reached). -/
structure Derived where
  rv : RV
  obj : Option Obj
  deriving DecidableEq

/-- `C_DeriveKey` from the call of `CreateObject` to that of `AddObject`
(src/crypto.c:4243-4263).  `o` is the object `CreateObject` made from the template,
`secret` the shared secret of `keyLen` bytes.  The key is read at offset
`keyLen - symmKeyLen` of the secret (a `word32`, so that a longer key would be read far
outside) but with length `keyLen`: reading outside the secret is `ub`.  When `SymmKeyLen` fails, `rv` keeps the `CKR_OK` of `CreateObject`
and nothing is added. -/
def deriveTail (x : KeyExt) (o : Obj) (secret : Bytes) : Derived :=
  match symmKeyLen x o secret.length with
  | none => ⟨.ok, none⟩
  | some n =>
    let src := secret.drop (secret.length - n)
    if secret.length < n ∨ src.length < secret.length then ⟨.ub, none⟩
    else
      match setSecretKey o (fun a => if a = .value then some src else none) with
      | (.ok, o') => ⟨.ok, some o'⟩
      | (.ub, _) => ⟨.ub, none⟩
      | (_, _) => ⟨.functionFailed, none⟩

end Verif
