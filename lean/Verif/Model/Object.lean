import Verif.Model.Base

/-!
# Objects (src/internal.c:134-203)
-/

namespace Verif

/-- `RsaKey` of wolfCrypt: the multi-precision integers (0 when unset) and whether
the key is of type `RSA_PRIVATE`. -/
structure RsaKey where
  n : Nat := 0
  e : Nat := 0
  d : Nat := 0
  p : Nat := 0
  q : Nat := 0
  dP : Nat := 0
  dQ : Nat := 0
  u : Nat := 0
  isPriv : Bool := false
  deriving DecidableEq, Repr

/-- `ecc_key.type` of wolfCrypt: 0, `ECC_PUBLICKEY`, `ECC_PRIVATEKEY`,
`ECC_PRIVATEKEY_ONLY`. -/
inductive EcType where
  | unset | pub | priv | privOnly
  deriving DecidableEq, Repr

/-- A curve of wolfCrypt's table (`ecc_set_type`): its id, the size of an ordinate in
bytes and the bytes of its object identifier. -/
structure Curve where
  id : Nat
  size : Nat
  oid : Bytes
  deriving DecidableEq, Repr

/-- `ecc_key`: curve parameters (`dp`, may be unset), private scalar and public
point (0 when unset). -/
structure EcKey where
  dp : Option Curve := none
  k : Nat := 0
  x : Nat := 0
  y : Nat := 0
  typ : EcType := .unset
  deriving DecidableEq, Repr

/-- `WP11_DhKey` (src/internal.c:150-154): `key` is the used part of the array
`key[512]` (its length is `len`), `p`, `g` the parameters. -/
structure DhKey where
  key : Bytes := []
  p : Nat := 0
  g : Nat := 0
  deriving DecidableEq, Repr

/-- The `data` union of `WP11_Object` (src/internal.c:158-170).  The union is
modelled as a sum: it holds what was last stored in it.  The accessors below give the
empty value of a member that was not stored last; where the code would reinterpret
bytes, the calls answer `ub` before (`reinterprets`, `misread`, `cCryptInit`,
`deriveSecret`), and `c89_partial` says that elsewhere the member asked for is the one
stored, or the union is still zero. -/
inductive KeyData where
  | none
  | rsa (k : RsaKey)
  | ec (k : EcKey)
  | dh (k : DhKey)
  | symm (k : Bytes)
  | cert (value : Bytes) (typ : Nat)
  deriving DecidableEq, Repr

/-- `WP11_Object` (src/internal.c:157-203).  `uid` identifies the allocation (the C
pointer); `startDate`, `endDate` are the 8-byte arrays; `flag`, `opFlag` the two
`word32` bit sets; `keyData` is the encoded key (`none` for the NULL pointer) and `iv`
the 12-byte nonce used to encrypt it; `typ` the key type, `cls` the object class, `size` the field
`size`; `encoded` the bit saying that the key is only present encrypted. The lock,
slot and session pointers are not represented. -/
structure Obj where
  uid : Nat := 0
  data : KeyData := .none
  typ : Nat := 0
  size : Nat := 0
  keyData : Option Bytes := none
  iv : Bytes := List.replicate 12 0
  encoded : Bool := false
  handle : Nat := 0
  cls : Nat := 0
  keyGenMech : Nat := 0
  onToken : Bool := false
  local' : Bool := false
  flag : BitVec 32 := 0
  opFlag : BitVec 32 := 0
  startDate : Bytes := List.replicate 8 0
  endDate : Bytes := List.replicate 8 0
  keyId : Bytes := []
  label : Bytes := []
  deriving DecidableEq, Repr

namespace Obj

/-- `object->data.symmKey` as bytes (`data[0..len)`). -/
def symm (o : Obj) : Bytes :=
  match o.data with
  | .symm k => k
  | _ => []

/-- `object->data.rsaKey`. -/
def rsa (o : Obj) : RsaKey :=
  match o.data with
  | .rsa k => k
  | _ => {}

/-- `object->data.ecKey`. -/
def ec (o : Obj) : EcKey :=
  match o.data with
  | .ec k => k
  | _ => {}

/-- `object->data.dhKey`. -/
def dh (o : Obj) : DhKey :=
  match o.data with
  | .dh k => k
  | _ => {}

end Obj

/-- wolfpkcs11/pkcs11.h:132 -/
abbrev CKK_RSA : Nat := 0
/-- wolfpkcs11/pkcs11.h:133 -/
abbrev CKK_DH : Nat := 2
/-- wolfpkcs11/pkcs11.h:134 -/
abbrev CKK_EC : Nat := 3
/-- wolfpkcs11/pkcs11.h:135 -/
abbrev CKK_GENERIC_SECRET : Nat := 0x10
/-- wolfpkcs11/pkcs11.h:136 -/
abbrev CKK_AES : Nat := 0x1F

/-- wolfpkcs11/pkcs11.h:125 -/
abbrev CKO_DATA : Nat := 0
/-- wolfpkcs11/pkcs11.h:126 -/
abbrev CKO_CERTIFICATE : Nat := 1
/-- wolfpkcs11/pkcs11.h:127 -/
abbrev CKO_PUBLIC_KEY : Nat := 2
/-- wolfpkcs11/pkcs11.h:128 -/
abbrev CKO_PRIVATE_KEY : Nat := 3
/-- wolfpkcs11/pkcs11.h:129 -/
abbrev CKO_SECRET_KEY : Nat := 4

/-- Number of bytes of a non-negative integer (`mp_unsigned_bin_size`). -/
def mpSize (n : Nat) : Nat := (Nat.log2 (2 * n) + 7) / 8

/-- `n` as `len` big-endian bytes, most significant first (truncating). -/
def beBytes : Nat → Nat → Bytes
  | 0, _ => []
  | len + 1, n => beBytes len (n / 256) ++ [UInt8.ofNat (n % 256)]

/-- Big-endian bytes to a number (`mp_read_unsigned_bin`). -/
def ofBytes (b : Bytes) : Nat := b.foldl (fun a x => a * 256 + x.toNat) 0

/-- `mp_to_unsigned_bin`: the minimal big-endian bytes of `n` (none for 0). -/
def mpBytes (n : Nat) : Bytes := beBytes (mpSize n) n

/-- `WP11_Rsa_KeyLen` (src/internal.c:6571-6574); also `wc_RsaEncryptSize`. -/
def RsaKey.keyLen (k : RsaKey) : Nat := mpSize k.n

end Verif
