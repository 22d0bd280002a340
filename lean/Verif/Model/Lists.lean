import Verif.Model.Attr

/-!
# Slot list, mechanism list, mechanism information
-/

namespace Verif

/-- `(int)n` for a `CK_ULONG` (64 bits): the low 32 bits as a signed number. -/
def toCInt (n : Nat) : Int :=
  let m : Nat := n % 2 ^ 32
  if m < 2 ^ 31 then m else (m : Int) - 2 ^ 32

/-- `slotCnt` (src/internal.c:348-351). -/
def slotCnt : Nat := 1

/-- Result of a list query: return value, elements written from the start of the
caller's array, new `*pulCount` if assigned. -/
structure ListOut where
  rv : RV
  wr : List Nat := []
  count : Option Nat := none
  deriving DecidableEq, Repr

/-- `WP11_GetSlotList` (src/internal.c:3544-3563) with `C_GetSlotList`
(src/slot.c:45-62) for an initialised library and a non-NULL `pulCount`, `*pulCount`
being `count`; `buf` says whether there is an array. -/
def getSlotList (buf : Bool) (count : Nat) : ListOut :=
  if !buf then { rv := .ok, count := some slotCnt }
  else if toCInt count < slotCnt then { rv := .bufferTooSmall }
  else { rv := .ok, wr := (List.range slotCnt).map (· + 1), count := some slotCnt }

/-- The mechanism numbers (wolfpkcs11/pkcs11.h:211-237). -/
def Mech.num : Mech → Nat
  | .rsaKeyPairGen => 0x0
  | .rsaPkcs => 0x1
  | .rsaX509 => 0x3
  | .rsaOaep => 0x9
  | .rsaPss => 0xD
  | .dhKeyPairGen => 0x20
  | .dhDerive => 0x21
  | .hmac .md5 => 0x211
  | .hmac .sha1 => 0x221
  | .hmac .sha224 => 0x256
  | .hmac .sha256 => 0x251
  | .hmac .sha384 => 0x261
  | .hmac .sha512 => 0x271
  | .genericSecretKeyGen => 0x350
  | .ecKeyPairGen => 0x1040
  | .ecdsa => 0x1041
  | .ecdh1Derive => 0x1050
  | .ecdh1CofactorDerive => 0x1051
  | .aesKeyGen => 0x1080
  | .aesCbc => 0x1082
  | .aesCbcPad => 0x1085
  | .aesGcm => 0x1087
  | .other n => n

/-- `mechanismList` (src/slot.c:218-270), all options of wolfCrypt on. -/
def mechanismList : List Mech :=
  [.rsaKeyPairGen, .rsaX509, .rsaPkcs, .rsaOaep, .rsaPss, .ecKeyPairGen, .ecdsa, .ecdh1Derive,
   .dhKeyPairGen, .dhDerive, .aesCbc, .aesCbcPad, .aesGcm, .hmac .md5, .hmac .sha1, .hmac .sha224,
   .hmac .sha256, .hmac .sha384, .hmac .sha512]

/-- `C_GetMechanismList` (src/slot.c:293-318) for an initialised library, a valid slot
and a non-NULL `pulCount`. -/
def getMechanismList (buf : Bool) (count : Nat) : ListOut :=
  if !buf then { rv := .ok, count := some mechanismList.length }
  else if count < mechanismList.length then { rv := .bufferTooSmall }
  else { rv := .ok, wr := mechanismList.map Mech.num, count := some mechanismList.length }

/-- What the information on a mechanism says it is for: the flags (wolfpkcs11/pkcs11.h:68-79). -/
inductive MFlag where
  | encrypt | decrypt | sign | verify | wrap | unwrap | generateKeyPair | generate | derive
  deriving DecidableEq, Repr

/-- `CK_MECHANISM_INFO`. -/
structure MechInfo where
  min : Nat
  max : Nat
  flags : List MFlag
  deriving DecidableEq, Repr

/-- `C_GetMechanismInfo` (src/slot.c:443-539) with the tables (src/slot.c:320-429). -/
def getMechanismInfo : Mech → Option MechInfo
  | .rsaKeyPairGen => some ⟨1024, 4096, [.generateKeyPair]⟩
  | .rsaX509 => some ⟨1024, 4096, [.encrypt, .decrypt, .sign, .verify, .wrap, .unwrap]⟩
  | .rsaPkcs => some ⟨1024, 4096, [.encrypt, .decrypt, .sign, .verify]⟩
  | .rsaOaep => some ⟨1024, 4096, [.encrypt, .decrypt]⟩
  | .rsaPss => some ⟨256, 521, [.sign, .verify]⟩
  | .ecKeyPairGen => some ⟨256, 521, [.generateKeyPair]⟩
  | .ecdsa => some ⟨256, 521, [.sign, .verify]⟩
  | .ecdh1Derive => some ⟨256, 521, [.derive]⟩
  | .dhKeyPairGen => some ⟨1024, 4096, [.generateKeyPair]⟩
  | .dhDerive => some ⟨1024, 4096, [.derive]⟩
  | .aesCbcPad => some ⟨16, 32, [.encrypt, .decrypt]⟩
  | .aesCbc => some ⟨16, 32, [.encrypt, .decrypt]⟩
  | .aesGcm => some ⟨16, 32, [.encrypt, .decrypt]⟩
  | .hmac .md5 => some ⟨16, 512, [.sign, .verify]⟩
  | .hmac .sha1 => some ⟨20, 512, [.sign, .verify]⟩
  | .hmac .sha224 => some ⟨28, 512, [.sign, .verify]⟩
  | .hmac .sha256 => some ⟨32, 512, [.sign, .verify]⟩
  | .hmac .sha384 => some ⟨48, 512, [.sign, .verify]⟩
  | .hmac .sha512 => some ⟨64, 512, [.sign, .verify]⟩
  | _ => none

end Verif
