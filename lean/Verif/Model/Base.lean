/-!
# Base types shared by the model

Bytes, return values, mechanisms and operation codes of the API.
-/

namespace Verif

/-- Byte strings.  C buffers are modelled by the bytes they contain; a pair
(pointer, length) given by the caller is a `Bytes` whose length is the length
argument.  Simplification: every length given by the caller is assumed to fit a
C `int` (below 2^31); the casts `(word32)ulLen`, `(int)ulLen` in src/crypto.c are
then the identity. -/
abbrev Bytes := List UInt8

/-- `(int)n` for a `CK_ULONG` `n`: the low 32 bits as a signed number.  Used for the
numbers that are not lengths of buffers (src/crypto.c:1280-1283, 2519-2520). -/
def toInt32 (n : Nat) : Int := if n % 2 ^ 32 < 2 ^ 31 then (n % 2 ^ 32 : Nat) else (n % 2 ^ 32 : Nat) - 2 ^ 32

/-- Return values of the API functions (wolfpkcs11/pkcs11.h:239-325); only those
the library can return. `unavailable` is `CK_UNAVAILABLE_INFORMATION`, which
`C_GetAttributeValue` returns as a status (src/crypto.c:984-985).  `ub` is not a
return value: it stands for a call that runs into undefined behaviour (a NULL or
dangling pointer is dereferenced, memory outside a buffer is read). -/
inductive RV where
  | ok | slotIdInvalid | generalError | functionFailed | argumentsBad
  | attributeSensitive | attributeTypeInvalid | attributeValueInvalid
  | dataLenRange | deviceMemory | deviceError
  | encryptedDataInvalid | functionNotParallel | functionNotSupported
  | keyHandleInvalid | keySizeRange | keyTypeInconsistent | keyNotWrappable | keyNeeded
  | mechanismInvalid | mechanismParamInvalid | objectHandleInvalid
  | operationActive | operationNotInitialized
  | pinIncorrect | pinInvalid | pinLenRange | pinLocked
  | sessionCount | sessionHandleInvalid | sessionParallelNotSupported
  | sessionReadOnly | sessionExists | sessionReadOnlyExists | sessionReadWriteSoExists
  | signatureInvalid | signatureLenRange
  | templateIncomplete | templateInconsistent
  | tokenNotRecognized
  | userAlreadyLoggedIn | userNotLoggedIn | userPinNotInitialized | userTypeInvalid
  | userAnotherAlreadyLoggedIn
  | wrappedKeyInvalid | wrappedKeyLenRange
  | wrappingKeyHandleInvalid | wrappingKeyTypeInconsistent
  | unwrappingKeyHandleInvalid | unwrappingKeyTypeInconsistent
  | randomSeedNotSupported | randomNoRng
  | bufferTooSmall | stateUnsaveable | saveStateInvalid
  | cryptokiNotInitialized | cryptokiAlreadyInitialized
  | noEvent | obHostMemory | unavailable
  | ub
  deriving DecidableEq, Repr

/-- The HMAC hash functions (src/internal.c:8320-8348). -/
inductive HmacAlg where
  | md5 | sha1 | sha224 | sha256 | sha384 | sha512
  deriving DecidableEq, Repr

/-- Mechanism types the library knows (wolfpkcs11/pkcs11.h:211-237); every other
number is `other`. -/
inductive Mech where
  | rsaKeyPairGen | rsaPkcs | rsaX509 | rsaOaep | rsaPss
  | dhKeyPairGen | dhDerive
  | hmac (a : HmacAlg)
  | genericSecretKeyGen
  | ecKeyPairGen | ecdsa | ecdh1Derive | ecdh1CofactorDerive
  | aesKeyGen | aesCbc | aesCbcPad | aesGcm
  | other (n : Nat)
  deriving DecidableEq, Repr

/-- `session->init`: which operation is initialised
(wolfpkcs11/internal.h:113-134; 0 is `none`).  `torn i` is not a value of the code: it stands
for the value `i` in a session in which a refused Init has overwritten the parameters of the
operation (`OpSt.mark`). -/
inductive OpInit where
  | none
  | aesCbcEnc | aesCbcDec | aesGcmEnc | aesGcmDec | aesCbcPadEnc | aesCbcPadDec
  | hmacSign | hmacVerify
  | rsaX509Enc | rsaX509Dec | rsaPkcsEnc | rsaPkcsDec | rsaOaepEnc | rsaOaepDec
  | rsaPkcsSign | rsaPkcsVerify | rsaPssSign | rsaPssVerify | rsaX509Sign | rsaX509Verify
  | ecdsaSign | ecdsaVerify
  | torn (i : OpInit)
  deriving DecidableEq, Repr

/-- Mark the value, unless there is no operation or it is marked already
(src/internal.c:282-303, see `OpSt.mark`). -/
def OpInit.tear : OpInit → OpInit
  | .none => .none
  | .torn i => .torn i
  | i => .torn i

/-- What the caller passes for an output buffer: pointer `pBuf` and the length
pointer `pulLen`.
* `noLen`: `pulLen == NULL`;
* `query n`: `pBuf == NULL`, `*pulLen = n`;
* `buf n`: a buffer, `*pulLen = n`. -/
inductive OutBuf where
  | noLen
  | query (n : Nat)
  | buf (n : Nat)
  deriving DecidableEq, Repr

/-- Result of a call with an output buffer: the return value, the bytes written
at the start of the caller's buffer, and the new value of `*pulLen` if it was
assigned. -/
structure Out where
  rv : RV
  wr : Bytes := []
  len : Option Nat := none
  deriving DecidableEq, Repr

/-- `memcpy(buf + off, data, |data|)` on a buffer given by its contents. -/
def Bytes.write (buf : Bytes) (off : Nat) (data : Bytes) : Bytes :=
  buf.take off ++ data ++ buf.drop (off + data.length)

/-- Subtraction of `word32` values (wraps). -/
def w32sub (a b : Nat) : Nat := (a + 2 ^ 32 - b % 2 ^ 32) % 2 ^ 32

end Verif
