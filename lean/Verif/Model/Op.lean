import Verif.Model.AesCbc
import Verif.Model.AesGcm
import Verif.Model.Hmac
import Verif.Model.Rsa
import Verif.Model.EcSig

/-!
# Cryptographic operations of a session (src/crypto.c:1165-3376)

The functions below are the bodies of the API functions after the checks of the
library state, the session handle and (for the `…Init` functions) the key handle,
which are in `Verif.Model.Api`.
-/

namespace Verif

/-- `WP11_OaepParams` (src/internal.c:217-222).  `unset` says that the hash function or the
mask generation function is 0, as in a zeroed structure: wolfCrypt then refuses to work. -/
structure OaepSt where
  hash : HashAlg := .sha1
  mgf : HashAlg := .sha1
  unset : Bool := true
  label : Option Bytes := none
  labelSz : Nat := 0
  deriving DecidableEq, Repr

/-- `WP11_PssParams` (src/internal.c:226-230); `unset` as in `OaepSt`. -/
structure PssSt where
  hash : HashAlg := .sha1
  mgf : HashAlg := .sha1
  unset : Bool := true
  saltLen : Int := 0
  deriving DecidableEq, Repr

/-- The operation state of `WP11_Session` (src/internal.c:268-303): `mechanism`,
`init` and the union `params` (282-303).  The members of the union are fields here; what an
Init that is refused after it has written its parameters does to the parameters of the
operation in progress is in `pssOver`, `oaepOver` and `tear` below.  Simplification: an HMAC operation that succeeds its
Init does not change the bytes an AES-CBC operation left in its partial block. -/
structure OpSt where
  mech : Mech := .rsaKeyPairGen
  init : OpInit := .none
  oaep : OaepSt := {}
  pss : PssSt := {}
  cbc : Cbc := Cbc.zero
  gcm : GcmSt := {}
  hmac : HmacSt := {}
  deriving DecidableEq, Repr

/-- `CK_MECHANISM.pParameter`/`ulParameterLen`: NULL with a length, a block of bytes,
or one of the parameter structures with its correct size.  In `oaep`, `pss` the
algorithms are `none` when the number given is not a supported algorithm;
`source` says whether `source == CKZ_DATA_SPECIFIED`. -/
inductive MechParam where
  | null (len : Nat)
  | raw (b : Bytes)
  | oaep (hash mgf : Option HashAlg) (source : Bool) (label : Option Bytes)
  | pss (hash mgf : Option HashAlg) (saltLen : Nat)
  | gcm (iv : Bytes) (aad : Option Bytes) (tagBits : Nat)
  deriving DecidableEq, Repr

/-- `pParameter != NULL || ulParameterLen != 0` is false. -/
def MechParam.isNone : MechParam → Bool
  | .null 0 => true
  | _ => false

/-- `RSA_PSS_SALT_MAX_SZ` of wolfCrypt. -/
def pssSaltMax : Int := 62

/-- The parameters of the operation in progress have been overwritten.  The code does not
notice: `session->init` keeps its value; here the value is marked. -/
def OpSt.mark (s : OpSt) : OpSt := { s with init := s.init.tear }

/-- The number of a hash function (`enum wc_HashType` of wolfCrypt). -/
def HashAlg.typeId : HashAlg → Nat
  | .sha1 => 4
  | .sha224 => 5
  | .sha256 => 6
  | .sha384 => 7
  | .sha512 => 8

/-- The number of a mask generation function (`WC_MGF1SHA1`, … of wolfCrypt). -/
def HashAlg.mgfId : HashAlg → Nat
  | .sha1 => 26
  | .sha224 => 4
  | .sha256 => 1
  | .sha384 => 2
  | .sha512 => 3

/-- An `int` in memory (little endian). -/
def int32le (n : Int) : Bytes :=
  let u := (n % 2 ^ 32).toNat
  [UInt8.ofNat (u % 256), UInt8.ofNat (u / 256 % 256), UInt8.ofNat (u / 65536 % 256), UInt8.ofNat (u / 16777216)]

/-- The twelve bytes of a `WP11_PssParams` (src/internal.c:226-230), 0 for a value not set. -/
def pssBytes (h m : Option HashAlg) (salt : Int) : Bytes :=
  int32le ((h.map HashAlg.typeId).getD 0) ++ int32le ((m.map HashAlg.mgfId).getD 0) ++ int32le salt

/-- A refused RSA-PSS Init has written a `WP11_PssParams` over the union
(src/internal.c:4530-4546, 282-303): over the first twelve bytes of the nonce of AES-GCM
(246), over the functions and half of the label pointer of RSA-OAEP (217-222), over the start
of the `Hmac` object (262-265), over the unused `iv` of AES-CBC (236).  The layout is that of
LP64. -/
def OpSt.pssOver (s : OpSt) (h m : Option HashAlg) (salt : Int) : OpSt :=
  match s.mech with
  | .rsaPss => { s with pss := { hash := h.getD .sha1, mgf := m.getD .sha1, unset := h.isNone || m.isNone, saltLen := salt } }
  | .aesGcm => { s with gcm := { s.gcm with iv := (pssBytes h m salt ++ s.gcm.iv.drop 12).take s.gcm.iv.length } }
  | .rsaOaep =>
    if s.oaep.label.isSome ∨ salt ≠ 0 then s.mark
    else { s with oaep := { s.oaep with hash := h.getD .sha1, mgf := m.getD .sha1, unset := h.isNone || m.isNone } }
  | .hmac _ => s.mark
  | _ => s

/-- A refused RSA-OAEP Init has written a `WP11_OaepParams` with no mask generation function
and no label over the union (src/internal.c:4490-4500, 282-303): over the nonce of AES-GCM and
its length (246-248), over the functions and the salt length of RSA-PSS (226-230), over the
start of the `Hmac` object (262-265), over the start of the `Aes` object of AES-CBC (237). -/
def OpSt.oaepOver (s : OpSt) (h : Option HashAlg) : OpSt :=
  match s.mech with
  | .rsaOaep => { s with oaep := { hash := h.getD .sha1 } }
  | .rsaPss => { s with pss := { hash := h.getD .sha1 } }
  | .aesGcm => { s with gcm := { s.gcm with iv := [] } }
  | .aesCbc | .aesCbcPad | .hmac _ => s.mark
  | _ => s

/-- An Init of AES-CBC or HMAC that is refused because of the key has started a new `Aes` or
`Hmac` object (src/internal.c:4569-4575, 8379-8389) in the union (282-303).  The `Aes` object
begins after the members of RSA-PSS (`whole = false`). -/
def OpSt.tear (s : OpSt) (whole : Bool) : OpSt :=
  match s.mech with
  | .rsaOaep | .aesCbc | .aesCbcPad | .aesGcm | .hmac _ => s.mark
  | .rsaPss => if whole then s.mark else s
  | _ => s

/-- `WP11_Session_SetOaepParams` (src/internal.c:4490-4515). The structure is zeroed
first, also when an algorithm is refused. -/
def setOaep (s : OpSt) (h m : Option HashAlg) (label : Option Bytes) : Bool × OpSt :=
  match h, m with
  | some h, some m =>
    (true, { s with oaep := { hash := h, mgf := m, unset := false, label := label, labelSz := (label.getD []).length } })
  | h, _ => (false, s.oaepOver h)

/-- `WP11_Session_SetPssParams` (src/internal.c:4530-4546): a negative salt length is
accepted.  The salt length is assigned also after an unknown function. -/
def setPss (s : OpSt) (h m : Option HashAlg) (salt : Int) : Bool × OpSt :=
  match h, m with
  | some h, some m =>
    if salt > pssSaltMax then (false, s.pssOver (some h) (some m) 0)
    else (true, { s with pss := { hash := h, mgf := m, unset := false, saltLen := salt } })
  | h, _ => (false, s.pssOver h none salt)

/-- The end of the `…Init` functions (e.g. src/crypto.c:1297-1299): remember mechanism
and kind of operation. The key is remembered by the caller (`session->curr`). -/
def OpSt.started (s : OpSt) (m : Mech) (i : OpInit) : OpSt × RV :=
  ({ s with mech := m, init := i }, .ok)

/-- `WP11_Session_SetCbcParams` and the end of the `…Init` functions for AES-CBC
(src/crypto.c:1236-1267, 1808-1837). -/
def cbcInit (s : OpSt) (o : Obj) (m : Mech) (p : MechParam) (i : OpInit) : OpSt × RV :=
  if o.typ ≠ CKK_AES then (s, .keyTypeInconsistent)
  else
    match p with
    | .raw iv =>
      if iv.length ≠ 16 then (s, .mechanismParamInvalid)
      else
        match s.cbc.setParams o.symm iv with
        | none => (s.tear false, .functionFailed)
        | some c => ({ s with cbc := c }).started m i
    | _ => (s, .mechanismParamInvalid)

/-- The AES-GCM case of `C_EncryptInit`, `C_DecryptInit` (src/crypto.c:1270-1289,
1840-1859). -/
def gcmInit (s : OpSt) (o : Obj) (p : MechParam) (i : OpInit) : OpSt × RV :=
  if o.typ ≠ CKK_AES then (s, .keyTypeInconsistent)
  else
    match p with
    | .gcm iv aad tagBits =>
      match GcmSt.setParams iv aad (toInt32 tagBits) with
      | none => (s, .mechanismParamInvalid)
      | some g => ({ s with gcm := g }).started .aesGcm i
    | _ => (s, .mechanismParamInvalid)

/-- The RSA-OAEP case of `C_EncryptInit`, `C_DecryptInit` (src/crypto.c:1209-1231,
1782-1803). -/
def oaepInit (s : OpSt) (o : Obj) (p : MechParam) (i : OpInit) : OpSt × RV :=
  if o.typ ≠ CKK_RSA then (s, .keyTypeInconsistent)
  else
    match p with
    | .oaep h m src label =>
      if src = false then (s, .mechanismParamInvalid)
      else
        let r := setOaep s h m label
        if r.1 then r.2.started .rsaOaep i else (r.2, .mechanismParamInvalid)
    | _ => (s, .mechanismParamInvalid)

/-- A case without mechanism parameter and with key type `t` (e.g.
src/crypto.c:1188-1196). -/
def plainInit (s : OpSt) (o : Obj) (t : Nat) (m : Mech) (p : MechParam) (i : OpInit) : OpSt × RV :=
  if o.typ ≠ t then (s, .keyTypeInconsistent)
  else if !p.isNone then (s, .mechanismParamInvalid)
  else s.started m i

/-- `C_EncryptInit` from the key lookup on (src/crypto.c:1185-1301). -/
def encryptInit (s : OpSt) (o : Obj) (m : Mech) (p : MechParam) : OpSt × RV :=
  match m with
  | .rsaX509 => plainInit s o CKK_RSA m p .rsaX509Enc
  | .rsaPkcs => plainInit s o CKK_RSA m p .rsaPkcsEnc
  | .rsaOaep => oaepInit s o p .rsaOaepEnc
  | .aesCbc => cbcInit s o m p .aesCbcEnc
  | .aesCbcPad => cbcInit s o m p .aesCbcPadEnc
  | .aesGcm => gcmInit s o p .aesGcmEnc
  | _ => (s, .mechanismInvalid)

/-- `C_DecryptInit` from the key lookup on (src/crypto.c:1760-1871). -/
def decryptInit (s : OpSt) (o : Obj) (m : Mech) (p : MechParam) : OpSt × RV :=
  match m with
  | .rsaX509 => plainInit s o CKK_RSA m p .rsaX509Dec
  | .rsaPkcs => plainInit s o CKK_RSA m p .rsaPkcsDec
  | .rsaOaep => oaepInit s o p .rsaOaepDec
  | .aesCbc => cbcInit s o m p .aesCbcDec
  | .aesCbcPad => cbcInit s o m p .aesCbcPadDec
  | .aesGcm => gcmInit s o p .aesGcmDec
  | _ => (s, .mechanismInvalid)

/-- The RSA-PSS case of `C_SignInit`, `C_VerifyInit` (src/crypto.c:2507-2525,
3037-3055). -/
def pssInit (s : OpSt) (o : Obj) (p : MechParam) (i : OpInit) : OpSt × RV :=
  if o.typ ≠ CKK_RSA then (s, .keyTypeInconsistent)
  else
    match p with
    | .pss h m salt =>
      let r := setPss s h m (toInt32 salt)
      if r.1 then r.2.started .rsaPss i else (r.2, .mechanismParamInvalid)
    | _ => (s, .mechanismParamInvalid)

/-- The HMAC case of `C_SignInit`, `C_VerifyInit` (src/crypto.c:2540-2568,
3070-3098). -/
def hmacInit (x : Crypto) (s : OpSt) (o : Obj) (a : HmacAlg) (p : MechParam) (i : OpInit) : OpSt × RV :=
  if o.typ ≠ CKK_GENERIC_SECRET then (s, .keyTypeInconsistent)
  else if !p.isNone then (s, .mechanismParamInvalid)
  else
    let r := s.hmac.start x.mac a o.symm
    if r.1 then ({ s with hmac := r.2 }).started (.hmac a) i
    else (({ s with hmac := r.2 }).tear true, .functionFailed)

/-- `C_SignInit` from the key lookup on (src/crypto.c:2485-2578). -/
def signInit (x : Crypto) (s : OpSt) (o : Obj) (m : Mech) (p : MechParam) : OpSt × RV :=
  match m with
  | .rsaX509 => plainInit s o CKK_RSA m p .rsaX509Sign
  | .rsaPkcs => plainInit s o CKK_RSA m p .rsaPkcsSign
  | .rsaPss => pssInit s o p .rsaPssSign
  | .ecdsa => plainInit s o CKK_EC m p .ecdsaSign
  | .hmac a => hmacInit x s o a p .hmacSign
  | _ => (s, .mechanismInvalid)

/-- `C_VerifyInit` from the key lookup on (src/crypto.c:3015-3108). -/
def verifyInit (x : Crypto) (s : OpSt) (o : Obj) (m : Mech) (p : MechParam) : OpSt × RV :=
  match m with
  | .rsaX509 => plainInit s o CKK_RSA m p .rsaX509Verify
  | .rsaPkcs => plainInit s o CKK_RSA m p .rsaPkcsVerify
  | .rsaPss => pssInit s o p .rsaPssVerify
  | .ecdsa => plainInit s o CKK_EC m p .ecdsaVerify
  | .hmac a => hmacInit x s o a p .hmacVerify
  | _ => (s, .mechanismInvalid)

/-- `if (!WP11_Session_IsOpInitialized(session, i)) return
CKR_OPERATION_NOT_INITIALIZED;` (src/internal.c:4351-4354, e.g. src/crypto.c:1351-1352).
Going on with an operation whose parameters a refused Init has overwritten counts as
undefined behaviour: what is computed depends on the layout of wolfCrypt's objects, and
overwritten pointers are followed. -/
def needInit (s : OpSt) (i : OpInit) (k : OpSt × Out) : OpSt × Out :=
  if s.init = i then k
  else if s.init = .torn i then (s, { rv := .ub })
  else (s, { rv := .operationNotInitialized })

/-- The usual treatment of an output buffer for which `need` bytes are required
(e.g. src/crypto.c:1354-1360): a query reports the length, a small buffer is
refused, otherwise go on. -/
def sized (s : OpSt) (ob : OutBuf) (need : Nat) (k : OpSt × Out) : OpSt × Out :=
  match ob with
  | .noLen => (s, { rv := .argumentsBad })
  | .query _ => (s, { rv := .ok, len := some need })
  | .buf n => if need > n then (s, { rv := .bufferTooSmall }) else k

/-- `if (ret < 0) return CKR_FUNCTION_FAILED; *pulLen = len;` after a call that wrote
`r` (e.g. src/crypto.c:1365-1367). -/
def finish (s : OpSt) (r : Option Bytes) : OpSt × Out :=
  match r with
  | none => (s, { rv := .functionFailed })
  | some w => (s, { rv := .ok, wr := w, len := some w.length })

/-- `*pulSignatureLen = sigLen;` before `ret` is looked at (src/crypto.c:2640-2742):
a failed signature still assigns the length. -/
def finishSig (s : OpSt) (sigLen : Nat) (r : Option Bytes) : OpSt × Out :=
  match r with
  | none => (s, { rv := .functionFailed, len := some sigLen })
  | some w => (s, { rv := .ok, wr := w, len := some w.length })

/-- Checks common to the data functions: NULL data or length pointer, then no current
object (e.g. src/crypto.c:1338-1345). -/
def withArgs (s : OpSt) (curr : Option Obj) (data : Option Bytes) (ob : OutBuf)
    (k : Obj → Bytes → OpSt × Out) : OpSt × Out :=
  match data with
  | none => (s, { rv := .argumentsBad })
  | some d =>
    if ob = .noLen then (s, { rv := .argumentsBad })
    else
      match curr with
      | none => (s, { rv := .operationNotInitialized })
      | some o => k o d

/-- After an OAEP operation the label is freed when it succeeded
(src/internal.c:6771-6779); the size field keeps its value. -/
def oaepDone (s : OpSt) (r : Option Bytes) : OpSt :=
  match r with
  | none => s
  | some _ => { s with oaep := { s.oaep with label := none } }

/-- `WP11_RsaOaep_PublicEncrypt` (src/internal.c:6750-6782). -/
def oaepEnc (x : Crypto) (s : OpSt) (o : Obj) (d : Bytes) (rnd : Nat) : Option Bytes :=
  if s.oaep.unset then none
  else x.rsa.encOaep o.rsa s.oaep.hash s.oaep.mgf s.oaep.label s.oaep.labelSz d rnd

/-- `WP11_RsaOaep_PrivateDecrypt` (src/internal.c:6797-6842). -/
def oaepDec (x : Crypto) (s : OpSt) (o : Obj) (d : Bytes) : Option Bytes :=
  if s.oaep.unset then none
  else x.rsa.decOaep o.rsa s.oaep.hash s.oaep.mgf s.oaep.label s.oaep.labelSz d

/-- `WP11_RsaPKCSPSS_Sign` (src/internal.c:7038-7062). -/
def pssSign (x : Crypto) (s : OpSt) (o : Obj) (d : Bytes) (rnd : Nat) : Option Bytes :=
  if s.pss.unset then none else x.rsa.signPss o.rsa s.pss.hash s.pss.mgf s.pss.saltLen d rnd

/-- `WP11_RsaPKCSPSS_Verify` (src/internal.c:7077-7113) with the parameters of the session. -/
def pssVerify (x : Crypto) (s : OpSt) (o : Obj) (sg d : Bytes) : Option Bool :=
  if s.pss.unset then none else rsaPssVerify x.rsa o.rsa s.pss.hash s.pss.mgf s.pss.saltLen sg d

/-- `C_Encrypt` (src/crypto.c:1325-1484). -/
def encrypt (x : Crypto) (s : OpSt) (curr : Option Obj) (data : Option Bytes) (ob : OutBuf)
    (rnd : Nat) : OpSt × Out :=
  withArgs s curr data ob fun o d =>
    match s.mech with
    | .rsaX509 => needInit s .rsaX509Enc <| sized s ob o.rsa.keyLen <|
        finish s (x.rsa.raw .publicEncrypt o.rsa d rnd)
    | .rsaPkcs => needInit s .rsaPkcsEnc <| sized s ob o.rsa.keyLen <|
        finish s (x.rsa.encPkcs o.rsa d rnd)
    | .rsaOaep => needInit s .rsaOaepEnc <| sized s ob o.rsa.keyLen <|
        let r := oaepEnc x s o d rnd
        finish (oaepDone s r) r
    | .aesCbc => needInit s .aesCbcEnc <| sized s ob d.length <|
        let r := s.cbc.encrypt x.aes d
        ({ s with cbc := r.2.2, init := .none }, { rv := .ok, wr := r.1, len := some r.2.1 })
    | .aesCbcPad => needInit s .aesCbcPadEnc <| sized s ob d.length <|
        let r := s.cbc.padEncrypt x.aes d
        finish { s with cbc := r.2, init := .none } (some r.1)
    | .aesGcm => needInit s .aesGcmEnc <| sized s ob ((d.length + s.gcm.tagSz) % 2 ^ 32) <|
        let r := s.gcm.encrypt x.gcm o.symm d
        finish { s with gcm := r.2 } r.1
    | _ => (s, { rv := .mechanismInvalid })

/-- `C_EncryptUpdate` (src/crypto.c:1507-1606). -/
def encryptUpdate (x : Crypto) (s : OpSt) (curr : Option Obj) (data : Option Bytes) (ob : OutBuf) :
    OpSt × Out :=
  withArgs s curr data ob fun o d =>
    match s.mech with
    | .aesCbc => needInit s .aesCbcEnc <| sized s ob ((d.length + s.cbc.partSz) / 16 * 16) <|
        let r := s.cbc.encUpdate x.aes d
        finish { s with cbc := r.2 } (some r.1)
    | .aesCbcPad => needInit s .aesCbcPadEnc <| sized s ob ((d.length + s.cbc.partSz) / 16 * 16) <|
        let r := s.cbc.encUpdate x.aes d
        finish { s with cbc := r.2 } (some r.1)
    | .aesGcm => needInit s .aesGcmEnc <| sized s ob d.length <|
        let r := s.gcm.encUpdate x.gcm o.symm d
        finish { s with gcm := r.2 } r.1
    | _ => (s, { rv := .mechanismInvalid })

/-- The AES-CBC case of `C_EncryptFinal`, `C_DecryptFinal` (src/crypto.c:1652-1668,
2224-2240): with data left over the operation is abandoned. -/
def cbcFinal (s : OpSt) (ob : OutBuf) : OpSt × Out :=
  if s.cbc.partSz ≠ 0 then
    ({ s with cbc := s.cbc.final, init := .none }, { rv := .dataLenRange })
  else
    match ob with
    | .buf _ => ({ s with cbc := s.cbc.final, init := .none }, { rv := .ok, len := some 0 })
    | _ => (s, { rv := .ok, len := some 0 })

/-- `C_EncryptFinal` (src/crypto.c:1627-1718).  In the CBC-PAD case the length is not
assigned on success. -/
def encryptFinal (x : Crypto) (s : OpSt) (curr : Option Obj) (ob : OutBuf) : OpSt × Out :=
  withArgs s curr (some []) ob fun _ _ =>
    match s.mech with
    | .aesCbc => needInit s .aesCbcEnc <| cbcFinal s ob
    | .aesCbcPad => needInit s .aesCbcPadEnc <| sized s ob 16 <|
        let r := s.cbc.padEncFinal x.aes
        ({ s with cbc := r.2, init := .none }, { rv := .ok, wr := r.1 })
    | .aesGcm => needInit s .aesGcmEnc <| sized s ob s.gcm.tagSz <|
        finish s (some s.gcm.encFinal)
    | _ => (s, { rv := .mechanismInvalid })

/-- The length required by `C_DecryptUpdate` for CBC-PAD with `t` bytes in hand
(src/crypto.c:2132-2138): the last block is kept. -/
def padDecLen (t : Nat) : Nat :=
  if t % 16 ≠ 0 then t / 16 * 16 else if t > 0 then t - 16 else t

/-- Decrypt `d` (ciphertext followed by tag): data shorter than the tag makes the code
compute with wrapped lengths and read outside the buffer. -/
def gcmDecrypt (x : Crypto) (s : OpSt) (o : Obj) (d : Bytes) : OpSt × Out :=
  if d.length < s.gcm.tagSz then (s, { rv := .ub })
  else
    let r := s.gcm.decrypt x.gcm o.symm d
    finish { s with gcm := r.2 } r.1

/-- `C_Decrypt` (src/crypto.c:1896-2055).  For CBC-PAD there is no check of the
buffer's size. -/
def decrypt (x : Crypto) (s : OpSt) (curr : Option Obj) (data : Option Bytes) (ob : OutBuf)
    (rnd : Nat) : OpSt × Out :=
  withArgs s curr data ob fun o d =>
    match s.mech with
    | .rsaX509 => needInit s .rsaX509Dec <| sized s ob o.rsa.keyLen <|
        finish s (x.rsa.raw .privateDecrypt o.rsa d rnd)
    | .rsaPkcs => needInit s .rsaPkcsDec <| sized s ob o.rsa.keyLen <|
        finish s (x.rsa.decPkcs o.rsa d)
    | .rsaOaep => needInit s .rsaOaepDec <| sized s ob o.rsa.keyLen <|
        let r := oaepDec x s o d
        finish (oaepDone s r) r
    | .aesCbc => needInit s .aesCbcDec <| sized s ob d.length <|
        match s.cbc.decrypt x.aes d with
        | none => ({ s with init := .none }, { rv := .functionFailed })
        | some r => ({ s with cbc := r.2.2, init := .none }, { rv := .ok, wr := r.1, len := some r.2.1 })
    | .aesCbcPad => needInit s .aesCbcPadDec <|
        match ob with
        | .buf _ =>
          let r := s.cbc.padDecrypt x.aes d
          finish { s with cbc := r.2.1, init := if r.2.2 then .none else s.init } r.1
        | _ => (s, { rv := .ok, len := some (w32sub d.length 1) })
    | .aesGcm => needInit s .aesGcmDec <| sized s ob (w32sub d.length s.gcm.tagSz) <|
        gcmDecrypt x s o d
    | _ => (s, { rv := .mechanismInvalid })

/-- `C_DecryptUpdate` (src/crypto.c:2079-2179).  For GCM a call with a NULL buffer
reports length 0 and does not consume the data. -/
def decryptUpdate (x : Crypto) (s : OpSt) (curr : Option Obj) (data : Option Bytes) (ob : OutBuf) :
    OpSt × Out :=
  withArgs s curr data ob fun _ d =>
    match s.mech with
    | .aesCbc => needInit s .aesCbcDec <| sized s ob ((d.length + s.cbc.partSz) / 16 * 16) <|
        match s.cbc.decUpdate x.aes d with
        | none => (s, { rv := .functionFailed })
        | some r => finish { s with cbc := r.2 } (some r.1)
    | .aesCbcPad => needInit s .aesCbcPadDec <| sized s ob (padDecLen (d.length + s.cbc.partSz)) <|
        match s.cbc.padDecUpdate x.aes d with
        | none => (s, { rv := .functionFailed })
        | some r => finish { s with cbc := r.2 } (some r.1)
    | .aesGcm => needInit s .aesGcmDec <|
        match ob with
        | .buf _ => ({ s with gcm := s.gcm.decUpdate d }, { rv := .ok, len := some 0 })
        | _ => (s, { rv := .ok, len := some 0 })
    | _ => (s, { rv := .mechanismInvalid })

/-- `C_DecryptFinal` (src/crypto.c:2200-2292). -/
def decryptFinal (x : Crypto) (s : OpSt) (curr : Option Obj) (ob : OutBuf) : OpSt × Out :=
  withArgs s curr (some []) ob fun o _ =>
    match s.mech with
    | .aesCbc => needInit s .aesCbcDec <| cbcFinal s ob
    | .aesCbcPad => needInit s .aesCbcPadDec <|
        if s.cbc.partSz ≠ 16 then
          ({ s with cbc := s.cbc.final, init := .none }, { rv := .dataLenRange })
        else
          match ob with
          | .buf _ =>
            let r := s.cbc.padDecFinal x.aes
            match r.1 with
            | none => ({ s with cbc := r.2, init := .none }, { rv := .functionFailed, len := some 15 })
            | some w => ({ s with cbc := r.2, init := .none }, { rv := .ok, wr := w, len := some w.length })
          | _ => (s, { rv := .ok, len := some 15 })
    | .aesGcm => needInit s .aesGcmDec <| sized s ob (w32sub s.gcm.enc.length s.gcm.tagSz) <|
        if s.gcm.enc.length < s.gcm.tagSz then (s, { rv := .ub })
        else
          let r := s.gcm.decFinal x.gcm o.symm
          finish { s with gcm := r.2 } r.1
    | _ => (s, { rv := .mechanismInvalid })

/-- `C_Sign` (src/crypto.c:2602-2745). -/
def sign (x : Crypto) (s : OpSt) (curr : Option Obj) (data : Option Bytes) (ob : OutBuf)
    (rnd : Nat) : OpSt × Out :=
  withArgs s curr data ob fun o d =>
    match s.mech with
    | .rsaX509 => needInit s .rsaX509Sign <| sized s ob o.rsa.keyLen <|
        finishSig s o.rsa.keyLen (rsaSign x.rsa o.rsa d rnd)
    | .rsaPkcs => needInit s .rsaPkcsSign <| sized s ob o.rsa.keyLen <|
        finishSig s o.rsa.keyLen (x.rsa.signPkcs o.rsa d rnd)
    | .rsaPss => needInit s .rsaPssSign <| sized s ob o.rsa.keyLen <|
        finishSig s o.rsa.keyLen (pssSign x s o d rnd)
    | .ecdsa => needInit s .ecdsaSign <|
        match o.ec.dp with
        | none => (s, { rv := .ub })
        | some c => sized s ob (2 * c.size) <|
          match ecSign x.ecdsa o.ec c.size d rnd with
          | .ub => (s, { rv := .ub })
          | .parse => finishSig s (2 * c.size) none
          | .ok w => finishSig s (2 * c.size) (some w)
    | .hmac _ => needInit s .hmacSign <| sized s ob s.hmac.size <|
        finishSig { s with init := .none } s.hmac.size (some (s.hmac.sign x.mac d))
    | _ => (s, { rv := .mechanismInvalid })

/-- `C_SignUpdate` (src/crypto.c:2762-2816); `C_VerifyUpdate` (3246-3300) is the same
with the other code `i`. -/
def macUpdate (s : OpSt) (i : OpInit) (curr : Option Obj) (data : Option Bytes) : OpSt × Out :=
  withArgs s curr data (.query 0) fun _ d =>
    match s.mech with
    | .hmac _ => needInit s i ({ s with hmac := s.hmac.update d }, { rv := .ok })
    | _ => (s, { rv := .mechanismInvalid })

/-- `C_SignUpdate` (src/crypto.c:2762-2816). -/
def signUpdate (s : OpSt) (curr : Option Obj) (data : Option Bytes) : OpSt × Out :=
  macUpdate s .hmacSign curr data

/-- `C_SignFinal` (src/crypto.c:2838-2903). -/
def signFinal (x : Crypto) (s : OpSt) (curr : Option Obj) (ob : OutBuf) : OpSt × Out :=
  withArgs s curr (some []) ob fun _ _ =>
    match s.mech with
    | .hmac _ => needInit s .hmacSign <| sized s ob s.hmac.size <|
        finishSig { s with init := .none } s.hmac.size (some (s.hmac.signFinal x.mac))
    | _ => (s, { rv := .mechanismInvalid })

/-- The end of `C_Verify`, `C_VerifyFinal` (src/crypto.c:3223-3228, 3370-3375). -/
def finishVerify (s : OpSt) (r : Option Bool) : OpSt × Out :=
  match r with
  | none => (s, { rv := .functionFailed })
  | some false => (s, { rv := .signatureInvalid })
  | some true => (s, { rv := .ok })

/-- `C_Verify` (src/crypto.c:3129-3229). -/
def verify (x : Crypto) (s : OpSt) (curr : Option Obj) (data sig : Option Bytes) : OpSt × Out :=
  match sig with
  | none => (s, { rv := .argumentsBad })
  | some sg => withArgs s curr data (.query 0) fun o d =>
    match s.mech with
    | .rsaX509 => needInit s .rsaX509Verify <| finishVerify s (rsaVerify x.rsa o.rsa sg d)
    | .rsaPkcs => needInit s .rsaPkcsVerify <| finishVerify s (rsaPkcsVerify x.rsa o.rsa sg d)
    | .rsaPss => needInit s .rsaPssVerify <|
        finishVerify s (pssVerify x s o sg d)
    | .ecdsa => needInit s .ecdsaVerify <|
        match o.ec.dp with
        | none => (s, { rv := .ub })
        | some c => finishVerify s (ecVerify x.ecdsa o.ec c.size sg d)
    | .hmac _ => needInit s .hmacVerify <|
        finishVerify { s with init := .none } (some (s.hmac.verify x.mac sg d))
    | _ => (s, { rv := .mechanismInvalid })

/-- `C_VerifyUpdate` (src/crypto.c:3246-3300). -/
def verifyUpdate (s : OpSt) (curr : Option Obj) (data : Option Bytes) : OpSt × Out :=
  macUpdate s .hmacVerify curr data

/-- `C_VerifyFinal` (src/crypto.c:3318-3376). -/
def verifyFinal (x : Crypto) (s : OpSt) (curr : Option Obj) (sig : Option Bytes) : OpSt × Out :=
  withArgs s curr sig (.query 0) fun _ sg =>
    match s.mech with
    | .hmac _ => needInit s .hmacVerify <|
        finishVerify { s with init := .none } (some (s.hmac.verifyFinal x.mac sg))
    | _ => (s, { rv := .mechanismInvalid })

end Verif
