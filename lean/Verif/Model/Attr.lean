import Verif.Model.Object

/-!
# Attributes (src/internal.c:5045-6435, src/crypto.c:53-442)

Getting, setting and matching the attributes of an object.  A 64-bit little-endian
platform is assumed (`CK_ULONG` has 8 bytes).
-/

namespace Verif

/-- Attribute types (wolfpkcs11/pkcs11.h:139-209); every other number is `unknown`. -/
inductive CKA where
  | cls | token | priv | label | application | value | objectId
  | certificateType | issuer | serialNumber | acIssuer | owner | attrTypes | trusted
  | certificateCategory | javaMidp | url | hashSubjectKey | hashIssuerKey | nameHashAlg
  | checkValue | keyType | subject | id | sensitive
  | encrypt | decrypt | wrap | unwrap | sign | signRecover | verify | verifyRecover | derive
  | startDate | endDate
  | modulus | modulusBits | publicExponent | privateExponent | prime1 | prime2
  | exponent1 | exponent2 | coefficient | publicKeyInfo
  | prime | base | primeBits | valueBits | valueLen
  | extractable | local' | neverExtractable | alwaysSensitive | keyGenMech
  | modifiable | copyable | destroyable | ecParams | ecPoint
  | alwaysAuth | wrapWithTrusted | hwFeatureType | resetOnInit | hasReset
  | wrapTemplate | unwrapTemplate | deriveTemplate | allowedMechs
  | unknown
  deriving DecidableEq, Repr

/-- `CK_ATTRIBUTE`: `mem` is the memory `pValue` points to (`none` for NULL), `len`
is `ulValueLen`.  The caller's duty is that `mem` has at least `len` bytes. -/
structure Entry where
  typ : CKA
  mem : Option Bytes
  len : Nat
  deriving DecidableEq, Repr

/-- The value an entry carries: the first `ulValueLen` bytes at `pValue`. -/
def Entry.val (e : Entry) : Bytes := (e.mem.getD []).take e.len

/-- An entry carrying the bytes `b`. -/
def Entry.of (a : CKA) (b : Bytes) : Entry := { typ := a, mem := some b, len := b.length }

/-- `CK_UNAVAILABLE_INFORMATION` (wolfpkcs11/pkcs11.h:110). -/
def unavailableInfo : Nat := 2 ^ 64 - 1

/-- A little-endian number. -/
def leNat : Bytes → Nat
  | [] => 0
  | b :: bs => b.toNat + 256 * leNat bs

/-- `n` as `len` little-endian bytes (truncating). -/
def leBytes : Nat → Nat → Bytes
  | 0, _ => []
  | len + 1, n => UInt8.ofNat (n % 256) :: leBytes len (n / 256)

/-- The bytes of a `CK_ULONG`. -/
def ulong (n : Nat) : Bytes := leBytes 8 n

/-- A `CK_BBOOL`. -/
def cbool (b : Bool) : Bytes := [if b then 1 else 0]

/-- The first byte of a value as a C truth value (`*(CK_BBOOL*)data`). -/
def isTrue (b : Bytes) : Bool := b.headD 0 != 0

/-- Return values of the internal functions. `ub` stands for undefined behaviour (a
NULL pointer is dereferenced or memory outside an array is touched). -/
inductive IRet where
  | ok | bufferE | notAvail | badArg | asnParse | other | ub
  deriving DecidableEq, Repr

/-- Functions of wolfCrypt used by the attribute functions. -/
structure KeyExt where
  /-- `mp_read_unsigned_bin` accepts a number of this many bytes -/
  mpOk : Nat → Bool
  /-- `wc_ecc_get_curve_id_from_oid`, `wc_ecc_set_curve` -/
  curve : Bytes → Option Curve
  /-- `wc_ecc_import_x963_ex` -/
  importX963 : EcKey → Bytes → Option EcKey
  /-- `wc_ecc_export_x963` -/
  exportX963 : EcKey → Option Bytes
  /-- `wc_DhSetKey` accepts prime and base -/
  dhOk : Bytes → Bytes → Bool

/-- Data types of attributes (src/crypto.c:38-41). -/
inductive AKind where
  | ulong | bool | data | date
  deriving DecidableEq, Repr

/-- The table `attrType` (src/crypto.c:124-193): the data type of each recognised
attribute. -/
def CKA.kind : CKA → Option AKind
  | .cls | .keyType | .modulusBits | .primeBits | .valueBits | .valueLen | .keyGenMech
  | .hwFeatureType | .certificateType | .certificateCategory | .nameHashAlg => some .ulong
  | .priv | .trusted | .sensitive | .encrypt | .decrypt | .wrap | .unwrap | .sign
  | .signRecover | .verify | .verifyRecover | .derive | .extractable | .local'
  | .neverExtractable | .alwaysSensitive | .modifiable | .copyable | .destroyable
  | .alwaysAuth | .wrapWithTrusted | .resetOnInit | .hasReset => some .bool
  | .startDate | .endDate => some .date
  | .token | .label | .application | .value | .objectId | .owner | .subject | .id
  | .modulus | .publicExponent | .privateExponent | .prime1 | .prime2 | .exponent1
  | .exponent2 | .coefficient | .publicKeyInfo | .prime | .base | .ecParams | .ecPoint
  | .wrapTemplate | .unwrapTemplate | .deriveTemplate | .allowedMechs | .issuer
  | .serialNumber | .url | .hashSubjectKey | .hashIssuerKey => some .data
  | .acIssuer | .attrTypes | .javaMidp | .checkValue | .unknown => none

/-- One round of the loop of `CheckAttributes` (src/crypto.c:253-292). -/
def checkEntry (set : Bool) (e : Entry) : RV :=
  match e.typ.kind with
  | none => .attributeTypeInvalid
  | some .ulong =>
    if e.mem.isNone && set then .attributeValueInvalid
    else if e.mem.isSome && e.len != 8 then .bufferTooSmall
    else .ok
  | some .bool =>
    if e.mem.isNone && set then .attributeValueInvalid
    else if e.mem.isSome && e.len != 1 then .bufferTooSmall
    else if set && e.val.headD 0 != 1 && e.val.headD 0 != 0 then .attributeValueInvalid
    else .ok
  | some .date =>
    if e.mem.isNone && set then .attributeValueInvalid
    else if e.mem.isSome && e.len != 8 then .bufferTooSmall
    else .ok
  | some .data =>
    if set && e.len == unavailableInfo then .attributeValueInvalid else .ok

/-- `CheckAttributes` (src/crypto.c:248-295): the first problem found. -/
def checkAttributes (set : Bool) : List Entry → RV
  | [] => .ok
  | e :: t => if checkEntry set e = .ok then checkAttributes set t else checkEntry set e

/-- `FindAttributeType` (src/crypto.c:206-217): the last entry with the type. -/
def findAttr (t : List Entry) (a : CKA) : Option Entry := t.reverse.find? (fun e => e.typ == a)

/-- `FindValidAttributeType` (src/crypto.c:219-232). -/
def findValidAttr (t : List Entry) (a : CKA) (sz : Nat) : Except RV Entry :=
  match findAttr t a with
  | none => .error .templateIncomplete
  | some e => if e.mem.isNone || e.len != sz then .error .attributeValueInvalid else .ok e

/-- The inner loop that collects key data (src/crypto.c:378-388): the first entry
with the type. -/
def keyAttr (t : List Entry) (a : CKA) : Option Entry := t.find? (fun e => e.typ == a)

/-- `SetMPI` (src/internal.c:5020-5031): absent data leaves the number as it is (0 in
the freshly initialised key). -/
def setMpi (x : KeyExt) (v : Option Bytes) : Option Nat :=
  match v with
  | none => some 0
  | some b => if x.mpOk b.length then some (ofBytes b) else none

/-- `WP11_Object_SetRsaKey` (src/internal.c:5045-5104); `v` gives the key data of the
template. The key is initialised first; on an error it is freed. -/
def setRsaKey (x : KeyExt) (o : Obj) (v : CKA → Option Bytes) : IRet × Obj :=
  match setMpi x (v .modulus), setMpi x (v .privateExponent), setMpi x (v .prime1),
    setMpi x (v .prime2), setMpi x (v .exponent1), setMpi x (v .exponent2),
    setMpi x (v .coefficient), setMpi x (v .publicExponent) with
  | some n, some d, some p, some q, some dP, some dQ, some u, some e =>
    let k : RsaKey := { n, e, d, p, q, dP, dQ, u, isPriv := !(d == 0 && p == 0) }
    match v .modulusBits with
    | none => (.ok, { o with data := .rsa k })
    | some b =>
      if b.length = 8 then (.ok, { o with data := .rsa k, size := leNat b % 2 ^ 32 })
      else if b.length ≠ 0 then (.bufferE, { o with data := .rsa {} })
      else (.ok, { o with data := .rsa k })
  | _, _, _, _, _, _, _, _ => (.other, { o with data := .rsa {} })

/-- `EcSetParams` (src/internal.c:5151-5180). -/
def ecSetParams (x : KeyExt) (der : Bytes) : Except IRet Curve :=
  match der with
  | t :: l :: oid =>
    if t ≠ 0x06 then .error .asnParse
    else if l.toNat ≠ oid.length then .error .bufferE
    else
      match x.curve oid with
      | none => .error .badArg
      | some c => .ok c
  | _ => .error .bufferE

/-- The DER part of `EcSetPoint` (src/internal.c:5193-5220): the point without its
octet string header. -/
def ecPointDer (der : Bytes) : Except IRet Bytes :=
  match der with
  | t :: l :: c :: rest =>
    if t ≠ 0x04 then .error .asnParse
    else if l ≥ 0x80 then
      if l ≠ 0x81 then .error .asnParse
      else if c.toNat ≠ rest.length then .error .bufferE
      else .ok rest
    else if l.toNat ≠ rest.length + 1 then .error .bufferE
    else .ok (c :: rest)
  | _ => .error .bufferE

/-- `EcSetPoint` (src/internal.c:5193-5220): `key->dp` is dereferenced. -/
def ecSetPoint (x : KeyExt) (k : EcKey) (der : Bytes) : IRet × EcKey :=
  match ecPointDer der with
  | .error r => (r, k)
  | .ok p =>
    match k.dp with
    | none => (.ub, k)
    | some _ =>
      match x.importX963 k p with
      | none => (.other, k)
      | some k' => (.ok, k')

/-- `wc_ecc_free`: the numbers are cleared. -/
def EcKey.free (k : EcKey) : EcKey := { k with k := 0, x := 0, y := 0 }

/-- `EcSetParams` on an initialised key if there are parameters
(src/internal.c:5244-5245). -/
def ecStep1 (x : KeyExt) (v : Option Bytes) (k : EcKey) : IRet × EcKey :=
  match v with
  | none => (.ok, k)
  | some der =>
    match ecSetParams x der with
    | .error r => (r, k)
    | .ok c => (.ok, { k with dp := some c })

/-- The private value (src/internal.c:5246-5249). -/
def ecStep2 (x : KeyExt) (v : Option Bytes) (k : EcKey) : IRet × EcKey :=
  match v with
  | none => (.ok, k)
  | some b =>
    match setMpi x (some b) with
    | none => (.other, { k with typ := .privOnly })
    | some n => (.ok, { k with typ := .privOnly, k := n })

/-- The public point (src/internal.c:5250-5256). -/
def ecStep3 (x : KeyExt) (v : Option Bytes) (k : EcKey) : IRet × EcKey :=
  match v with
  | none => (.ok, k)
  | some der => ecSetPoint x { k with typ := if k.typ = .privOnly then .priv else .pub } der

/-- Run the next step unless one failed (`ret == 0 &&`). -/
def ecThen (r : IRet × EcKey) (f : EcKey → IRet × EcKey) : IRet × EcKey :=
  if r.1 = .ok then f r.2 else r

/-- `WP11_Object_SetEcKey` (src/internal.c:5232-5276). -/
def setEcKey (x : KeyExt) (o : Obj) (v : CKA → Option Bytes) : IRet × Obj :=
  let r := ecThen (ecThen (ecStep1 x (v .ecParams) {}) (ecStep2 x (v .value))) (ecStep3 x (v .ecPoint))
  if r.1 = .ok then (.ok, { o with data := .ec r.2 }) else (r.1, { o with data := .ec r.2.free })

/-- `sizeof(key->key)` of `WP11_DhKey` (`WP11_MAX_DH_KEY_SZ`, src/internal.c:150-154). -/
def maxDhKey : Nat := 512

/-- `sizeof(data)` of `WP11_Data` (`WP11_MAX_SYM_KEY_SZ`, src/internal.c:137-140). -/
def maxSymKey : Nat := 512

/-- `sizeof(data)` of `WP11_Cert` (`WP11_MAX_CERT_SZ`, src/internal.c:143-147). -/
def maxCert : Nat := 4096

/-- `WP11_Object_SetDhKey` (src/internal.c:5291-5323): the parameters are initialised
first; the value keeps its old contents when the template has none. -/
def setDhKey (x : KeyExt) (o : Obj) (v : CKA → Option Bytes) : IRet × Obj :=
  let old := o.dh.key
  let params : Option (Nat × Nat) :=
    match v .prime, v .base with
    | some p, some g => if x.dhOk p g then some (ofBytes p, ofBytes g) else none
    | _, _ => some (0, 0)
  match params with
  | none => (.other, { o with data := .dh { key := old } })
  | some (p, g) =>
    match v .value with
    | none => (.ok, { o with data := .dh { key := old, p, g } })
    | some b =>
      if b.length > maxDhKey then (.badArg, { o with data := .dh { key := old } })
      else (.ok, { o with data := .dh { key := b, p, g } })

/-- The length a secret key gets (src/internal.c:5352-5371): from `CKA_VALUE_LEN` if
given and not 0, else the length of the value. -/
def secretLen (typ : Nat) (vlen value : Option Bytes) : Except IRet Nat :=
  match vlen with
  | none => .ok ((value.getD []).length)
  | some l =>
    if l.length ≠ 8 then .error .badArg
    else if typ = CKK_AES ∧ leNat l ≠ 16 ∧ leNat l ≠ 24 ∧ leNat l ≠ 32 then .error .badArg
    else
      let n := leNat l % 2 ^ 32
      match value with
      | none => .ok n
      | some b => if n = 0 then .ok b.length else if b.length < n then .error .bufferE else .ok n

/-- The key data left behind by a `WP11_Object_SetSecretKey` that fails: none, or, when the
value is shorter than the length (src/internal.c:5363-5371), that many zero bytes. -/
def secretLeft (r : IRet) (vlen : Option Bytes) : Bytes :=
  if r = .bufferE then List.replicate (leNat (vlen.getD []) % 2 ^ 32) 0 else []

/-- `WP11_Object_SetSecretKey` (src/internal.c:5338-5380): the key is cleared first;
the copy is not checked against the size of the array.  A length without a value
gives that many zero bytes. -/
def setSecretKey (o : Obj) (v : CKA → Option Bytes) : IRet × Obj :=
  match secretLen o.typ (v .valueLen) (v .value) with
  | .error r => (r, { o with data := .symm (secretLeft r (v .valueLen)) })
  | .ok n =>
    match v .value with
    | none => (.ok, { o with data := .symm (List.replicate n 0) })
    | some b => (if n > maxSymKey then .ub else .ok, { o with data := .symm (b.take n) })

/-- `WP11_Object_SetCert` (src/internal.c:5382-5415). -/
def setCert (o : Obj) (v : CKA → Option Bytes) : IRet × Obj :=
  let old := match o.data with
    | .cert _ t => t
    | _ => 0
  match v .certificateType with
  | some l =>
    if l.length ≠ 8 then (.badArg, { o with data := .cert [] old })
    else
      match v .value with
      | none => (.ok, { o with data := .cert [] (leNat l % 2 ^ 32) })
      | some b =>
        if b.length > maxCert then (.bufferE, { o with data := .cert [] (leNat l % 2 ^ 32) })
        else (.ok, { o with data := .cert b (leNat l % 2 ^ 32) })
  | none =>
    match v .value with
    | none => (.ok, { o with data := .cert [] old })
    | some b =>
      if b.length > maxCert then (.bufferE, { o with data := .cert [] old })
      else (.ok, { o with data := .cert b old })

/-- Protection flags (wolfpkcs11/internal.h:102-110). -/
abbrev FLAG_PRIVATE : BitVec 32 := 0x001
/-- wolfpkcs11/internal.h:103 -/
abbrev FLAG_SENSITIVE : BitVec 32 := 0x002
/-- wolfpkcs11/internal.h:104 -/
abbrev FLAG_EXTRACTABLE : BitVec 32 := 0x004
/-- wolfpkcs11/internal.h:105 -/
abbrev FLAG_MODIFIABLE : BitVec 32 := 0x008
/-- wolfpkcs11/internal.h:106 -/
abbrev FLAG_ALWAYS_SENSITIVE : BitVec 32 := 0x010
/-- wolfpkcs11/internal.h:107 -/
abbrev FLAG_NEVER_EXTRACTABLE : BitVec 32 := 0x020
/-- wolfpkcs11/internal.h:108 -/
abbrev FLAG_ALWAYS_AUTH : BitVec 32 := 0x040
/-- wolfpkcs11/internal.h:109 -/
abbrev FLAG_WRAP_WITH_TRUSTED : BitVec 32 := 0x080
/-- wolfpkcs11/internal.h:110 -/
abbrev FLAG_TRUSTED : BitVec 32 := 0x100

/-- Usage flags (wolfpkcs11/pkcs11.h:68-79). -/
abbrev CKF_ENCRYPT : BitVec 32 := 0x100
abbrev CKF_DECRYPT : BitVec 32 := 0x200
abbrev CKF_SIGN : BitVec 32 := 0x800
abbrev CKF_SIGN_RECOVER : BitVec 32 := 0x1000
abbrev CKF_VERIFY : BitVec 32 := 0x2000
abbrev CKF_VERIFY_RECOVER : BitVec 32 := 0x4000
abbrev CKF_WRAP : BitVec 32 := 0x20000
abbrev CKF_UNWRAP : BitVec 32 := 0x40000
abbrev CKF_DERIVE : BitVec 32 := 0x80000

/-- `WP11_Object_SetOpFlag`, `WP11_Object_SetFlag` (src/internal.c:6083-6089,
6154-6160) on the flag word. -/
def setBit (w : BitVec 32) (f : BitVec 32) (set : Bool) : BitVec 32 :=
  if set then w ||| f else w &&& ~~~f

/-- A boolean of the usage flag word. -/
def Obj.setOp (o : Obj) (f : BitVec 32) (d : Bytes) : IRet × Obj :=
  (.ok, { o with opFlag := setBit o.opFlag f (isTrue d) })

/-- A boolean of the protection flag word. -/
def Obj.setFl (o : Obj) (f : BitVec 32) (d : Bytes) : IRet × Obj :=
  (.ok, { o with flag := setBit o.flag f (isTrue d) })

/-- The class is changed from certificate to key or from key to certificate
(src/internal.c:6226-6228): from then on the `data` union (158-170) is read as the
member for the new class, although it holds the other one. -/
def reinterprets (o : Obj) (v : Nat) : Bool := (o.cls == CKO_CERTIFICATE) != (v == CKO_CERTIFICATE)

/-- `WP11_Object_SetAttr` (src/internal.c:6217-6399) for the entry `e`.  `CKA_UNWRAP`
is stored in the bit of `CKA_WRAP` (6249-6251).  A NULL pointer with a length is
dereferenced by the label and identifier cases.  Simplification: a class for which the
union holds the wrong member counts as undefined behaviour at once, not only when the
member is read. -/
def setAttr (o : Obj) (e : Entry) : IRet × Obj :=
  let d := e.val
  let need (c : Bool) : IRet × Obj := (if c then .ok else .badArg, o)
  match e.typ with
  | .cls => if reinterprets o (leNat d) then (.ub, o) else (.ok, { o with cls := leNat d })
  | .decrypt => o.setOp CKF_DECRYPT d
  | .encrypt => o.setOp CKF_ENCRYPT d
  | .sign => o.setOp CKF_SIGN d
  | .verify => o.setOp CKF_VERIFY d
  | .signRecover => o.setOp CKF_SIGN_RECOVER d
  | .verifyRecover => o.setOp CKF_VERIFY_RECOVER d
  | .wrap => o.setOp CKF_WRAP d
  | .unwrap => o.setOp CKF_WRAP d
  | .derive => o.setOp CKF_DERIVE d
  | .id => if e.mem.isNone && e.len != 0 then (.ub, o) else (.ok, { o with keyId := d })
  | .label => if e.mem.isNone && e.len != 0 then (.ub, o) else (.ok, { o with label := d })
  | .priv => o.setFl FLAG_PRIVATE d
  | .sensitive => o.setFl FLAG_SENSITIVE d
  | .extractable => o.setFl FLAG_EXTRACTABLE d
  | .modifiable => o.setFl FLAG_MODIFIABLE d
  | .alwaysSensitive => o.setFl FLAG_ALWAYS_SENSITIVE d
  | .neverExtractable => o.setFl FLAG_NEVER_EXTRACTABLE d
  | .alwaysAuth => o.setFl FLAG_ALWAYS_AUTH d
  | .wrapWithTrusted => o.setFl FLAG_WRAP_WITH_TRUSTED d
  | .trusted => o.setFl FLAG_TRUSTED d
  | .startDate => if e.len ≠ 8 then (.bufferE, o) else (.ok, { o with startDate := d })
  | .endDate => if e.len ≠ 8 then (.bufferE, o) else (.ok, { o with endDate := d })
  | .modulusBits | .modulus | .privateExponent | .prime1 | .prime2 | .exponent1 | .exponent2
  | .coefficient | .publicExponent => need (o.typ == CKK_RSA)
  | .ecParams | .ecPoint => need (o.typ == CKK_EC)
  | .prime | .base => need (o.typ == CKK_DH)
  | .valueLen => need (o.typ == CKK_DH || o.typ == CKK_AES || o.typ == CKK_GENERIC_SECRET)
  | .value => need (o.cls == CKO_CERTIFICATE || o.typ == CKK_EC || o.typ == CKK_DH ||
      o.typ == CKK_AES || o.typ == CKK_GENERIC_SECRET)
  | .keyType | .token | .certificateType => (.ok, o)
  | .subject | .issuer | .serialNumber | .acIssuer | .attrTypes | .certificateCategory
  | .javaMidp | .url | .hashSubjectKey | .hashIssuerKey | .nameHashAlg | .checkValue =>
    need (o.cls == CKO_CERTIFICATE)
  | _ => (.badArg, o)

/-- The last loop of `SetAttributeValue` (src/crypto.c:428-439). -/
def setAttrs (o : Obj) : List Entry → RV × Obj
  | [] => (.ok, o)
  | e :: t =>
    let r := setAttr o e
    match r.1 with
    | .ok => setAttrs r.2 t
    | .badArg => (.attributeValueInvalid, r.2)
    | .bufferE => (.bufferTooSmall, r.2)
    | .ub => (.ub, r.2)
    | _ => (.functionFailed, r.2)

/-- The key data attributes of each kind of object (src/crypto.c:53-105); `none` when
`SetAttributeValue` knows no key data for the object (src/crypto.c:372-374). -/
def keyParams (o : Obj) : Option (List CKA) :=
  if o.cls = CKO_CERTIFICATE then some [.certificateType, .value]
  else if o.typ = CKK_RSA then
    some [.modulus, .privateExponent, .prime1, .prime2, .exponent1, .exponent2, .coefficient,
      .publicExponent, .modulusBits]
  else if o.typ = CKK_EC then some [.ecParams, .value, .ecPoint]
  else if o.typ = CKK_DH then some [.prime, .base, .value]
  else if o.typ = CKK_AES ∨ o.typ = CKK_GENERIC_SECRET then some [.valueLen, .value]
  else none

/-- The call of the key setter (src/crypto.c:390-422): always made. -/
def setKey (x : KeyExt) (o : Obj) (v : CKA → Option Bytes) : IRet × Obj :=
  if o.cls = CKO_CERTIFICATE then setCert o v
  else if o.typ = CKK_RSA then setRsaKey x o v
  else if o.typ = CKK_EC then setEcKey x o v
  else if o.typ = CKK_DH then setDhKey x o v
  else setSecretKey o v

/-- The key data given in a template: the value of the first entry of a type. -/
def keyVals (t : List Entry) (a : CKA) : Option Bytes := (keyAttr t a).map Entry.val

/-- `SetAttributeValue` (src/crypto.c:315-442) on a template that is not NULL; `rw` is
`WP11_Session_IsRW`. -/
def setAttributeValue (x : KeyExt) (rw : Bool) (o : Obj) (t : List Entry) : RV × Obj :=
  if !rw then (.sessionReadOnly, o)
  else
    let c := checkAttributes true t
    if c ≠ .ok then (c, o)
    else
      match keyParams o with
      | none => (.objectHandleInvalid, o)
      | some ps =>
        if ps.any (fun a => (keyAttr t a).any (fun e => e.mem.isNone)) then
          (.attributeValueInvalid, o)
        else
          let r := setKey x o (keyVals t)
          match r.1 with
          | .ok => setAttrs r.2 t
          | .ub => (.ub, r.2)
          | _ => (.functionFailed, r.2)

/-- Result of getting an attribute: the return value, the new `*len` and the bytes
written from the start of the caller's buffer. -/
structure GRet where
  ret : IRet
  len : Nat
  wr : Bytes := []
  deriving DecidableEq, Repr

/-- `GetMPIData`, `GetBool`, `GetULong`, `GetData`, `GetEcParams`
(src/internal.c:5491-5605, 5698-5715): `d` is the value, `buf` says whether there is a
buffer, `len` is `*len`. -/
def getData (d : Bytes) (buf : Bool) (len : Nat) : GRet :=
  if !buf then { ret := .ok, len := d.length }
  else if len < d.length then { ret := .bufferE, len }
  else { ret := .ok, len := d.length, wr := d }

/-- `*len = CK_UNAVAILABLE_INFORMATION` (e.g. src/internal.c:5635-5636). -/
def getNone : GRet := { ret := .ok, len := unavailableInfo }

/-- `NOT_AVAILABLE_E`. -/
def getNotAvail (len : Nat) : GRet := { ret := .notAvail, len }

/-- `mp_count_bits`. -/
def bitCount (n : Nat) : Nat := Nat.log2 (2 * n)

/-- `noPriv` (src/internal.c:5624-5625). -/
def Obj.noPriv (o : Obj) : Bool :=
  (o.flag &&& FLAG_SENSITIVE) != 0 || (o.flag &&& FLAG_EXTRACTABLE) == 0

/-- `RsaObject_GetAttr` (src/internal.c:5620-5684). -/
def rsaGetAttr (o : Obj) (a : CKA) (buf : Bool) (len : Nat) : GRet :=
  let k := o.rsa
  let noPriv := o.noPriv || k.d == 0
  let secret (n : Nat) : GRet := if noPriv then getNone else getData (mpBytes n) buf len
  match a with
  | .modulus => getData (mpBytes k.n) buf len
  | .privateExponent => secret k.d
  | .prime1 => secret k.p
  | .prime2 => secret k.q
  | .exponent1 => secret k.dP
  | .exponent2 => secret k.dQ
  | .coefficient => secret k.u
  | .publicExponent => getData (mpBytes k.e) buf len
  | .modulusBits => getData (ulong (bitCount k.n)) buf len
  | _ => getNotAvail len

/-- The header of the octet string written by `GetEcPoint` (src/internal.c:5740-5744). -/
def ecPointHdr (n : Nat) : Bytes :=
  if n ≥ 0x80 then [0x04, 0x81, UInt8.ofNat n] else [0x04, UInt8.ofNat n]

/-- `GetEcPoint` (src/internal.c:5727-5749): the buffer is compared with the length of
the point without the header. -/
def getEcPoint (x : KeyExt) (k : EcKey) (buf : Bool) (len : Nat) : GRet :=
  match k.dp with
  | none => { ret := .ub, len }
  | some c =>
    let n := 2 * c.size + 1
    let full := (ecPointHdr n).length + n
    if !buf then { ret := .ok, len := full }
    else if len < n then { ret := .bufferE, len }
    else
      match x.exportX963 k with
      | none => { ret := .other, len := full, wr := ecPointHdr n }
      | some p => { ret := .ok, len := full, wr := ecPointHdr n ++ p }

/-- `GetEcParams` (src/internal.c:5698-5715): `key->dp` is dereferenced. -/
def getEcParams (k : EcKey) (buf : Bool) (len : Nat) : GRet :=
  match k.dp with
  | none => { ret := .ub, len }
  | some c => getData (0x06 :: UInt8.ofNat c.oid.length :: c.oid) buf len

/-- `EcObject_GetAttr` (src/internal.c:5763-5801). -/
def ecGetAttr (x : KeyExt) (o : Obj) (a : CKA) (buf : Bool) (len : Nat) : GRet :=
  let k := o.ec
  match a with
  | .ecParams => getEcParams k buf len
  | .value => if o.noPriv || k.typ == .pub then getNone else getData (mpBytes k.k) buf len
  | .ecPoint => if k.typ == .privOnly then getNone else getEcPoint x k buf len
  | _ => getNotAvail len

/-- `DhObject_GetAttr` (src/internal.c:5817-5851). -/
def dhGetAttr (o : Obj) (a : CKA) (buf : Bool) (len : Nat) : GRet :=
  match a with
  | .prime => getData (mpBytes o.dh.p) buf len
  | .base => getData (mpBytes o.dh.g) buf len
  | .value =>
    if o.cls != CKO_PRIVATE_KEY || !o.noPriv then getData o.dh.key buf len else getNone
  | _ => getNotAvail len

/-- `SecretObject_GetAttr` (src/internal.c:5866-5892).  A key whose length (set from
`CKA_VALUE_LEN` alone) exceeds the array is read past its end. -/
def secretGetAttr (o : Obj) (a : CKA) (buf : Bool) (len : Nat) : GRet :=
  match a with
  | .value =>
    if o.noPriv then getNone
    else if o.symm.length > maxSymKey && buf && decide (o.symm.length ≤ len) then { ret := .ub, len }
    else getData o.symm buf len
  | .valueLen => getData (ulong o.symm.length) buf len
  | _ => getNotAvail len

/-- `object->data.cert` as bytes. -/
def Obj.certValue (o : Obj) : Bytes :=
  match o.data with
  | .cert v _ => v
  | _ => []

/-- Attributes of a certificate that are read from its bytes as if they were a key: the
type of an object is that of the certificate (src/crypto.c:680-694), which is compared
with key types (src/internal.c:6037-6062). -/
def misread (o : Obj) (a : CKA) : Bool :=
  o.cls == CKO_CERTIFICATE &&
    (o.typ == CKK_RSA && [CKA.modulus, .privateExponent, .prime1, .prime2, .exponent1, .exponent2,
        .coefficient, .publicExponent, .modulusBits].contains a ||
      o.typ == CKK_DH && [CKA.prime, .base].contains a)

/-- The `default` case of `WP11_Object_GetAttr` (src/internal.c:6029-6066).
Simplification: the private parts of a certificate taken for an RSA key count as read
even when the flags forbid it. -/
def getKeyAttr (x : KeyExt) (o : Obj) (a : CKA) (buf : Bool) (len : Nat) : GRet :=
  if o.cls = CKO_CERTIFICATE ∧ a = .value then getData o.certValue buf len
  else if misread o a then { ret := .ub, len }
  else if o.typ = CKK_RSA then rsaGetAttr o a buf len
  else if o.typ = CKK_EC then ecGetAttr x o a buf len
  else if o.typ = CKK_DH then dhGetAttr o a buf len
  else if o.typ = CKK_AES ∨ o.typ = CKK_GENERIC_SECRET then secretGetAttr o a buf len
  else getNotAvail len

/-- `GetOpFlagBool` (src/internal.c:5547-5551). -/
def opBool (w f : BitVec 32) : Bytes := cbool (w &&& f == f)

/-- `WP11_Object_GetAttr` (src/internal.c:5906-6073).  The protection flags are read
from `opFlag`, although they are stored in `flag`. -/
def getAttr (x : KeyExt) (o : Obj) (a : CKA) (buf : Bool) (len : Nat) : GRet :=
  match a with
  | .cls => getData (ulong o.cls) buf len
  | .label => getData o.label buf len
  | .token => getData (cbool o.onToken) buf len
  | .priv => getData (opBool o.opFlag FLAG_PRIVATE) buf len
  | .sensitive => getData (opBool o.opFlag FLAG_SENSITIVE) buf len
  | .extractable => getData (opBool o.opFlag FLAG_EXTRACTABLE) buf len
  | .modifiable => getData (opBool o.opFlag FLAG_MODIFIABLE) buf len
  | .alwaysSensitive => getData (opBool o.opFlag FLAG_ALWAYS_SENSITIVE) buf len
  | .neverExtractable => getData (opBool o.opFlag FLAG_NEVER_EXTRACTABLE) buf len
  | .alwaysAuth => getData (opBool o.opFlag FLAG_ALWAYS_AUTH) buf len
  | .wrapWithTrusted => getData (opBool o.opFlag FLAG_WRAP_WITH_TRUSTED) buf len
  | .trusted => getData (opBool o.opFlag FLAG_TRUSTED) buf len
  | .copyable => getData (cbool false) buf len
  | .destroyable => getData (cbool true) buf len
  | .application => getNotAvail len
  | .id => getData o.keyId buf len
  | .keyType => getData (ulong o.typ) buf len
  | .startDate => if o.startDate.headD 0 = 0 then { ret := .ok, len := 0 } else getData o.startDate buf len
  | .endDate => if o.endDate.headD 0 = 0 then { ret := .ok, len := 0 } else getData o.endDate buf len
  | .local' => getData (cbool o.local') buf len
  | .keyGenMech => getData (ulong o.keyGenMech) buf len
  | .allowedMechs => getNotAvail len
  | .encrypt => getData (opBool o.opFlag CKF_ENCRYPT) buf len
  | .decrypt => getData (opBool o.opFlag CKF_DECRYPT) buf len
  | .verify => getData (opBool o.opFlag CKF_VERIFY) buf len
  | .verifyRecover => getData (opBool o.opFlag CKF_VERIFY_RECOVER) buf len
  | .sign => getData (opBool o.opFlag CKF_SIGN) buf len
  | .signRecover => getData (opBool o.opFlag CKF_SIGN_RECOVER) buf len
  | .wrap => getData (opBool o.opFlag CKF_WRAP) buf len
  | .unwrap => getData (opBool o.opFlag CKF_UNWRAP) buf len
  | .derive => getData (opBool o.opFlag CKF_DERIVE) buf len
  | .subject => getNotAvail len
  | a => getKeyAttr x o a buf len

/-- One attribute of `C_GetAttributeValue` (src/crypto.c:971-984): the entry after
the call.  What is written past the end of the caller's memory shows as memory that
has become longer. -/
def getEntry (x : KeyExt) (o : Obj) (e : Entry) : RV × Entry :=
  let r := getAttr x o e.typ e.mem.isSome e.len
  let e' : Entry := { e with mem := e.mem.map (fun m => r.wr ++ m.drop r.wr.length), len := r.len }
  match r.ret with
  | .ok => (.ok, e')
  | .badArg => (.attributeTypeInvalid, e')
  | .bufferE => (.bufferTooSmall, e')
  | .notAvail => (.unavailable, e')
  | .ub => (.ub, e')
  | _ => (.functionFailed, e')

/-- The loop of `C_GetAttributeValue` (src/crypto.c:971-984): stops at the first
failure. -/
def getEntries (x : KeyExt) (o : Obj) : List Entry → RV × List Entry
  | [] => (.ok, [])
  | e :: t =>
    let r := getEntry x o e
    if r.1 = .ok then
      let r' := getEntries x o t
      (r'.1, r.2 :: r'.2)
    else (r.1, r.2 :: t)

/-- `C_GetAttributeValue` from the object lookup on (src/crypto.c:966-987). -/
def getAttributeValue (x : KeyExt) (o : Obj) (t : List Entry) : RV × List Entry :=
  let c := checkAttributes false t
  if c ≠ .ok then (c, t) else getEntries x o t

/-- `WP11_Object_MatchAttr` (src/internal.c:6411-6435); `none` when memory outside the
comparison buffer (of `ulValueLen` bytes) is written, or a NULL value is compared, or
`WP11_Object_GetAttr` itself runs into undefined behaviour. A length no allocation can
satisfy (`CK_UNAVAILABLE_INFORMATION`) never matches. -/
def matchAttr (x : KeyExt) (o : Obj) (e : Entry) : Option Bool :=
  if e.len = unavailableInfo then some false
  else
    let r := getAttr x o e.typ true e.len
    if r.ret = .ub ∨ r.wr.length > e.len then none
    else if r.ret ≠ .ok ∨ r.len ≠ e.len then some false
    else if e.mem.isNone && e.len != 0 then none
    else some (r.wr == e.val)

/-- All attributes of the template match (src/internal.c:4884-4890). -/
def matchAll (x : KeyExt) (o : Obj) : List Entry → Option Bool
  | [] => some true
  | e :: t =>
    match matchAttr x o e with
    | none => none
    | some false => some false
    | some true => matchAll x o t

end Verif
