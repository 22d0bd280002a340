import Verif.Model.Codec
import Verif.Model.StoreName
import Verif.Model.DhDer
import Verif.Model.Attr

/-!
# Encoding, storing and loading of token objects and of the token
(src/internal.c:1508-3245)

The store is a map from file names to contents; by C36 a file name is determined by the
kind of item and the two ids, the token id is always 1 here (one slot), so a name is a
kind and an object id.  A store operation yields the list of files it writes, in order,
with their final contents: the directory after the call is that list applied to the one
before, and the directories a crash can leave are the list's prefixes.

Simplifications: opening a file for writing and writing it always succeed; a file opened
for reading is found exactly when it was written before; allocations succeed (except of
a negative size).
-/

namespace Verif

/-- wolfSSL functions used to store keys: AES-GCM with the token key (ciphertext and tag
in one byte string), the DER encodings of RSA and EC keys, the decoding of DH parameters
and the contents of fresh memory. -/
structure StoreExt where
  /-- `wp11_EncryptData`: key, IV, plaintext -/
  aeadEnc : Bytes → Bytes → Bytes → Bytes
  /-- `wp11_DecryptData`: key, IV, ciphertext with tag -/
  aeadDec : Bytes → Bytes → Bytes → Option Bytes
  /-- `wc_RsaKeyToDer`, `wc_RsaKeyToPublicDer` -/
  rsaToDer : RsaKey → Option Bytes
  rsaToPubDer : RsaKey → Option Bytes
  /-- `wc_RsaPrivateKeyDecode`, `wc_RsaPublicKeyDecode` -/
  rsaOfDer : Bytes → Option RsaKey
  rsaOfPubDer : Bytes → Option RsaKey
  /-- `wc_EccKeyToDer` (or `wc_EccPrivateKeyToDer`), `wc_EccPublicKeyToDer` -/
  eccToDer : EcKey → Option Bytes
  eccToPubDer : EcKey → Option Bytes
  /-- `wc_EccPrivateKeyDecode`, `wc_EccPublicKeyDecode` -/
  eccOfDer : Bytes → Option EcKey
  eccOfPubDer : Bytes → Option EcKey
  /-- `wc_DhKeyDecode` -/
  dhOfDer : Bytes → Option (Nat × Nat)
  /-- contents of memory allocated and not written -/
  junk : Nat → Bytes
  /-- the hash of a PIN under a seed (`HashPIN`, src/internal.c:3744-3771) -/
  hash : Bytes → Bytes → Bytes
  /-- the `n`-th output of the random generator, of the given length -/
  rand : Nat → Nat → Bytes

/-- Size of the GCM tag (`AES_BLOCK_SIZE`). -/
def tagSz : Nat := 16

/-- `wp11_Object_Encode_RsaKey` (src/internal.c:1677-1730). The IV is the object's, the
key the token's. -/
def encodeRsa (e : StoreExt) (key : Bytes) (o : Obj) : Bool × Obj :=
  let out : Option Bytes :=
    if o.cls = CKO_PRIVATE_KEY then (e.rsaToDer o.rsa).map (e.aeadEnc key o.iv)
    else if o.cls = CKO_PUBLIC_KEY then e.rsaToPubDer o.rsa
    else (e.rsaToPubDer o.rsa).map fun d => e.junk d.length
  (out.isSome, { o with keyData := out })

/-- `wp11_Object_Encode_EccKey` (src/internal.c:1972-2040). -/
def encodeEcc (e : StoreExt) (key : Bytes) (o : Obj) : Bool × Obj :=
  let out : Option Bytes :=
    if o.cls = CKO_PRIVATE_KEY then (e.eccToDer o.ec).map (e.aeadEnc key o.iv)
    else if o.cls = CKO_PUBLIC_KEY then e.eccToPubDer o.ec
    else (e.eccToPubDer o.ec).map fun d => e.junk d.length
  (out.isSome, { o with keyData := out })

/-- `wp11_Object_Encode_DhKey` (src/internal.c:2148-2181). -/
def encodeDh (e : StoreExt) (key : Bytes) (o : Obj) : Bool × Obj :=
  let d := if o.cls = CKO_PRIVATE_KEY then e.aeadEnc key o.iv o.dh.key else o.dh.key
  (true, { o with keyData := some d })

/-- `wp11_Object_Encode_SymmKey` (src/internal.c:2467-2491). -/
def encodeSymm (e : StoreExt) (key : Bytes) (o : Obj) : Bool × Obj :=
  (true, { o with keyData := some (e.aeadEnc key o.iv o.symm) })

/-- The encoding functions by type (the switch of `wp11_Object_Encode`,
src/internal.c:2857-2907). -/
def encodeKey (e : StoreExt) (key : Bytes) (o : Obj) : Bool × Obj :=
  if o.typ = CKK_RSA then encodeRsa e key o
  else if o.typ = CKK_EC then encodeEcc e key o
  else if o.typ = CKK_DH then encodeDh e key o
  else if o.typ = CKK_AES ∨ o.typ = CKK_GENERIC_SECRET then encodeSymm e key o
  else (false, o)

/-- What the clearing at logout leaves of a key: RSA keys are freed, EC keys too (the
curve pointer stays), DH and secret keys are zeroed with their length kept
(src/internal.c:2869-2898). -/
def cleared (o : Obj) : Obj :=
  if o.typ = CKK_RSA then
    (if o.cls = CKO_PRIVATE_KEY then { o with data := .rsa {}, encoded := true } else o)
  else if o.typ = CKK_EC then
    (if o.cls = CKO_PRIVATE_KEY then { o with data := .ec o.ec.free, encoded := true } else o)
  else if o.typ = CKK_DH then
    (if o.cls = CKO_PRIVATE_KEY then
      { o with data := .dh { o.dh with key := List.replicate o.dh.key.length 0 }, encoded := true }
     else o)
  else { o with data := .symm (List.replicate o.symm.length 0), encoded := true }

/-- `wp11_Object_Encode` (src/internal.c:2857-2907). -/
def encodeObj (e : StoreExt) (key : Bytes) (protect : Bool) (o : Obj) : Bool × Obj :=
  if o.cls = CKO_CERTIFICATE then (true, o)
  else
    let r := encodeKey e key o
    if protect ∧ r.1 then (true, cleared r.2) else r

/-- Outcome of decoding: done, the wrong key, another failure, or undefined behaviour. -/
inductive DecRet where
  | ok | auth | err | ub
  deriving DecidableEq, Repr

/-- Decrypt the encoded key (`wp11_DecryptData`, src/internal.c:1543-1558, on
`keyDataLen - AES_BLOCK_SIZE` bytes; a missing or too short one is an error). -/
def unsealData (e : StoreExt) (key : Bytes) (o : Obj) : DecRet × Bytes :=
  match o.keyData with
  | none => (.err, [])
  | some d =>
    if d.length < tagSz then (.err, [])
    else match e.aeadDec key o.iv d with
      | none => (.auth, [])
      | some pt => (.ok, pt)

/-- Store the outcome of a decoding (`object->encoded = (ret != 0)`). -/
def decoded (r : DecRet) (o : Obj) : DecRet × Obj :=
  (r, { o with encoded := decide (r ≠ .ok) })

/-- `wp11_Object_Decode_RsaKey` (src/internal.c:1632-1666). -/
def decodeRsa (e : StoreExt) (key : Bytes) (o : Obj) : DecRet × Obj :=
  if o.cls = CKO_PRIVATE_KEY then
    match unsealData e key o with
    | (.ok, der) =>
      match e.rsaOfDer der with
      | some k => decoded .ok { o with data := .rsa k }
      | none => decoded .err o
    | (r, _) => decoded r o
  else
    match o.keyData.bind e.rsaOfPubDer with
    | some k => decoded .ok { o with data := .rsa k }
    | none => decoded .err o

/-- `wp11_Object_Decode_EccKey` (src/internal.c:1921-1960). -/
def decodeEcc (e : StoreExt) (key : Bytes) (o : Obj) : DecRet × Obj :=
  if o.cls = CKO_PRIVATE_KEY then
    match unsealData e key o with
    | (.ok, der) =>
      match e.eccOfDer der with
      | some k => decoded .ok { o with data := .ec k }
      | none => decoded .err { o with data := .ec {} }
    | (r, _) => decoded r o
  else
    match o.keyData.bind e.eccOfPubDer with
    | some k => decoded .ok { o with data := .ec k }
    | none => decoded .err o

/-- `wp11_Object_Decode_DhKey` (src/internal.c:2112-2138): the key goes to an array of
512 bytes without a check of the length. -/
def decodeDh (e : StoreExt) (key : Bytes) (o : Obj) : DecRet × Obj :=
  if o.cls = CKO_PRIVATE_KEY then
    match unsealData e key o with
    | (.ok, pt) =>
      if pt.length > maxDhKey then (.ub, o) else decoded .ok { o with data := .dh { o.dh with key := pt } }
    | (r, _) => decoded r o
  else
    match o.keyData with
    | none => decoded .ok { o with data := .dh { o.dh with key := [] } }
    | some d =>
      if d.length > maxDhKey then (.ub, o) else decoded .ok { o with data := .dh { o.dh with key := d } }

/-- `wp11_Object_Decode_SymmKey` (src/internal.c:2443-2458). -/
def decodeSymm (e : StoreExt) (key : Bytes) (o : Obj) : DecRet × Obj :=
  match unsealData e key o with
  | (.ok, pt) =>
    if pt.length > maxSymKey then (.ub, o) else decoded .ok { o with data := .symm pt }
  | (r, _) => decoded r o

/-- The switch of `wp11_Object_Decode` (src/internal.c:2806-2846). -/
def decodeKey (e : StoreExt) (key : Bytes) (o : Obj) : DecRet × Obj :=
  if o.cls = CKO_CERTIFICATE then (.ok, { o with encoded := false })
  else if o.typ = CKK_RSA then decodeRsa e key o
  else if o.typ = CKK_EC then decodeEcc e key o
  else if o.typ = CKK_DH then decodeDh e key o
  else if o.typ = CKK_AES ∨ o.typ = CKK_GENERIC_SECRET then decodeSymm e key o
  else (.err, o)

/-- `wp11_Object_Decode` (src/internal.c:2806-2846): the wrong key counts as success. -/
def decodeObj (e : StoreExt) (key : Bytes) (o : Obj) : DecRet × Obj :=
  let r := decodeKey e key o
  (if r.1 = .auth then .ok else r.1, r.2)

/-- A file: what it holds and the object id (0 for the token's file). -/
abbrev FName := StoreType × Nat

/-- The directory. -/
abbrev Disk := FName → Option Bytes

/-- A file written, with its final contents. -/
abbrev Write := FName × Bytes

/-- Write a file (mode "w": the old contents are gone). -/
def Disk.put (d : Disk) (w : Write) : Disk := fun f => if f = w.1 then some w.2 else d f

/-- Write files in order. -/
def Disk.puts (d : Disk) (ws : List Write) : Disk := ws.foldl Disk.put d

/-- Kind of the file holding the object's value (the switches in
src/internal.c:2647-2671, 2759-2787, 2931-2968). -/
def keyFile (o : Obj) : Option StoreType :=
  if o.cls = CKO_CERTIFICATE then some .cert
  else if o.typ = CKK_RSA then some (if o.cls = CKO_PRIVATE_KEY then .rsaPriv else .rsaPub)
  else if o.typ = CKK_EC then some (if o.cls = CKO_PRIVATE_KEY then .eccPriv else .eccPub)
  else if o.typ = CKK_DH then some (if o.cls = CKO_PRIVATE_KEY then .dhPriv else .dhPub)
  else if o.typ = CKK_AES ∨ o.typ = CKK_GENERIC_SECRET then some .symmKey
  else none

/-- Result of storing an object: files written, the object (its IV and encoded key may
change), the random generator and whether it succeeded. -/
structure StoreRes where
  wr : List Write
  obj : Obj
  rng : Nat
  ok : Bool

/-- Does `wp11_Object_Store` make a new IV? (src/internal.c:2750-2755) -/
def needsIv (o : Obj) : Bool :=
  o.keyData.isNone &&
  (o.cls == CKO_PRIVATE_KEY || o.typ == CKK_AES || o.typ == CKK_GENERIC_SECRET)

/-- The part of a key file after the encoded key: DH parameters
(src/internal.c:2402-2425). -/
def keyTail (o : Obj) : Option Bytes :=
  if o.typ = CKK_DH then (dhParamsToDer o.dh.p o.dh.g).map wrArray else some []

/-- `wp11_Object_Store` (src/internal.c:2689-2794), with `wp11_Object_Store_Cert`
(1594-1617), `_RsaKey` (1883-1910), `_EccKey`, `_DhKey` (2380-2437), `_SymmKey`
(2537-2559).  The object file is written with the IV the object has before a new one is
made. -/
def storeObj (e : StoreExt) (key : Bytes) (rng : Nat) (o : Obj) (i : Nat) : StoreRes :=
  let w1 : Write := ((.object, i), wrObject o)
  let o1 := if needsIv o then { o with iv := e.rand rng 12 } else o
  let rng1 := if needsIv o then rng + 1 else rng
  match keyFile o with
  | none => { wr := [w1], obj := o1, rng := rng1, ok := false }
  | some .cert =>
    if o.certValue.length = 0 then { wr := [w1], obj := o1, rng := rng1, ok := false }
    else { wr := [w1, ((.cert, i), wrArray o.certValue)], obj := o1, rng := rng1, ok := true }
  | some f =>
    let r := if o1.keyData.isNone then encodeKey e key o1 else (true, o1)
    match r.1, r.2.keyData with
    | true, some d =>
      match keyTail r.2 with
      | some t => { wr := [w1, ((f, i), wrArray d ++ t)], obj := r.2, rng := rng1, ok := true }
      | none => { wr := [w1, ((f, i), wrArray d)], obj := r.2, rng := rng1, ok := false }
    | _, _ => { wr := [w1, ((f, i), [])], obj := r.2, rng := rng1, ok := false }

/-- The loop storing the objects from the head on, ids counting down, until a failure
(src/internal.c:3234-3239). -/
def storeObjs (e : StoreExt) (key : Bytes) : Nat → List Obj → List Write × List Obj × Nat × Bool
  | rng, [] => ([], [], rng, true)
  | rng, o :: os =>
    let r := storeObj e key rng o os.length
    if r.ok then
      let s := storeObjs e key r.rng os
      (r.wr ++ s.1, r.obj :: s.2.1, s.2.2.1, s.2.2.2)
    else (r.wr, r.obj :: os, r.rng, false)

/-- Who is logged in: `loginState` is `RW_PUBLIC`, `RW_USER` or `RW_SO` (the other two
states are those of read-only sessions, src/internal.c:4307-4330). -/
inductive Login where
  | pub | user | so
  deriving DecidableEq, Repr

/-- `WP11_Token` (src/internal.c:305-330): `init` says that the state is not
`WP11_TOKEN_STATE_UNKNOWN`; `key` is the key objects are encrypted with; `objs` the
object list from its head on (`objCnt` is its length). -/
structure Token where
  label : Bytes := List.replicate 32 0
  init : Bool := false
  login : Login := .pub
  so : Account := {}
  user : Account := {}
  seed : Bytes := List.replicate 16 0
  key : Bytes := List.replicate 32 0
  objs : List Obj := []
  deriving DecidableEq, Repr

/-- The record of the token's file. -/
def Token.toRec (t : Token) : TokenRec :=
  { label := t.label, so := t.so, user := t.user, seed := t.seed, types := t.objs.map (·.typ) }

/-- Result of `wp11_Token_Store`. -/
structure TokStore where
  wr : List Write
  objs : List Obj
  rng : Nat
  ok : Bool

/-- `wp11_Token_Store` (src/internal.c:3157-3245). -/
def storeToken (e : StoreExt) (rng : Nat) (t : Token) : TokStore :=
  let s := storeObjs e t.key rng t.objs
  { wr := ((.token, 0), wrToken t.toRec) :: s.1, objs := s.2.1, rng := s.2.2.1, ok := s.2.2.2 }

/-- `wp11_Object_New` (src/internal.c:1452-1490): zeroed memory, the class is 0 and the
generation mechanism `CK_UNAVAILABLE_INFORMATION`. -/
def newObj (uid typ : Nat) : Obj :=
  { uid, typ, keyGenMech := unavailableInfo }

/-- Read a file to its end with a reader; what follows is ignored. -/
def readFile {α : Type} (d : Disk) (f : FName) (r : Rd α) : Option α :=
  (d f).bind fun b => (r b).map (·.1)

/-- Reading a DH key's file (`wp11_Object_Load_DhKey`, src/internal.c:2193-2228). -/
def rdDhFile : Rd (Bytes × Bytes) := do
  let kd ← Rd.allocArray
  let der ← Rd.allocArray
  return (kd, der)

/-- `wp11_Object_Load` (src/internal.c:2569-2676). -/
def loadObj (e : StoreExt) (d : Disk) (o : Obj) (i : Nat) : Option Obj :=
  (readFile d (.object, i) (rdObject o)).bind fun o1 =>
  match keyFile o1 with
  | none => none
  | some f =>
    if o1.cls ≠ CKO_CERTIFICATE ∧ o1.typ = CKK_DH then
      (readFile d (f, i) rdDhFile).bind fun r =>
      (e.dhOfDer r.2).map fun pg =>
        { o1 with keyData := some r.1, data := .dh { key := o1.dh.key, p := pg.1, g := pg.2 } }
    else (readFile d (f, i) Rd.allocArray).map fun kd => { o1 with keyData := some kd }

/-- The loop loading the objects, ids counting down (src/internal.c:3122-3127). -/
def loadObjs (e : StoreExt) (d : Disk) : Nat → List Nat → Option (List Obj)
  | _, [] => some []
  | uid, t :: ts =>
    (loadObj e d (newObj uid t) ts.length).bind fun o =>
    (loadObjs e d (uid + 1) ts).map fun os => o :: os

/-- `wp11_Token_Load` (src/internal.c:3028-3145) into the zeroed token of a slot.  A
missing file leaves it as it is; a damaged one gives an empty initialised token. -/
def loadToken (e : StoreExt) (d : Disk) (uid : Nat) : Token :=
  match d (.token, 0) with
  | none => {}
  | some b =>
    match rdToken b with
    | none => { init := true }
    | some (r, _) =>
      match loadObjs e d uid r.types with
      | none => { init := true }
      | some os =>
        { label := r.label, init := true, so := r.so, user := r.user, seed := r.seed, objs := os }

/-- `wp11_Object_Unstore` (src/internal.c:2920-2970): both files of the object are
emptied.  Simplification: for an object with no key file the second `fopen` is refused
and nothing more happens (the code closes the first file a second time). -/
def unstore (o : Obj) (i : Nat) : List Write :=
  ((.object, i), []) ::
  (match keyFile o with
   | some f => [((f, i), [])]
   | none => [])

end Verif
