import Verif.Model.Store
import Verif.Model.OpCall
import Verif.Model.RsaGen
import Verif.Model.Derive
import Verif.Model.Lists

/-!
# The library as one machine: sessions, token, objects, storage

`step` is one API call.  Calls are executed one after the other (the interleaving of
calls of several threads is the subject of `Verif.Model.Conc`).  One slot, with id 1
(`slotCnt`, src/internal.c:341).

A call that runs into undefined behaviour, or never returns, answers `RV.ub`; the
library is then `bad`, and so is it after a call that leaves freed memory linked in a
list although it returned normally.  A `bad` library answers `ub` to everything.

Simplifications: memory allocation and the random generator do not fail; counters do
not overflow; the pointer `session->curr` is the number (`uid`) of the object, and using
it after the object was freed is `ub` for every data function, also for those that only
compare it with NULL.  `WOLFPKCS11_KEYPAIR_GEN_COMMON_LABEL` and the TPM are off.
-/

namespace Verif

/-- The wolfCrypt functions the library calls. -/
structure Env where
  crypto : Crypto
  key : KeyExt
  store : StoreExt
  /-- `wc_MakeRsaKey`, with the number of the random draw -/
  rsaGen : Nat → Nat → Int → Option RsaKey
  /-- `wc_ecc_make_key_ex` -/
  ecGen : Nat → Curve → Option EcKey
  /-- `wc_DhGenerateKeyPair`: private and public value -/
  dhGen : Nat → Nat → Nat → Option (Bytes × Bytes)
  /-- `WP11_EC_Derive` (src/internal.c:7434-7472): what is left in a buffer of the given
  size -/
  ecdh : EcKey → Bytes → Nat → Option Bytes
  /-- `wc_DhAgree` -/
  dhAgree : DhKey → Bytes → Option Bytes
  /-- `WP11_Rsa_SerializeKeyPTPKC8` (src/internal.c:1795-1835) -/
  pkcs8 : RsaKey → Option Bytes
  /-- `WP11_Rsa_ParsePrivKey` (src/internal.c:6448-6458) -/
  parsePriv : Bytes → Option RsaKey

/-- `inUse` of a session: 0, `WP11_SESSION_RO` or `WP11_SESSION_RW`. -/
inductive Use where
  | no | ro | rw
  deriving DecidableEq, Repr

/-- `WP11_Find` (src/internal.c:255-261): `active` says the state is not
`WP11_FIND_STATE_NULL`, `found` holds the `count` handles, `curr` the position. -/
structure FindSt where
  active : Bool := false
  found : List Nat := []
  curr : Nat := 0
  deriving DecidableEq, Repr

/-- `WP11_Session` (src/internal.c:268-303); `objs` from the head of the list on
(`objCnt` is its length). -/
structure Session where
  handle : Nat
  use : Use := .no
  objs : List Obj := []
  curr : Option Nat := none
  op : OpSt := {}
  find : FindSt := {}
  deriving DecidableEq, Repr

/-- The library: the count of initialisations (`libraryInitCount`, src/internal.c:346),
the slot's sessions from the head of the list on, the token, the directory, the number of
the next allocation and of the next random draw. -/
structure Lib where
  count : Int := 0
  sessions : List Session := []
  token : Token := {}
  disk : Disk := fun _ => none
  uid : Nat := 1
  rng : Nat := 0
  bad : Bool := false

/-- The state `WP11_Session_GetState` reports (src/internal.c:4307-4330). -/
inductive SState where
  | roPublic | roUser | rwPublic | rwUser | rwSo
  deriving DecidableEq, Repr

/-- The fields of `CK_TOKEN_INFO` that depend on the token. -/
structure TokInfo where
  label : Bytes
  tokenInit : Bool
  userPinInit : Bool
  soLow : Bool
  soFinal : Bool
  soLocked : Bool
  userLow : Bool
  userFinal : Bool
  userLocked : Bool
  deriving DecidableEq, Repr

/-- What a call answers: the status, the handles it assigned (`*phSession`, `*phObject`,
`*phKey`, `*phPublicKey`, `*phPrivateKey`), the handles found, the caller's template
after the call, output of a cryptographic function, session and token information. -/
structure Resp where
  rv : RV
  handle : Option Nat := none
  priv : Option Nat := none
  found : List Nat := []
  tmpl : Option (List Entry) := none
  out : Option Out := none
  state : Option (SState × Bool) := none
  info : Option TokInfo := none
  deriving DecidableEq

/-- `CK_USER_TYPE` (wolfpkcs11/pkcs11.h:112-114). -/
inductive UserType where
  | so | user | contextSpecific | other
  deriving DecidableEq, Repr

/-- The mechanism of `C_DeriveKey`: its parameter is NULL (or of the wrong size), or for
ECDH says whether the key derivation function is `CKD_NULL` and gives the other public
key (`none` for NULL), or for DH is the other public key. -/
inductive DeriveMech where
  | ecdh (p : Option (Bool × Option Bytes))
  | dh (p : Option Bytes)
  | other
  deriving DecidableEq, Repr

/-- The functions with a session handle as first argument.  A pointer that may be NULL
is an `Option`, or a `Bool` (`ptr`) saying that it is not NULL. -/
inductive SessCall where
  | close
  | info (ptr : Bool)
  | login (u : UserType) (pin : Option Bytes) (now : Int)
  | logout
  | initPin (pin : Option Bytes)
  | setPin (old new : Option Bytes)
  | create (t : Option (List Entry)) (ptr : Bool)
  | copy (o : Nat) (t : Option (List Entry)) (ptr : Bool)
  | destroy (o : Nat)
  | size (o : Nat) (ptr : Bool)
  | getAttr (o : Nat) (t : Option (List Entry))
  | setAttr (o : Nat) (t : Option (List Entry))
  | findInit (t : Option (List Entry))
  | findNext (ptr : Bool) (max : Nat)
  | findFinal
  | cryptInit (k : Kind) (m : Option (Mech × MechParam)) (key : Nat)
  | crypt (c : DataCall)
  | genKey (m : Option (Mech × MechParam)) (t : Option (List Entry)) (ptr : Bool)
  | genPair (m : Option (Mech × MechParam)) (pub priv : Option (List Entry)) (ptrs : Bool)
  | wrap (m : Option (Mech × MechParam)) (wk key : Nat) (ob : OutBuf)
  | unwrap (m : Option (Mech × MechParam)) (wk : Nat) (data : Option Bytes)
      (t : Option (List Entry)) (ptr : Bool)
  | derive (m : Option DeriveMech) (base : Nat) (t : Option (List Entry)) (ptr : Bool)
  | random (ptr : Bool) (len : Nat)

/-- The functions with a slot id as first argument. -/
inductive SlotCall where
  | tokenInfo (ptr : Bool) (now : Int)
  | initToken (pin label : Option Bytes)
  | openSession (rw serial ptr : Bool)
  | closeAll

/-- An API call. -/
inductive Call where
  | cInit
  | cFinal
  | slot (id : Nat) (c : SlotCall)
  | sess (h : Nat) (c : SessCall)

namespace Lib

/-- `wp11_Slot_Store` (src/internal.c:3429-3432). -/
def store (e : Env) (l : Lib) : Lib × Bool :=
  let r := storeToken e.store l.rng l.token
  ({ l with token := { l.token with objs := r.objs }, rng := r.rng, disk := l.disk.puts r.wr }, r.ok)

/-- Change the session with handle `h`. -/
def upd (l : Lib) (h : Nat) (f : Session → Session) : Lib :=
  { l with sessions := l.sessions.map fun s => if s.handle = h then f s else s }

end Lib

/-! ## Sessions -/

/-- `SESS_HANDLE(1, 1)` (src/internal.c:103). -/
def firstHandle : Nat := 65536 + 1

/-- `SESS_HANDLE_SESS_ID` (src/internal.c:107). -/
def sessId (h : Nat) : Nat := h % 65536

/-- `wp11_Slot_AddSession` (src/internal.c:555-573). -/
def addSession (ss : List Session) : List Session :=
  match ss with
  | [] => [{ handle := firstHandle }]
  | s :: _ => { handle := s.handle + 1 } :: ss

/-- `WP11_SESSION_CNT_MIN` (src/internal.c:49). -/
def sessMin : Nat := 2

/-- `WP11_SESSION_CNT_MAX` (src/internal.c:47). -/
def sessMax : Nat := 70

/-- The operation state after `wp11_Session_Final` (src/internal.c:594-622). -/
def opFinal (s : OpSt) : OpSt :=
  match s.mech with
  | .rsaOaep => { s with oaep := { s.oaep with label := none } }
  | .aesCbc | .aesCbcPad => { s with init := .none }
  | .aesGcm => { s with gcm := { s.gcm with aad := none, enc := [] } }
  | _ => s

/-- `wp11_Session_Final` (src/internal.c:580-624). -/
def sessFinal (s : Session) : Session :=
  { s with
    objs := if s.use = .no then s.objs else []
    use := .no
    curr := none
    find := { s.find with active := false }
    op := opFinal s.op }

/-- The loop freeing leading unused sessions (src/internal.c:3266-3272). -/
def dropUnused : List Session → List Session
  | [] => []
  | s :: ss => if s.use = .no ∧ sessId s.handle > sessMin then dropUnused ss else s :: ss

/-- `WP11_Slot_CloseSession` (src/internal.c:3652-3681) on the list of sessions, with
`wp11_Slot_FreeSession` (src/internal.c:3253-3273). -/
def closeOne (ss : List Session) (h : Nat) : List Session :=
  match ss with
  | [] => []
  | s :: rest =>
    if s.handle = h ∧ sessId h > sessMin then dropUnused rest
    else ss.map fun t => if t.handle = h then sessFinal t else t

/-- The first loop of `WP11_Slot_CloseSessions` (src/internal.c:3692-3696): free the
head, and the unused ones after it, while there are more than the minimum. -/
def closeDown : Nat → List Session → List Session
  | 0, ss => ss
  | n + 1, ss =>
    match ss with
    | [] => []
    | s :: rest => if sessId s.handle > sessMin then closeDown n (dropUnused rest) else ss

/-- `WP11_Slot_CloseSessions` (src/internal.c:3688-3702): the second loop finalizes the
head of the list once for each session. -/
def closeAll (ss : List Session) : List Session :=
  match closeDown ss.length ss with
  | [] => []
  | s :: rest => sessFinal s :: rest

/-- `WP11_Slot_HasSession` (src/internal.c:3711-3727). -/
def anyInUse (ss : List Session) : Bool := ss.any fun s => s.use != .no

/-- `WP11_Session_GetState` (src/internal.c:4307-4330). -/
def sessState (l : Lib) (s : Session) : SState :=
  match l.token.login with
  | .so => .rwSo
  | .user => if s.use = .rw then .rwUser else .roUser
  | .pub => if s.use = .rw then .rwPublic else .roPublic

/-- `WP11_Slot_OpenSession` (src/internal.c:3596-3644): refused read-only while the
security officer is logged in; the first unused session, or a new one. -/
def openSession (l : Lib) (rw : Bool) : Lib × Resp :=
  let u := if rw then Use.rw else Use.ro
  if !rw && l.token.login == .so then (l, { rv := .sessionReadWriteSoExists })
  else
    match l.sessions.find? fun s => s.use == .no with
    | some s => (l.upd s.handle fun t => { t with use := u }, { rv := .ok, handle := some s.handle })
    | none =>
      if l.sessions.head?.any fun s => sessId s.handle == sessMax then (l, { rv := .sessionCount })
      else
        match addSession l.sessions with
        | s :: rest => ({ l with sessions := { s with use := u } :: rest }, { rv := .ok, handle := some s.handle })
        | [] => (l, { rv := .ok })

/-! ## PINs and login -/

/-- Shortest and longest PIN (`WP11_MIN_PIN_LEN`, `WP11_MAX_PIN_LEN`). -/
def pinLenOk (p : Bytes) : Bool := decide (4 ≤ p.length) && decide (p.length ≤ 32)

/-- Outcome of checking a PIN. -/
inductive PinRet where
  | ok | notSet | invalid
  deriving DecidableEq, Repr

/-- `WP11_Slot_CheckSOPin`, `WP11_Slot_CheckUserPin` (src/internal.c:3808-3872) for the
account `a`: the first `pinLen` bytes of the hash are compared. -/
def checkPin (e : Env) (t : Token) (a : Account) (pin : Bytes) : PinRet :=
  if t.init = false ∨ a.pin = [] then .notSet
  else if (e.store.hash pin a.seed).take a.pin.length = a.pin then .ok
  else .invalid

/-- Largest number of failed logins (`WP11_MAX_LOGIN_FAILS_SO`,
`WP11_MAX_LOGIN_FAILS_USER`). -/
def maxFails : Int := 3

/-- The check for too many failed logins (src/internal.c:3910-3919, 3998-4006): `none`
when locked, otherwise the account (the count is reset when the time is over). -/
def lockCheck (a : Account) (now : Int) : Option Account :=
  if a.fails = maxFails then
    if a.last + a.timeout < now then some { a with fails := 0 } else none
  else some a

/-- A wrong PIN (src/internal.c:3935-3943, 4023-4031); `add` is the number of seconds added
to the timeout. -/
def failed (a : Account) (now add : Int) : Account :=
  if a.fails + 1 = maxFails then { a with fails := a.fails + 1, last := now, timeout := a.timeout + add }
  else { a with fails := a.fails + 1 }

/-- The right PIN (src/internal.c:3945-3949, 4039-4041). -/
def succeeded (a : Account) : Account := { a with fails := 0, last := 0, timeout := 0 }

/-- `WP11_Slot_SOLogin` (src/internal.c:3884-3960) and the mapping of its result in
`C_Login` (src/slot.c:930-940). -/
def soLogin (e : Env) (l : Lib) (pin : Bytes) (now : Int) : Lib × RV :=
  if l.token.login ≠ .pub then (l, .userAlreadyLoggedIn)
  else
    match lockCheck l.token.so now with
    | none => (l, .pinIncorrect)
    | some a =>
      let l := { l with token := { l.token with so := a } }
      if l.sessions.any fun s => s.use == .ro then (l, .sessionReadOnlyExists)
      else
        match checkPin e l.token a pin with
        | .notSet => (l, .userPinNotInitialized)
        | .invalid => ({ l with token := { l.token with so := failed a now 600 } }, .pinIncorrect)
        | .ok => ({ l with token := { l.token with so := succeeded a, login := .so } }, .ok)

/-- Decode the token's objects in order until a failure (src/internal.c:4043-4048). -/
def decodeAll (e : StoreExt) (key : Bytes) : List Obj → DecRet × List Obj
  | [] => (.ok, [])
  | o :: os =>
    let r := decodeObj e key o
    if r.1 = .ok then
      let s := decodeAll e key os
      (s.1, r.2 :: s.2)
    else (r.1, r.2 :: os)

/-- `WP11_Slot_UserLogin` (src/internal.c:3974-4061) and the mapping of its result
(src/slot.c:941-948). -/
def userLogin (e : Env) (l : Lib) (pin : Bytes) (now : Int) : Lib × RV :=
  if l.token.login ≠ .pub then (l, .userAlreadyLoggedIn)
  else
    match lockCheck l.token.user now with
    | none => (l, .pinIncorrect)
    | some a =>
      match checkPin e l.token a pin with
      | .notSet => ({ l with token := { l.token with user := a } }, .userPinNotInitialized)
      | .invalid => ({ l with token := { l.token with user := failed a now 60 } }, .pinIncorrect)
      | .ok =>
        let key := e.store.hash pin l.token.seed
        let r := decodeAll e.store key l.token.objs
        let t := { l.token with user := succeeded a, key, objs := r.2 }
        match r.1 with
        | .ok => ({ l with token := { t with login := .user } }, .ok)
        | .ub => ({ l with token := t }, .ub)
        | _ => ({ l with token := t }, .pinIncorrect)

/-- Encode and clear the token's objects in order until a failure
(src/internal.c:4173-4178). -/
def encodeAll (e : StoreExt) (key : Bytes) : List Obj → List Obj
  | [] => []
  | o :: os =>
    let r := encodeObj e key true o
    if r.1 then r.2 :: encodeAll e key os else r.2 :: os

/-- `WP11_Slot_Logout` (src/internal.c:4162-4184). -/
def logout (e : Env) (l : Lib) : Lib :=
  let objs := if l.token.login = .user then encodeAll e.store l.token.key l.token.objs
    else l.token.objs
  { l with token := { l.token with login := .pub, objs } }

/-- `WP11_Slot_SetSOPin` (src/internal.c:4073-4102). -/
def setSoPin (e : Env) (l : Lib) (pin : Bytes) : Lib × Bool :=
  let seed := e.store.rand l.rng 16
  let so := { l.token.so with pin := e.store.hash pin seed, seed }
  Lib.store e { l with rng := l.rng + 1, token := { l.token with so } }

/-- `WP11_Slot_SetUserPin` (src/internal.c:4114-4155): a new seed for the hash and a new
one for the storage key. -/
def setUserPin (e : Env) (l : Lib) (pin : Bytes) : Lib × Bool :=
  let seed := e.store.rand l.rng 16
  let kseed := e.store.rand (l.rng + 1) 16
  let user := { l.token.user with pin := e.store.hash pin seed, seed }
  let key := e.store.hash pin kseed
  Lib.store e { l with rng := l.rng + 2, token := { l.token with user, seed := kseed, key } }

/-- The status of the functions that set a PIN. -/
def pinSet (r : Lib × Bool) : Lib × Resp := (r.1, { rv := if r.2 then .ok else .functionFailed })

/-- The label of a token: the 32 bytes at the caller's pointer (`wp11_Token_Init`, src/internal.c:2978-2993).
Simplification: other lengths are cut or filled up, although the code would read what
follows in memory. -/
def labelOf (b : Bytes) : Bytes := (b ++ List.replicate 32 0).take 32

/-- `C_InitToken` (src/slot.c:557-587) with `WP11_Slot_TokenReset`
(src/internal.c:3779-3795). -/
def initToken (e : Env) (l : Lib) (pin label : Option Bytes) : Lib × Resp :=
  match pin, label with
  | some pin, some label =>
    if !pinLenOk pin then (l, { rv := .pinIncorrect })
    else if l.token.init && anyInUse l.sessions then (l, { rv := .sessionExists })
    else if l.token.init && checkPin e l.token l.token.so pin != .ok then (l, { rv := .pinIncorrect })
    else pinSet (setSoPin e { l with token := { label := labelOf label, init := true } } pin)
  | _, _ => (l, { rv := .argumentsBad })

/-- `C_InitPIN` (src/slot.c:602-627). -/
def initPin (e : Env) (l : Lib) (s : Session) (pin : Option Bytes) : Lib × Resp :=
  match pin with
  | none => (l, { rv := .argumentsBad })
  | some pin =>
    if sessState l s ≠ .rwSo then (l, { rv := .userNotLoggedIn })
    else if !pinLenOk pin then (l, { rv := .pinIncorrect })
    else pinSet (setUserPin e l pin)

/-- `C_SetPIN` (src/slot.c:647-699). -/
def setPin (e : Env) (l : Lib) (s : Session) (old new : Option Bytes) : Lib × Resp :=
  match old, new with
  | some old, some new =>
    if !pinLenOk old then (l, { rv := .pinIncorrect })
    else if !pinLenOk new then (l, { rv := .pinIncorrect })
    else
      match sessState l s with
      | .rwSo =>
        match checkPin e l.token l.token.so old with
        | .notSet => (l, { rv := .userPinNotInitialized })
        | .invalid => (l, { rv := .pinIncorrect })
        | .ok => pinSet (setSoPin e l new)
      | .rwUser | .rwPublic =>
        match checkPin e l.token l.token.user old with
        | .notSet => (l, { rv := .userPinNotInitialized })
        | .invalid => (l, { rv := .pinIncorrect })
        | .ok => pinSet (setUserPin e l new)
      | _ => (l, { rv := .sessionReadOnly })
  | _, _ => (l, { rv := .argumentsBad })

/-- `C_Login` (src/slot.c:912-958). -/
def login (e : Env) (l : Lib) (u : UserType) (pin : Option Bytes) (now : Int) : Lib × Resp :=
  match pin with
  | none => (l, { rv := .argumentsBad })
  | some pin =>
    if !pinLenOk pin then (l, { rv := .pinIncorrect })
    else
      match u with
      | .so => let r := soLogin e l pin now; (r.1, { rv := r.2 })
      | .user => let r := userLogin e l pin now; (r.1, { rv := r.2 })
      | .contextSpecific => (l, { rv := .operationNotInitialized })
      | .other => (l, { rv := .userTypeInvalid })

/-- `C_CloseSession` (src/slot.c:754-769). -/
def closeSession (e : Env) (l : Lib) (h : Nat) : Lib × Resp :=
  let ss := closeOne l.sessions h
  let l := { l with sessions := ss }
  (if anyInUse ss then l else logout e l, { rv := .ok })

/-- `C_GetTokenInfo` (src/slot.c:135-215); a label whose first byte is 0 is shown as
blanks. -/
def tokenInfo (l : Lib) (now : Int) : TokInfo :=
  let t := l.token
  { label := if t.label.headD 0 = 0 then List.replicate 32 32 else t.label
    tokenInit := t.init
    userPinInit := !t.user.pin.isEmpty
    soLow := decide (0 < t.so.fails)
    soFinal := decide (t.so.fails = maxFails - 1)
    soLocked := decide (t.so.fails = maxFails ∧ now < t.so.last + t.so.timeout)
    userLow := decide (0 < t.user.fails)
    userFinal := decide (t.user.fails = maxFails - 1)
    userLocked := decide (t.user.fails = maxFails ∧ now < t.user.last + t.user.timeout) }

/-! ## Objects -/

/-- The value of `CKA_TOKEN` in a template (src/crypto.c:505-512, 805-812, 1067-1074). -/
def tokenByte (t : List Entry) (dflt : Nat) : Except RV Nat :=
  match findAttr t .token with
  | none => .ok dflt
  | some e =>
    if e.mem.isNone then .error .attributeValueInvalid
    else if e.len ≠ 1 then .error .attributeValueInvalid
    else .ok (e.val.headD 0).toNat

/-- `OBJ_HANDLE(onToken, 1)` (src/internal.c:110) in `int` arithmetic, converted to
`CK_OBJECT_HANDLE`. -/
def objHandle (on : Nat) : Nat :=
  let v := (on * 2 ^ 28 + 1) % 2 ^ 32
  if v < 2 ^ 31 then v else v + (2 ^ 64 - 2 ^ 32)

/-- `OBJ_HANDLE_ON_TOKEN` (src/internal.c:112). -/
def handleOnToken (h : Nat) : Bool := (h / 2 ^ 28) % 2 ^ 32 ≠ 0

/-- The handle of an object added to a list (src/internal.c:4664-4668, 4684-4688). -/
def nextHandle (os : List Obj) (on : Nat) : Nat :=
  match os with
  | [] => objHandle on
  | o :: _ => o.handle + 1

/-- `WP11_TOKEN_OBJECT_CNT_MAX` (src/internal.c:53). -/
def tokenObjMax : Nat := 64

/-- `WP11_SESSION_OBJECT_CNT_MAX` (src/internal.c:51). -/
def sessObjMax : Nat := 8

/-- `WP11_Session_AddObject` (src/internal.c:4639-4697): `on` is the byte of `CKA_TOKEN`.
The one-bit field `onToken` keeps its lowest bit.  The result of storing the token is
ignored. Answers the handle. -/
def sessAddObject (e : Env) (l : Lib) (s : Session) (on : Nat) (o : Obj) : Lib × Option Nat :=
  let o := { o with onToken := decide (on % 2 = 1), uid := l.uid }
  if on ≠ 0 then
    if l.token.objs.length ≥ tokenObjMax then (l, none)
    else
      let r := encodeObj e.store l.token.key false o
      if r.1 then
        let h := nextHandle l.token.objs on
        let o := { r.2 with handle := h }
        ((Lib.store e { l with uid := l.uid + 1, token := { l.token with objs := o :: l.token.objs } }).1,
          some h)
      else (l, none)
  else
    if s.objs.length ≥ sessObjMax then (l, none)
    else
      let h := nextHandle s.objs on
      ({ l with uid := l.uid + 1 }.upd s.handle fun t => { t with objs := { o with handle := h } :: t.objs },
        some h)

/-- `AddObject` (src/crypto.c:499-524). -/
def addObject (e : Env) (l : Lib) (s : Session) (t : List Entry) (o : Obj) : Lib × Resp :=
  match tokenByte t 0 with
  | .error rv => (l, { rv })
  | .ok on =>
    match sessAddObject e l s on o with
    | (l, none) => (l, { rv := .functionFailed })
    | (l, some h) => (l, { rv := .ok, handle := some h })

/-- `NewObject` (src/crypto.c:457-484). -/
def newObject (e : Env) (s : Session) (typ cls : Nat) (t : List Entry) : RV × Obj :=
  setAttributeValue e.key (s.use == .rw) { newObj 0 typ with cls } t

/-- The class in a template, -1 if absent (src/crypto.c:671-678). -/
def templClass (t : List Entry) : Except RV Nat :=
  match findAttr t .cls with
  | none => .ok unavailableInfo
  | some e =>
    if e.mem.isNone then .error .attributeValueInvalid
    else if e.len ≠ 8 then .error .attributeValueInvalid
    else .ok (leNat e.val)

/-- A number attribute that must be present (src/crypto.c:681-688, 694-701). -/
def templUlong (t : List Entry) (a : CKA) : Except RV Nat :=
  match findAttr t a with
  | none => .error .templateIncomplete
  | some e =>
    if e.mem.isNone then .error .attributeValueInvalid
    else if e.len ≠ 8 then .error .attributeValueInvalid
    else .ok (leNat e.val)

/-- The key types (`CHECK_KEYTYPE`, src/crypto.c:43-45; also 703-706). -/
def keyTypeOk (k : Nat) : Bool :=
  k == CKK_RSA || k == CKK_EC || k == CKK_DH || k == CKK_AES || k == CKK_GENERIC_SECRET

/-- `CreateObject` (src/crypto.c:664-712). -/
def createObject (e : Env) (s : Session) (t : List Entry) : RV × Obj :=
  match templClass t with
  | .error rv => (rv, {})
  | .ok cls =>
    if cls = CKO_CERTIFICATE then
      match templUlong t .certificateType with
      | .error rv => (rv, {})
      | .ok typ => if typ ≤ 2 then newObject e s typ cls t else (.attributeValueInvalid, {})
    else
      match templUlong t .keyType with
      | .error rv => (rv, {})
      | .ok typ => if keyTypeOk typ then newObject e s typ cls t else (.attributeValueInvalid, {})

/-- `WP11_Object_Find` (src/internal.c:5445-5478). -/
def findObj (l : Lib) (s : Session) (h : Nat) : Option Obj :=
  (if handleOnToken h then l.token.objs else s.objs).find? fun o => o.handle == h

/-- Replace an object in place (the C code changes it through the pointer). -/
def replObj (o : Obj) (os : List Obj) : List Obj :=
  os.map fun p => if p.uid = o.uid then o else p

/-- Replace an object found with `findObj` (e.g. src/crypto.c:1021-1038). -/
def putObj (l : Lib) (s : Session) (h : Nat) (o : Obj) : Lib :=
  if handleOnToken h then { l with token := { l.token with objs := replObj o l.token.objs } }
  else l.upd s.handle fun t => { t with objs := replObj o t.objs }

/-- `C_CreateObject` (src/crypto.c:734-759). -/
def cCreate (e : Env) (l : Lib) (s : Session) (t : Option (List Entry)) (ptr : Bool) : Lib × Resp :=
  match t with
  | none => (l, { rv := .argumentsBad })
  | some t =>
    if !ptr then (l, { rv := .argumentsBad })
    else if s.use ≠ .rw then (l, { rv := .sessionReadOnly })
    else
      match createObject e s t with
      | (.ok, o) => addObject e l s t o
      | (rv, _) => (l, { rv })

/-- `C_CopyObject` (src/crypto.c:783-850): the attributes in the template are read into
the caller's buffers and then set on the new object. -/
def cCopy (e : Env) (l : Lib) (s : Session) (h : Nat) (t : Option (List Entry)) (ptr : Bool) : Lib × Resp :=
  match t with
  | none => (l, { rv := .argumentsBad })
  | some t =>
    if !ptr then (l, { rv := .argumentsBad })
    else if s.use ≠ .rw then (l, { rv := .sessionReadOnly })
    else
      match findObj l s h with
      | none => (l, { rv := .objectHandleInvalid })
      | some o =>
        match tokenByte t 0 with
        | .error rv => (l, { rv })
        | .ok on =>
          let g := getAttributeValue e.key o t
          if g.1 ≠ .ok then (l, { rv := g.1, tmpl := some g.2 })
          else
            let n := setAttributeValue e.key true (newObj 0 o.typ) g.2
            if n.1 ≠ .ok then (l, { rv := n.1, tmpl := some g.2 })
            else
              match sessAddObject e l s on n.2 with
              | (l, none) => (l, { rv := .functionFailed, tmpl := some g.2 })
              | (l, some nh) => (l, { rv := .ok, handle := some nh, tmpl := some g.2 })

/-- `WP11_Session_RemoveObject` (src/internal.c:4705-4743) for an object on its list:
the id of the files is the number of objects behind it. -/
def removeToken (e : Env) (l : Lib) (o : Obj) : Lib :=
  let os := l.token.objs.filter fun p => p.uid != o.uid
  let id := (l.token.objs.dropWhile fun p => p.uid != o.uid).length - 1
  (Lib.store e { l with token := { l.token with objs := os }, disk := l.disk.puts (unstore o id) }).1

/-- `C_DestroyObject` (src/crypto.c:863-888).  An object of the token's list whose bit
`onToken` is clear is not unlinked but freed. -/
def cDestroy (e : Env) (l : Lib) (s : Session) (h : Nat) : Lib × Resp :=
  if s.use ≠ .rw then (l, { rv := .sessionReadOnly })
  else
    match findObj l s h with
    | none => (l, { rv := .objectHandleInvalid })
    | some o =>
      if handleOnToken h then
        if o.onToken then (removeToken e l o, { rv := .ok })
        else ({ l with bad := true }, { rv := .ok })
      else
        (l.upd s.handle fun t => { t with objs := t.objs.filter fun p => p.uid != o.uid }, { rv := .ok })

/-- `C_GetAttributeValue` (src/crypto.c:944-987). -/
def cGetAttr (e : Env) (l : Lib) (s : Session) (h : Nat) (t : Option (List Entry)) : Lib × Resp :=
  match t with
  | none => (l, { rv := .argumentsBad })
  | some t =>
    match findObj l s h with
    | none => (l, { rv := .objectHandleInvalid })
    | some o =>
      let g := getAttributeValue e.key o t
      (l, { rv := g.1, tmpl := some g.2 })

/-- `C_SetAttributeValue` (src/crypto.c:1010-1032). -/
def cSetAttr (e : Env) (l : Lib) (s : Session) (h : Nat) (t : Option (List Entry)) : Lib × Resp :=
  match t with
  | none => (l, { rv := .argumentsBad })
  | some t =>
    if s.use ≠ .rw then (l, { rv := .sessionReadOnly })
    else
      match findObj l s h with
      | none => (l, { rv := .objectHandleInvalid })
      | some o =>
        let r := setAttributeValue e.key true o t
        (putObj l s h r.2, { rv := r.1 })

/-- `WP11_FIND_MAX` (src/internal.c:56). -/
def findMax : Nat := 10

/-- The objects `wp11_Session_FindNext` skips (src/internal.c:4823-4838): those only
present encrypted, and (because of `|` where `&` was meant) those whose usage flags are
0 or 1, while nobody is logged in. -/
def hidden (login : Login) (o : Obj) : Bool :=
  o.encoded || (decide (o.opFlag ||| FLAG_PRIVATE = FLAG_PRIVATE) && login == .pub)

/-- `WP11_Session_Find` (src/internal.c:4874-4901) over the objects visited; `none` when
a comparison runs into undefined behaviour. -/
def findLoop (x : KeyExt) (login : Login) (t : List Entry) : List Obj → List Nat → Option (List Nat)
  | [], acc => some acc
  | o :: os, acc =>
    if hidden login o then findLoop x login t os acc
    else
      match matchAll x o t with
      | none => none
      | some false => findLoop x login t os acc
      | some true =>
        if acc.length = findMax then some acc
        else findLoop x login t os (acc ++ [o.handle])

/-- Does the search run round the token's list? At the end of the token's list
`wp11_Session_FindNext` starts over with it when the last object's bit `onToken` is clear
(src/internal.c:4810-4815). -/
def findCycles (os : List Obj) : Bool := (os.getLast?.map fun o => !o.onToken).getD false

/-- `C_FindObjectsInit` (src/crypto.c:1050-1078).  The search is made active before the
template is looked at. A search going round the token's list counts as `ub`. -/
def cFindInit (e : Env) (l : Lib) (s : Session) (t : Option (List Entry)) : Lib × Resp :=
  match t with
  | none => (l, { rv := .argumentsBad })
  | some t =>
    if s.find.active then (l, { rv := .operationActive })
    else
      let started (f : List Nat) := l.upd s.handle fun u => { u with find := { active := true, found := f } }
      match tokenByte t 1 with
      | .error rv => (started [], { rv })
      | .ok on =>
        if on ≠ 0 ∧ findCycles l.token.objs then (started [], { rv := .ub })
        else
          match findLoop e.key l.token.login t (s.objs ++ if on ≠ 0 then l.token.objs else []) [] with
          | none => (started [], { rv := .ub })
          | some f => (started f, { rv := .ok })

/-- `C_FindObjects` (src/crypto.c:1095-1121): there is no check that a search is
active. -/
def cFindNext (l : Lib) (s : Session) (ptr : Bool) (max : Nat) : Lib × Resp :=
  if !ptr then (l, { rv := .argumentsBad })
  else
    let out := (s.find.found.drop s.find.curr).take (toCInt max).toNat
    (l.upd s.handle fun u => { u with find := { u.find with curr := u.find.curr + out.length } },
      { rv := .ok, found := out })

/-! ## Cryptographic functions -/

/-- The current key: no key, a freed one, or the object. -/
inductive CurrKey where
  | null
  | freed
  | obj (o : Obj)

/-- `WP11_Session_GetObject` (src/internal.c:4751-4754). -/
def currKey (l : Lib) (s : Session) : CurrKey :=
  match s.curr with
  | none => .null
  | some u =>
    match (s.objs ++ l.token.objs).find? fun o => o.uid == u with
    | none => .freed
    | some o => .obj o

/-- The status when a key handle is not found (e.g. src/crypto.c:1180-1182).  A
certificate passes the check of the key type when its certificate type
(src/crypto.c:680-694) is the number of the key type; its bytes are then used as a key.
Simplification: this counts as undefined behaviour here, not only in the data call. -/
def cCryptInit (e : Env) (l : Lib) (s : Session) (k : Kind) (m : Option (Mech × MechParam)) (key : Nat) :
    Lib × Resp :=
  match m with
  | none => (l, { rv := .argumentsBad })
  | some (m, p) =>
    match findObj l s key with
    | none => (l, { rv := .objectHandleInvalid })
    | some o =>
      let r := initCall e.crypto k s.op o m p
      if r.2 = .ok ∧ o.cls = CKO_CERTIFICATE then (l, { rv := .ub })
      else
        (l.upd s.handle fun u => { u with op := r.1, curr := if r.2 = .ok then some o.uid else u.curr },
          { rv := r.2 })

/-- The data functions (src/crypto.c:1325-3376) with the session's current key. -/
def cCrypt (e : Env) (l : Lib) (s : Session) (c : DataCall) : Lib × Resp :=
  match currKey l s with
  | .null =>
    let r := c.run e.crypto s.op none
    (l.upd s.handle fun u => { u with op := r.1 }, { rv := r.2.rv, out := some r.2 })
  | .obj o =>
    let r := c.run e.crypto s.op (some o)
    (l.upd s.handle fun u => { u with op := r.1 }, { rv := r.2.rv, out := some r.2 })
  | .freed =>
    let r := c.run e.crypto s.op none
    if r.2.rv = .argumentsBad then (l, { rv := .argumentsBad, out := some r.2 }) else (l, { rv := .ub })

/-- `C_GenerateKey` (src/crypto.c:3621-3671) with `WP11_AesGenerateKey`
(src/internal.c:7550-7560). -/
def cGenKey (e : Env) (l : Lib) (s : Session) (m : Option (Mech × MechParam)) (t : Option (List Entry))
    (ptr : Bool) : Lib × Resp :=
  match m, t with
  | some (m, p), some t =>
    if !ptr then (l, { rv := .argumentsBad })
    else if m ≠ .aesKeyGen then (l, { rv := .mechanismInvalid })
    else if !p.isNone then (l, { rv := .mechanismParamInvalid })
    else
      match newObject e s CKK_AES CKO_SECRET_KEY t with
      | (.ok, o) =>
        addObject e { l with rng := l.rng + 1 } s t
          { o with data := .symm (e.store.rand l.rng o.symm.length) }
      | (rv, _) => (l, { rv })
  | _, _ => (l, { rv := .argumentsBad })

/-- `WP11_Ec_GenerateKeyPair` (src/internal.c:7127-7175). -/
def ecGenerate (gen : Curve → Option EcKey) (pub priv : Obj) : IRet × Obj × Obj :=
  match pub.ec.dp with
  | none => (.ub, pub, priv)
  | some c =>
    match gen c with
    | none => (.other, pub, { priv with data := .ec { dp := some c } })
    | some k =>
      (.ok,
        { pub with data := .ec { pub.ec with x := k.x, y := k.y, typ := .pub }, local' := true,
                   keyGenMech := Mech.num .ecKeyPairGen },
        { priv with data := .ec { k with dp := some c, typ := .priv }, local' := true,
                    keyGenMech := Mech.num .ecKeyPairGen })

/-- `WP11_Dh_GenerateKeyPair` (src/internal.c:7484-7515). -/
def dhGenerate (gen : Nat → Nat → Option (Bytes × Bytes)) (pub priv : Obj) : IRet × Obj × Obj :=
  let p := pub.dh.p
  let g := pub.dh.g
  match gen p g with
  | none => (.other, pub, priv)
  | some (sk, pk) =>
    (.ok,
      { pub with data := .dh { pub.dh with key := pk }, local' := true,
                 keyGenMech := Mech.num .dhKeyPairGen },
      { priv with data := .dh { key := sk, p, g }, local' := true,
                  keyGenMech := Mech.num .dhKeyPairGen })

/-- The key generation of a pair by mechanism (the switch of `C_GenerateKeyPair`,
src/crypto.c:3731-3806): key type and generator. -/
def pairGen (e : Env) (rng : Nat) : Mech → Option (Nat × (Obj → Obj → IRet × Obj × Obj))
  | .rsaKeyPairGen => some (CKK_RSA, rsaGenerate (e.rsaGen rng))
  | .ecKeyPairGen => some (CKK_EC, ecGenerate (e.ecGen rng))
  | .dhKeyPairGen => some (CKK_DH, dhGenerate (e.dhGen rng))
  | _ => none

/-- Adding the two keys (src/crypto.c:3808-3840).  When the private key cannot be added
the public key is freed but stays in its list. -/
def addPair (e : Env) (l : Lib) (s : Session) (tp tq : List Entry) (pub priv : Obj) : Lib × Resp :=
  match addObject e l s tp pub with
  | (l1, r1) =>
    if r1.rv ≠ .ok then (l1, { rv := r1.rv, handle := some 0, priv := some 0 })
    else
      match l1.sessions.find? fun t => t.handle == s.handle with
      | none => (l1, { rv := .ub })
      | some s1 =>
        match addObject e l1 s1 tq priv with
        | (l2, r2) =>
          if r2.rv ≠ .ok then ({ l2 with bad := true }, { rv := r2.rv, handle := r1.handle, priv := some 0 })
          else (l2, { rv := .ok, handle := r1.handle, priv := r2.handle })

/-- `C_GenerateKeyPair` (src/crypto.c:3704-3842). -/
def cGenPair (e : Env) (l : Lib) (s : Session) (m : Option (Mech × MechParam))
    (tp tq : Option (List Entry)) (ptrs : Bool) : Lib × Resp :=
  match m, tp, tq with
  | some (m, p), some tp, some tq =>
    if !ptrs then (l, { rv := .argumentsBad })
    else
      match pairGen e l.rng m with
      | none => (l, { rv := .mechanismInvalid })
      | some (typ, gen) =>
        if !p.isNone then (l, { rv := .mechanismParamInvalid })
        else
          match newObject e s typ CKO_PUBLIC_KEY tp with
          | (.ok, pub) =>
            match newObject e s typ CKO_PRIVATE_KEY tq with
            | (.ok, priv) =>
              match gen pub priv with
              | (.ok, pub, priv) => addPair e { l with rng := l.rng + 1 } s tp tq pub priv
              | (.ub, _, _) => (l, { rv := .ub })
              | _ => ({ l with rng := l.rng + 1 },
                  { rv := .functionFailed, handle := some 0, priv := some 0 })
            | (rv, _) => (l, { rv, handle := some 0, priv := some 0 })
          | (rv, _) => (l, { rv, handle := some 0, priv := some 0 })
  | _, _, _ => (l, { rv := .argumentsBad })

/-- `CHECK_WRAPPABLE` (src/crypto.c:50-51). -/
def wrappable (cls typ : Nat) : Bool := cls == CKO_PRIVATE_KEY && typ == CKK_RSA

/-- `C_WrapKey` (src/crypto.c:3862-3959): `C_EncryptInit` and `C_Encrypt` are called on
the same session. -/
def cWrap (e : Env) (l : Lib) (s : Session) (m : Option (Mech × MechParam)) (wk key : Nat) (ob : OutBuf) :
    Lib × Resp :=
  match m with
  | none => (l, { rv := .argumentsBad })
  | some (m, p) =>
    if ob = .noLen then (l, { rv := .argumentsBad })
    else if s.use ≠ .rw then (l, { rv := .sessionReadOnly })
    else
      match findObj l s key with
      | none => (l, { rv := .objectHandleInvalid })
      | some k =>
        match findObj l s wk with
        | none => (l, { rv := .wrappingKeyHandleInvalid })
        | some w =>
          if !wrappable k.cls k.typ then (l, { rv := .keyNotWrappable })
          else
            match e.pkcs8 k.rsa with
            | none => (l, { rv := .functionFailed })
            | some der =>
              if m ≠ .aesCbcPad then (l, { rv := .mechanismInvalid })
              else if w.typ ≠ CKK_AES then (l, { rv := .wrappingKeyTypeInconsistent })
              else
                let i := encryptInit s.op w m p
                if i.2 ≠ .ok then (l.upd s.handle fun u => { u with op := i.1 }, { rv := i.2 })
                else
                  let r := encrypt e.crypto i.1 (some w) (some der) ob 0
                  (l.upd s.handle fun u => { u with op := r.1, curr := some w.uid },
                    { rv := r.2.rv, out := some r.2 })

/-- The key type and class in the template of `C_UnwrapKey` (src/crypto.c:4024-4048):
`FindValidAttributeType`, `CHECK_KEYTYPE`, `CHECK_KEYCLASS`, `CHECK_WRAPPABLE`. -/
def unwrapTemplate (t : List Entry) : RV :=
  match findValidAttr t .keyType 8 with
  | .error rv => rv
  | .ok k =>
    if !keyTypeOk (leNat k.val) then .attributeValueInvalid
    else
      match findValidAttr t .cls 8 with
      | .error rv => rv
      | .ok c =>
        if !(leNat c.val == CKO_PRIVATE_KEY || leNat c.val == CKO_PUBLIC_KEY ||
             leNat c.val == CKO_SECRET_KEY) then .attributeValueInvalid
        else if !wrappable (leNat c.val) (leNat k.val) then .keyNotWrappable
        else .ok

/-- `AddRSAPrivateKeyObject` (src/crypto.c:547-642). -/
def addRsaPrivate (e : Env) (l : Lib) (s : Session) (t : List Entry) (der : Bytes) : Lib × Resp :=
  match newObject e s CKK_RSA CKO_PRIVATE_KEY t with
  | (.ok, o) =>
    match e.parsePriv der with
    | none => (l, { rv := .wrappedKeyInvalid, handle := some 0 })
    | some k =>
      let r := addObject e l s t { o with data := .rsa k }
      (r.1, { r.2 with handle := some (r.2.handle.getD 0) })
  | (rv, _) => (l, { rv, handle := some 0 })

/-- `C_UnwrapKey` (src/crypto.c:3987-4103): `C_DecryptInit` and `C_Decrypt` are called
on the same session. -/
def cUnwrap (e : Env) (l : Lib) (s : Session) (m : Option (Mech × MechParam)) (wk : Nat)
    (data : Option Bytes) (t : Option (List Entry)) (ptr : Bool) : Lib × Resp :=
  if s.use ≠ .rw then (l, { rv := .sessionReadOnly })
  else
    match m, data, t with
    | some (m, p), some d, some t =>
      if d = [] ∨ !ptr then (l, { rv := .argumentsBad })
      else
        match findObj l s wk with
        | none => (l, { rv := .unwrappingKeyHandleInvalid, handle := some 0 })
        | some w =>
          if m ≠ .aesCbcPad then (l, { rv := .mechanismInvalid, handle := some 0 })
          else
            let c := unwrapTemplate t
            if c ≠ .ok then (l, { rv := c, handle := some 0 })
            else if w.typ ≠ CKK_AES then (l, { rv := .unwrappingKeyTypeInconsistent, handle := some 0 })
            else
              let i := decryptInit s.op w m p
              if i.2 ≠ .ok then (l.upd s.handle fun u => { u with op := i.1 }, { rv := i.2, handle := some 0 })
              else
                let r := decrypt e.crypto i.1 (some w) (some d) (.buf 0) 0
                let l := l.upd s.handle fun u => { u with op := r.1, curr := some w.uid }
                if r.2.rv ≠ .ok then (l, { rv := r.2.rv, handle := some 0 })
                else addRsaPrivate e l s t r.2.wr
    | _, _, _ => (l, { rv := .argumentsBad })

/-- The shared secret of `C_DeriveKey` (src/crypto.c:4191-4241).  The type of the base
key is not checked: the `data` union of any object is used as an EC or DH key. -/
def deriveSecret (e : Env) (o : Obj) (m : DeriveMech) : Except RV Bytes :=
  match m with
  | .other => .error .mechanismInvalid
  | .ecdh none => .error .mechanismParamInvalid
  | .ecdh (some (kdf, pub)) =>
    match pub with
    | none => .error .mechanismParamInvalid
    | some pt =>
      if pt = [] ∨ !kdf then .error .mechanismParamInvalid
      else if o.cls = CKO_CERTIFICATE ∨ o.typ ≠ CKK_EC then .error .ub
      else
        match e.ecdh o.ec pt (pt.length / 2) with
        | none => .error .functionFailed
        | some s => .ok s
  | .dh none => .error .mechanismParamInvalid
  | .dh (some pt) =>
    if pt = [] then .error .mechanismParamInvalid
    else if o.cls = CKO_CERTIFICATE ∨ o.typ ≠ CKK_DH then .error .ub
    else
      match e.dhAgree o.dh pt with
      | none => .error .functionFailed
      | some s => .ok s

/-- `C_DeriveKey` (src/crypto.c:4163-4275). -/
def cDerive (e : Env) (l : Lib) (s : Session) (m : Option DeriveMech) (base : Nat)
    (t : Option (List Entry)) (ptr : Bool) : Lib × Resp :=
  match m, t with
  | some m, some t =>
    if !ptr then (l, { rv := .argumentsBad })
    else
      match findObj l s base with
      | none => (l, { rv := .objectHandleInvalid })
      | some b =>
        match deriveSecret e b m with
        | .error rv => (l, { rv })
        | .ok sec =>
          match createObject e s t with
          | (.ok, o) =>
            let d := deriveTail e.key o sec
            match d.obj with
            | none => (l, { rv := d.rv })
            | some o => addObject e l s t o
          | (rv, _) => (l, { rv })
  | _, _ => (l, { rv := .argumentsBad })

/-- `RNG_MAX_BLOCK_LEN` of wolfCrypt: `wc_RNG_GenerateBlock` refuses more. -/
def rngMaxBlock : Nat := 65536

/-- `C_GenerateRandom` (src/crypto.c:4325-4349) with `WP11_Slot_GenerateRandom`
(src/internal.c:8556-8565): the length goes through an `int` to a `word32`. -/
def cRandom (e : Env) (l : Lib) (ptr : Bool) (len : Nat) : Lib × Resp :=
  if !ptr then (l, { rv := .argumentsBad })
  else if rngMaxBlock < len % 2 ^ 32 then (l, { rv := .functionFailed })
  else ({ l with rng := l.rng + 1 }, { rv := .ok, out := some { rv := .ok, wr := e.store.rand l.rng (len % 2 ^ 32) } })

/-! ## The machine -/

/-- A call on a session found (`WP11_Session_Get` succeeded). -/
def sessCall (e : Env) (l : Lib) (s : Session) : SessCall → Lib × Resp
  | .close => closeSession e l s.handle
  | .info ptr =>
    if !ptr then (l, { rv := .argumentsBad })
    else (l, { rv := .ok, state := some (sessState l s, s.use == .rw) })
  | .login u pin now => login e l u pin now
  | .logout => (logout e l, { rv := .ok })
  | .initPin pin => initPin e l s pin
  | .setPin old new => setPin e l s old new
  | .create t ptr => cCreate e l s t ptr
  | .copy o t ptr => cCopy e l s o t ptr
  | .destroy o => cDestroy e l s o
  | .size o ptr =>
    if !ptr then (l, { rv := .argumentsBad })
    else (l, { rv := if (findObj l s o).isSome then .ok else .objectHandleInvalid })
  | .getAttr o t => cGetAttr e l s o t
  | .setAttr o t => cSetAttr e l s o t
  | .findInit t => cFindInit e l s t
  | .findNext ptr max => cFindNext l s ptr max
  | .findFinal => (l.upd s.handle fun u => { u with find := { u.find with active := false } }, { rv := .ok })
  | .cryptInit k m key => cCryptInit e l s k m key
  | .crypt c => cCrypt e l s c
  | .genKey m t ptr => cGenKey e l s m t ptr
  | .genPair m tp tq ptrs => cGenPair e l s m tp tq ptrs
  | .wrap m wk key ob => cWrap e l s m wk key ob
  | .unwrap m wk d t ptr => cUnwrap e l s m wk d t ptr
  | .derive m base t ptr => cDerive e l s m base t ptr
  | .random ptr len => cRandom e l ptr len

/-- A call on a valid slot. -/
def slotCall (e : Env) (l : Lib) : SlotCall → Lib × Resp
  | .tokenInfo ptr now =>
    if !ptr then (l, { rv := .argumentsBad }) else (l, { rv := .ok, info := some (tokenInfo l now) })
  | .initToken pin label => initToken e l pin label
  | .openSession rw serial ptr =>
    if !serial then (l, { rv := .sessionParallelNotSupported })
    else if !ptr then (l, { rv := .argumentsBad })
    else openSession l rw
  | .closeAll => ({ l with sessions := closeAll l.sessions }, { rv := .ok })

/-- `C_Initialize` (src/wolfpkcs11.c:127-135, src/internal.c:3443-3467): only at count 0
the slot is set up and the token loaded. -/
def cInitialize (e : Env) (l : Lib) : Lib × Resp :=
  let l1 :=
    if l.count = 0 then
      let t := loadToken e.store l.disk l.uid
      { l with sessions := addSession (addSession []), token := t, uid := l.uid + t.objs.length }
    else l
  ({ l1 with count := l1.count + 1 }, { rv := .ok })

/-- `C_Finalize` (src/wolfpkcs11.c:143-150, src/internal.c:3474-3498): the count goes
down in any case; at 0 the token is stored and everything freed. -/
def cFinalize (e : Env) (l : Lib) : Lib × Resp :=
  let l := { l with count := l.count - 1 }
  (if l.count = 0 then { (Lib.store e l).1 with sessions := [], token := {} } else l, { rv := .ok })

/-- `WP11_Session_Get` (src/internal.c:4278-4299). -/
def getSession (l : Lib) (h : Nat) : Option Session :=
  if h / 65536 ≠ 1 then none
  else (l.sessions.find? fun s => s.handle == h).bind fun s => if s.use = .no then none else some s

/-- What a call does to a library that is not `bad`. -/
def callBody (e : Env) (l : Lib) : Call → Lib × Resp
  | .cInit => cInitialize e l
  | .cFinal => cFinalize e l
  | .slot id c =>
    if l.count ≤ 0 then (l, { rv := .cryptokiNotInitialized })
    else if id ≠ 1 then (l, { rv := .slotIdInvalid })
    else slotCall e l c
  | .sess h c =>
    if l.count ≤ 0 then (l, { rv := .cryptokiNotInitialized })
    else
      match getSession l h with
      | none => (l, { rv := .sessionHandleInvalid })
      | some s => sessCall e l s c

/-- One API call. -/
def step (e : Env) (l : Lib) (c : Call) : Lib × Resp :=
  if l.bad then (l, { rv := .ub })
  else
    let r := callBody e l c
    if r.2.rv = .ub then ({ r.1 with bad := true }, r.2) else r

/-- The library after a sequence of calls. -/
def run (e : Env) (l : Lib) : List Call → Lib
  | [] => l
  | c :: cs => run e (step e l c).1 cs

end Verif
