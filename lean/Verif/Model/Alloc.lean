import Verif.Model.Api

/-!
# Allocations that fail

The calls of `Model/Api.lean` that allocate memory to make, change, look for, encrypt or
decrypt objects, or to open a session, when some of the allocations of the library fail.

Simplifications: allocations made while files are read or written succeed (a failure there
ends the writing, as in `Model/Fault.lean`), and so do those inside wolfCrypt; the calls not
listed in `callBodyM` and `sessCallM` make no allocations of their own.
-/

namespace Verif

/-- The outcomes of the allocations of a call, in order; those beyond the list succeed. -/
abbrev Mem := List Bool

/-- The outcome of the next allocation (`XMALLOC`, e.g. src/internal.c:531-533). -/
def memOk (a : Mem) : Bool := a.headD true

/-- The attributes kept in memory of their own (`WP11_Object_SetKeyId`,
`WP11_Object_SetLabel`, src/internal.c:6100-6146). -/
def ownMem : CKA → Bool
  | .id | .label => true
  | _ => false

/-- The length of the value whose memory is freed first (src/internal.c:6105-6106, 6133-6134). -/
def ownLen (o : Obj) : CKA → Nat
  | .id => o.keyId.length
  | .label => o.label.length
  | _ => 0

/-- Outcome of setting attributes: status, object, allocations left, and whether the object
is left with a NULL pointer whose length is not 0. -/
structure SetM where
  rv : RV
  obj : Obj
  left : Mem
  hole : Bool := false

/-- The last loop of `SetAttributeValue` (src/crypto.c:428-439): a failed allocation is
`CKR_FUNCTION_FAILED`; the old value is freed, its length stays (src/internal.c:6100-6146). -/
def setAttrsM (o : Obj) : List Entry → Mem → SetM
  | [], a => { rv := .ok, obj := o, left := a }
  | e :: t, a =>
    if ownMem e.typ ∧ memOk a = false then
      { rv := .functionFailed, obj := o, left := a.tail, hole := ownLen o e.typ != 0 }
    else
      let a := if ownMem e.typ then a.tail else a
      let r := setAttr o e
      match r.1 with
      | .ok => setAttrsM r.2 t a
      | .badArg => { rv := .attributeValueInvalid, obj := r.2, left := a }
      | .bufferE => { rv := .bufferTooSmall, obj := r.2, left := a }
      | .ub => { rv := .ub, obj := r.2, left := a }
      | _ => { rv := .functionFailed, obj := r.2, left := a }

/-- `SetAttributeValue` (src/crypto.c:315-442). -/
def setAttributeValueM (x : KeyExt) (rw : Bool) (o : Obj) (t : List Entry) (a : Mem) : SetM :=
  if !rw then { rv := .sessionReadOnly, obj := o, left := a }
  else
    let c := checkAttributes true t
    if c ≠ .ok then { rv := c, obj := o, left := a }
    else
      match keyParams o with
      | none => { rv := .objectHandleInvalid, obj := o, left := a }
      | some ps =>
        if ps.any (fun a => (keyAttr t a).any (fun e => e.mem.isNone)) then
          { rv := .attributeValueInvalid, obj := o, left := a }
        else
          let r := setKey x o (keyVals t)
          match r.1 with
          | .ok => setAttrsM r.2 t a
          | .ub => { rv := .ub, obj := r.2, left := a }
          | _ => { rv := .functionFailed, obj := r.2, left := a }

/-- `NewObject` (src/crypto.c:457-484) with `WP11_Object_New` (src/internal.c:1460-1462): the
object is freed when an attribute cannot be set. -/
def newObjectM (e : Env) (s : Session) (typ cls : Nat) (t : List Entry) (a : Mem) : SetM :=
  if memOk a then setAttributeValueM e.key (s.use == .rw) { newObj 0 typ with cls } t a.tail
  else { rv := .deviceMemory, obj := {}, left := a.tail }

/-- `CreateObject` (src/crypto.c:664-712). -/
def createObjectM (e : Env) (s : Session) (t : List Entry) (a : Mem) : SetM :=
  match templClass t with
  | .error rv => { rv, obj := {}, left := a }
  | .ok cls =>
    if cls = CKO_CERTIFICATE then
      match templUlong t .certificateType with
      | .error rv => { rv, obj := {}, left := a }
      | .ok typ =>
        if typ ≤ 2 then newObjectM e s typ cls t a
        else { rv := .attributeValueInvalid, obj := {}, left := a }
    else
      match templUlong t .keyType with
      | .error rv => { rv, obj := {}, left := a }
      | .ok typ =>
        if keyTypeOk typ then newObjectM e s typ cls t a
        else { rv := .attributeValueInvalid, obj := {}, left := a }

/-- `wp11_Object_Encode` (src/internal.c:2857-2907): each kind of key takes memory for its
encrypted form, after the length is known (1696-1703, 1990-1997) or at once (2153-2159,
2475-2481); without it the object has no encrypted form. -/
def encodeObjM (e : StoreExt) (key : Bytes) (protect : Bool) (o : Obj) (a : Mem) : Bool × Obj × Mem :=
  if o.cls = CKO_CERTIFICATE then (true, o, a)
  else
    let r := encodeKey e key o
    if r.1 then
      if memOk a then (true, if protect then cleared r.2 else r.2, a.tail)
      else (false, { o with keyData := none }, a.tail)
    else (false, r.2, a)

/-- `WP11_Session_AddObject` (src/internal.c:4639-4697). -/
def sessAddObjectM (e : Env) (l : Lib) (s : Session) (on : Nat) (o : Obj) (a : Mem) : Lib × Option Nat × Mem :=
  let o := { o with onToken := decide (on % 2 = 1), uid := l.uid }
  if on ≠ 0 then
    if l.token.objs.length ≥ tokenObjMax then (l, none, a)
    else
      let r := encodeObjM e.store l.token.key false o a
      if r.1 then
        let h := nextHandle l.token.objs on
        let o := { r.2.1 with handle := h }
        ((Lib.store e { l with uid := l.uid + 1, token := { l.token with objs := o :: l.token.objs } }).1,
          some h, r.2.2)
      else (l, none, r.2.2)
  else
    if s.objs.length ≥ sessObjMax then (l, none, a)
    else
      let h := nextHandle s.objs on
      ({ l with uid := l.uid + 1 }.upd s.handle fun t => { t with objs := { o with handle := h } :: t.objs },
        some h, a)

/-- `AddObject` (src/crypto.c:499-524). -/
def addObjectM (e : Env) (l : Lib) (s : Session) (t : List Entry) (o : Obj) (a : Mem) : Lib × Resp × Mem :=
  match tokenByte t 0 with
  | .error rv => (l, { rv }, a)
  | .ok on =>
    match sessAddObjectM e l s on o a with
    | (l, none, a) => (l, { rv := .functionFailed }, a)
    | (l, some h, a) => (l, { rv := .ok, handle := some h }, a)

/-- `C_CreateObject` (src/crypto.c:734-759). -/
def cCreateM (e : Env) (l : Lib) (s : Session) (t : Option (List Entry)) (ptr : Bool) (a : Mem) : Lib × Resp :=
  match t with
  | none => (l, { rv := .argumentsBad })
  | some t =>
    if !ptr then (l, { rv := .argumentsBad })
    else if s.use ≠ .rw then (l, { rv := .sessionReadOnly })
    else
      let n := createObjectM e s t a
      if n.rv ≠ .ok then (l, { rv := n.rv })
      else
        let r := addObjectM e l s t n.obj n.left
        (r.1, r.2.1)

/-- `C_CopyObject` (src/crypto.c:783-850). -/
def cCopyM (e : Env) (l : Lib) (s : Session) (h : Nat) (t : Option (List Entry)) (ptr : Bool) (a : Mem) : Lib × Resp :=
  match t with
  | none => (l, { rv := .argumentsBad })
  | some t =>
    if !ptr then (l, { rv := .argumentsBad })
    else if s.use ≠ .rw then (l, { rv := .sessionReadOnly })
    else
      match findObj l s h with
      | none => (l, { rv := .objectHandleInvalid })
      | some o =>
        match tokenByte t 0 with
        | .error rv => (l, { rv })
        | .ok on =>
          if memOk a = false then (l, { rv := .deviceMemory })
          else
            let g := getAttributeValue e.key o t
            if g.1 ≠ .ok then (l, { rv := g.1, tmpl := some g.2 })
            else
              let n := setAttributeValueM e.key true (newObj 0 o.typ) g.2 a.tail
              if n.rv ≠ .ok then (l, { rv := n.rv, tmpl := some g.2 })
              else
                match sessAddObjectM e l s on n.obj n.left with
                | (l, none, _) => (l, { rv := .functionFailed, tmpl := some g.2 })
                | (l, some nh, _) => (l, { rv := .ok, handle := some nh, tmpl := some g.2 })

/-- `C_GenerateKey` (src/crypto.c:3622-3669). -/
def cGenKeyM (e : Env) (l : Lib) (s : Session) (m : Option (Mech × MechParam)) (t : Option (List Entry))
    (ptr : Bool) (a : Mem) : Lib × Resp :=
  match m, t with
  | some (m, p), some t =>
    if !ptr then (l, { rv := .argumentsBad })
    else if m ≠ .aesKeyGen then (l, { rv := .mechanismInvalid })
    else if !p.isNone then (l, { rv := .mechanismParamInvalid })
    else
      let n := newObjectM e s CKK_AES CKO_SECRET_KEY t a
      if n.rv ≠ .ok then (l, { rv := n.rv })
      else
        let r := addObjectM e { l with rng := l.rng + 1 } s t
          { n.obj with data := .symm (e.store.rand l.rng n.obj.symm.length) } n.left
        (r.1, r.2.1)
  | _, _ => (l, { rv := .argumentsBad })

/-- Adding the two keys of a pair (src/crypto.c:3808-3840): when the private key cannot be
added the public key is freed but stays in its list. -/
def addPairM (e : Env) (l : Lib) (s : Session) (tp tq : List Entry) (pub priv : Obj) (a : Mem) : Lib × Resp :=
  let r1 := addObjectM e l s tp pub a
  if r1.2.1.rv ≠ .ok then (r1.1, { rv := r1.2.1.rv, handle := some 0, priv := some 0 })
  else
    match r1.1.sessions.find? fun t => t.handle == s.handle with
    | none => (r1.1, { rv := .ub })
    | some s1 =>
      let r2 := addObjectM e r1.1 s1 tq priv r1.2.2
      if r2.2.1.rv ≠ .ok then
        ({ r2.1 with bad := true }, { rv := r2.2.1.rv, handle := r1.2.1.handle, priv := some 0 })
      else (r2.1, { rv := .ok, handle := r1.2.1.handle, priv := r2.2.1.handle })

/-- `C_GenerateKeyPair` (src/crypto.c:3704-3842). -/
def cGenPairM (e : Env) (l : Lib) (s : Session) (m : Option (Mech × MechParam))
    (tp tq : Option (List Entry)) (ptrs : Bool) (a : Mem) : Lib × Resp :=
  match m, tp, tq with
  | some (m, p), some tp, some tq =>
    if !ptrs then (l, { rv := .argumentsBad })
    else
      match pairGen e l.rng m with
      | none => (l, { rv := .mechanismInvalid })
      | some (typ, gen) =>
        if !p.isNone then (l, { rv := .mechanismParamInvalid })
        else
          let n1 := newObjectM e s typ CKO_PUBLIC_KEY tp a
          if n1.rv ≠ .ok then (l, { rv := n1.rv, handle := some 0, priv := some 0 })
          else
            let n2 := newObjectM e s typ CKO_PRIVATE_KEY tq n1.left
            if n2.rv ≠ .ok then (l, { rv := n2.rv, handle := some 0, priv := some 0 })
            else
              match gen n1.obj n2.obj with
              | (.ok, pub, priv) => addPairM e { l with rng := l.rng + 1 } s tp tq pub priv n2.left
              | (.ub, _, _) => (l, { rv := .ub })
              | _ => ({ l with rng := l.rng + 1 },
                  { rv := .functionFailed, handle := some 0, priv := some 0 })
  | _, _, _ => (l, { rv := .argumentsBad })

/-- Does the mechanism of `C_DeriveKey` have what is needed to reach the allocation for the
secret (src/crypto.c:4194-4213, 4224-4233)? -/
def deriveTakes : DeriveMech → Bool
  | .ecdh (some (kdf, some pt)) => !pt.isEmpty && kdf
  | .dh (some pt) => !pt.isEmpty
  | _ => false

/-- `C_DeriveKey` (src/crypto.c:4163-4274). -/
def cDeriveM (e : Env) (l : Lib) (s : Session) (m : Option DeriveMech) (base : Nat)
    (t : Option (List Entry)) (ptr : Bool) (a : Mem) : Lib × Resp :=
  match m, t with
  | some m, some t =>
    if !ptr then (l, { rv := .argumentsBad })
    else
      match findObj l s base with
      | none => (l, { rv := .objectHandleInvalid })
      | some b =>
        if deriveTakes m ∧ memOk a = false then (l, { rv := .deviceMemory })
        else
          match deriveSecret e b m with
          | .error rv => (l, { rv })
          | .ok sec =>
            let n := createObjectM e s t a.tail
            if n.rv ≠ .ok then (l, { rv := n.rv })
            else
              let d := deriveTail e.key n.obj sec
              match d.obj with
              | none => (l, { rv := d.rv })
              | some o => let r := addObjectM e l s t o n.left; (r.1, r.2.1)
  | _, _ => (l, { rv := .argumentsBad })

/-- `C_SetAttributeValue` (src/crypto.c:1010-1032): the object is changed in place.  A
pointer that is NULL while its length is not counts as `bad`: the next call that reads or
stores the attribute copies from NULL. -/
def cSetAttrM (e : Env) (l : Lib) (s : Session) (h : Nat) (t : Option (List Entry)) (a : Mem) : Lib × Resp :=
  match t with
  | none => (l, { rv := .argumentsBad })
  | some t =>
    if s.use ≠ .rw then (l, { rv := .sessionReadOnly })
    else
      match findObj l s h with
      | none => (l, { rv := .objectHandleInvalid })
      | some o =>
        let r := setAttributeValueM e.key true o t a
        let l' := putObj l s h r.obj
        (if r.hole then { l' with bad := true } else l', { rv := r.rv })

/-- `WP11_Object_MatchAttr` (src/internal.c:6411-6435): memory is taken for values of more
than 8 bytes; without it the attribute does not match. -/
def matchAttrM (x : KeyExt) (o : Obj) (e : Entry) (a : Mem) : Option Bool × Mem :=
  if e.len ≤ 8 then (matchAttr x o e, a)
  else if memOk a then (matchAttr x o e, a.tail)
  else (some false, a.tail)

/-- All attributes of the template match (src/internal.c:4884-4890). -/
def matchAllM (x : KeyExt) (o : Obj) : List Entry → Mem → Option Bool × Mem
  | [], a => (some true, a)
  | e :: t, a =>
    let r := matchAttrM x o e a
    match r.1 with
    | none => (none, r.2)
    | some false => (some false, r.2)
    | some true => matchAllM x o t r.2

/-- `WP11_Session_Find` (src/internal.c:4874-4901). -/
def findLoopM (x : KeyExt) (login : Login) (t : List Entry) : List Obj → List Nat → Mem → Option (List Nat)
  | [], acc, _ => some acc
  | o :: os, acc, a =>
    if hidden login o then findLoopM x login t os acc a
    else
      let r := matchAllM x o t a
      match r.1 with
      | none => none
      | some false => findLoopM x login t os acc r.2
      | some true =>
        if acc.length = findMax then some acc
        else findLoopM x login t os (acc ++ [o.handle]) r.2

/-- `C_FindObjectsInit` (src/crypto.c:1050-1078). -/
def cFindInitM (e : Env) (l : Lib) (s : Session) (t : Option (List Entry)) (a : Mem) : Lib × Resp :=
  match t with
  | none => (l, { rv := .argumentsBad })
  | some t =>
    if s.find.active then (l, { rv := .operationActive })
    else
      let started (f : List Nat) := l.upd s.handle fun u => { u with find := { active := true, found := f } }
      match tokenByte t 1 with
      | .error rv => (started [], { rv })
      | .ok on =>
        if on ≠ 0 ∧ findCycles l.token.objs then (started [], { rv := .ub })
        else
          match findLoopM e.key l.token.login t (s.objs ++ if on ≠ 0 then l.token.objs else []) [] a with
          | none => (started [], { rv := .ub })
          | some f => (started f, { rv := .ok })

/-- `C_OpenSession` (src/slot.c:721-744) with `wp11_Session_New` (src/internal.c:525-548):
`MEMORY_E` is not among the results looked at, so the answer is `CKR_OK`, although no
handle is written. -/
def openSessionM (l : Lib) (rw : Bool) (a : Mem) : Lib × Resp :=
  if !rw && l.token.login == .so then (l, { rv := .sessionReadWriteSoExists })
  else
    match l.sessions.find? fun s => s.use == .no with
    | some _ => openSession l rw
    | none =>
      if l.sessions.head?.any fun s => sessId s.handle == sessMax then (l, { rv := .sessionCount })
      else if memOk a then openSession l rw
      else (l, { rv := .ok })

/-- `wp11_Object_Decode` (src/internal.c:2806-2846): RSA and EC private keys are decrypted
into memory taken for it (1636-1644, 1927-1935); without it the object stays encrypted. -/
def decodeObjM (e : StoreExt) (key : Bytes) (o : Obj) (a : Mem) : DecRet × Obj × Mem :=
  if o.cls = CKO_PRIVATE_KEY ∧ (o.typ = CKK_RSA ∨ o.typ = CKK_EC) then
    if memOk a then
      let r := decodeObj e key o
      (r.1, r.2, a.tail)
    else (.err, { o with encoded := true }, a.tail)
  else
    let r := decodeObj e key o
    (r.1, r.2, a)

/-- Decode the token's objects in order until a failure (src/internal.c:4043-4048). -/
def decodeAllM (e : StoreExt) (key : Bytes) : List Obj → Mem → DecRet × List Obj
  | [], _ => (.ok, [])
  | o :: os, a =>
    let r := decodeObjM e key o a
    if r.1 = .ok then
      let s := decodeAllM e key os r.2.2
      (s.1, r.2.1 :: s.2)
    else (r.1, r.2.1 :: os)

/-- `WP11_Slot_UserLogin` (src/internal.c:3974-4061) and the mapping of its result
(src/slot.c:941-948): whatever else went wrong is `CKR_PIN_INCORRECT`. -/
def userLoginM (e : Env) (l : Lib) (pin : Bytes) (now : Int) (a : Mem) : Lib × RV :=
  if l.token.login ≠ .pub then (l, .userAlreadyLoggedIn)
  else
    match lockCheck l.token.user now with
    | none => (l, .pinIncorrect)
    | some u =>
      match checkPin e l.token u pin with
      | .notSet => ({ l with token := { l.token with user := u } }, .userPinNotInitialized)
      | .invalid => ({ l with token := { l.token with user := failed u now 60 } }, .pinIncorrect)
      | .ok =>
        let key := e.store.hash pin l.token.seed
        let r := decodeAllM e.store key l.token.objs a
        let t := { l.token with user := succeeded u, key, objs := r.2 }
        match r.1 with
        | .ok => ({ l with token := { t with login := .user } }, .ok)
        | .ub => ({ l with token := t }, .ub)
        | _ => ({ l with token := t }, .pinIncorrect)

/-- `C_Login` (src/slot.c:912-958). -/
def loginM (e : Env) (l : Lib) (u : UserType) (pin : Option Bytes) (now : Int) (a : Mem) : Lib × Resp :=
  match u, pin with
  | .user, some pin =>
    if !pinLenOk pin then (l, { rv := .pinIncorrect })
    else let r := userLoginM e l pin now a; (r.1, { rv := r.2 })
  | u, pin => login e l u pin now

/-- Encode and clear the token's objects in order until a failure (src/internal.c:4173-4178). -/
def encodeAllM (e : StoreExt) (key : Bytes) : List Obj → Mem → List Obj
  | [], _ => []
  | o :: os, a =>
    let r := encodeObjM e key true o a
    if r.1 then r.2.1 :: encodeAllM e key os r.2.2 else r.2.1 :: os

/-- `WP11_Slot_Logout` (src/internal.c:4162-4184): the result of encoding is not looked at. -/
def logoutM (e : Env) (l : Lib) (a : Mem) : Lib :=
  let objs := if l.token.login = .user then encodeAllM e.store l.token.key l.token.objs a
    else l.token.objs
  { l with token := { l.token with login := .pub, objs } }

/-- `C_CloseSession` (src/slot.c:754-769). -/
def closeSessionM (e : Env) (l : Lib) (h : Nat) (a : Mem) : Lib × Resp :=
  let ss := closeOne l.sessions h
  let l := { l with sessions := ss }
  (if anyInUse ss then l else logoutM e l a, { rv := .ok })

/-- `WP11_Session_SetOaepParams` (src/internal.c:4490-4515) without memory for the label: the
parameters without label are in the union (282-303), whatever operation is in progress. -/
def OpSt.oaepNoMem (s : OpSt) (h m : HashAlg) : OpSt :=
  match s.mech with
  | .rsaOaep => { s with oaep := { hash := h, mgf := m, unset := false } }
  | .rsaPss => { s with pss := { hash := h, mgf := m, unset := false } }
  | .aesGcm => { s with gcm := { s.gcm with iv := [] } }
  | .aesCbc | .aesCbcPad | .hmac _ => s.mark
  | _ => s

/-- `WP11_Session_SetGcmParams` (src/internal.c:4599-4627) without memory for the additional
data: nonce and tag length are in the union (282-303).  Simplification: to go on with an
operation of another mechanism counts as undefined behaviour (`OpSt.mark`), also for RSA-PSS
and RSA-OAEP, which would read the nonce as numbers of hash functions. -/
def OpSt.gcmNoMem (s : OpSt) (g : GcmSt) : OpSt :=
  match s.mech with
  | .aesGcm => { s with gcm := g }
  | _ => s.tear true

/-- The operation state after an Init that takes memory and does not get it
(src/crypto.c:1209-1231, 1270-1289, 1782-1803, 1840-1859); `none` for those that take none. -/
def initNoMem (k : Kind) (s : OpSt) (o : Obj) (m : Mech) (p : MechParam) : Option OpSt :=
  if k = .encrypt ∨ k = .decrypt then
    match m, p with
    | .rsaOaep, .oaep (some h) (some g) true (some _) => if o.typ = CKK_RSA then some (s.oaepNoMem h g) else none
    | .aesGcm, .gcm iv (some _) tagBits =>
      if o.typ = CKK_AES then (GcmSt.setParams iv none (toInt32 tagBits)).map s.gcmNoMem else none
    | _, _ => none
  else none

/-- `C_EncryptInit`, `C_DecryptInit`, `C_SignInit` and `C_VerifyInit` (src/crypto.c:1165-1301,
1740-1871, 2465-2578, 2995-3108): `MEMORY_E` is answered like a wrong parameter (1223-1227,
1281-1286, 1796-1800, 1850-1855). -/
def cCryptInitM (e : Env) (l : Lib) (s : Session) (k : Kind) (m : Option (Mech × MechParam)) (key : Nat) (a : Mem) :
    Lib × Resp :=
  match m with
  | none => (l, { rv := .argumentsBad })
  | some (m, p) =>
    match findObj l s key with
    | none => (l, { rv := .objectHandleInvalid })
    | some o =>
      match initNoMem k s.op o m p with
      | some op =>
        if memOk a then cCryptInit e l s k (some (m, p)) key
        else (l.upd s.handle fun u => { u with op }, { rv := .mechanismParamInvalid })
      | none => cCryptInit e l s k (some (m, p)) key

/-- Does the data call take memory (`WP11_AesGcm_DecryptUpdate`, src/internal.c:8242-8275)? -/
def cryptTakes (s : OpSt) : DataCall → Bool
  | .decryptUpdate (some _) (.buf _) => s.mech == .aesGcm && s.init == .aesGcmDec
  | _ => false

/-- The data functions (src/crypto.c:1325-3376).  Without memory for the collected ciphertext
the length is 0 and nothing is added (src/crypto.c:2156-2165). -/
def cCryptM (e : Env) (l : Lib) (s : Session) (c : DataCall) (a : Mem) : Lib × Resp :=
  let r := cCrypt e l s c
  if cryptTakes s.op c ∧ r.2.rv = .ok ∧ memOk a = false then
    (l, { rv := .functionFailed, out := some { rv := .functionFailed, len := some 0 } })
  else r

/-- `C_WrapKey` (src/crypto.c:3862-3959) with `WP11_Rsa_SerializeKeyPTPKC8`
(src/internal.c:1796-1833): memory is taken to find out the length of the key in clear, for the
key in clear (src/crypto.c:3914-3917), and to encode it, before the mechanism is looked at.
`obHostMemory` is `CKR_HOST_MEMORY`. -/
def cWrapM (e : Env) (l : Lib) (s : Session) (m : Option (Mech × MechParam)) (wk key : Nat) (ob : OutBuf) (a : Mem) :
    Lib × Resp :=
  match m with
  | none => (l, { rv := .argumentsBad })
  | some (m, p) =>
    if ob = .noLen then (l, { rv := .argumentsBad })
    else if s.use ≠ .rw then (l, { rv := .sessionReadOnly })
    else
      match findObj l s key with
      | none => (l, { rv := .objectHandleInvalid })
      | some k =>
        match findObj l s wk with
        | none => (l, { rv := .wrappingKeyHandleInvalid })
        | some w =>
          if !wrappable k.cls k.typ then (l, { rv := .keyNotWrappable })
          else
            match e.pkcs8 k.rsa with
            | none => (l, { rv := .functionFailed })
            | some der =>
              if memOk a = false then (l, { rv := .functionFailed })
              else if memOk a.tail = false then (l, { rv := .obHostMemory })
              else if memOk a.tail.tail = false then (l, { rv := .functionFailed })
              else if m ≠ .aesCbcPad then (l, { rv := .mechanismInvalid })
              else if w.typ ≠ CKK_AES then (l, { rv := .wrappingKeyTypeInconsistent })
              else
                let i := encryptInit s.op w m p
                if i.2 ≠ .ok then (l.upd s.handle fun u => { u with op := i.1 }, { rv := i.2 })
                else
                  let r := encrypt e.crypto i.1 (some w) (some der) ob 0
                  (l.upd s.handle fun u => { u with op := r.1, curr := some w.uid },
                    { rv := r.2.rv, out := some r.2 })

/-- `AddRSAPrivateKeyObject` (src/crypto.c:547-642). -/
def addRsaPrivateM (e : Env) (l : Lib) (s : Session) (t : List Entry) (der : Bytes) (a : Mem) : Lib × Resp :=
  let n := newObjectM e s CKK_RSA CKO_PRIVATE_KEY t a
  if n.rv ≠ .ok then (l, { rv := n.rv, handle := some 0 })
  else
    match e.parsePriv der with
    | none => (l, { rv := .wrappedKeyInvalid, handle := some 0 })
    | some k =>
      let r := addObjectM e l s t { n.obj with data := .rsa k } n.left
      (r.1, { r.2.1 with handle := some (r.2.1.handle.getD 0) })

/-- `C_UnwrapKey` (src/crypto.c:3987-4103): memory is taken for the decrypted key (4062-4065)
before the decryption is initialised. -/
def cUnwrapM (e : Env) (l : Lib) (s : Session) (m : Option (Mech × MechParam)) (wk : Nat)
    (data : Option Bytes) (t : Option (List Entry)) (ptr : Bool) (a : Mem) : Lib × Resp :=
  if s.use ≠ .rw then (l, { rv := .sessionReadOnly })
  else
    match m, data, t with
    | some (m, p), some d, some t =>
      if d = [] ∨ !ptr then (l, { rv := .argumentsBad })
      else
        match findObj l s wk with
        | none => (l, { rv := .unwrappingKeyHandleInvalid, handle := some 0 })
        | some w =>
          if m ≠ .aesCbcPad then (l, { rv := .mechanismInvalid, handle := some 0 })
          else
            let c := unwrapTemplate t
            if c ≠ .ok then (l, { rv := c, handle := some 0 })
            else if w.typ ≠ CKK_AES then (l, { rv := .unwrappingKeyTypeInconsistent, handle := some 0 })
            else if memOk a = false then (l, { rv := .obHostMemory, handle := some 0 })
            else
              let i := decryptInit s.op w m p
              if i.2 ≠ .ok then (l.upd s.handle fun u => { u with op := i.1 }, { rv := i.2, handle := some 0 })
              else
                let r := decrypt e.crypto i.1 (some w) (some d) (.buf 0) 0
                let l := l.upd s.handle fun u => { u with op := r.1, curr := some w.uid }
                if r.2.rv ≠ .ok then (l, { rv := r.2.rv, handle := some 0 })
                else addRsaPrivateM e l s t r.2.wr a.tail
    | _, _, _ => (l, { rv := .argumentsBad })

/-- A call on a session found, with the outcomes `a` of its allocations (the dispatch of
`Model/Api.lean`, e.g. src/crypto.c:734-759). -/
def sessCallM (e : Env) (a : Mem) (l : Lib) (s : Session) : SessCall → Lib × Resp
  | .close => closeSessionM e l s.handle a
  | .login u pin now => loginM e l u pin now a
  | .logout => (logoutM e l a, { rv := .ok })
  | .create t ptr => cCreateM e l s t ptr a
  | .copy o t ptr => cCopyM e l s o t ptr a
  | .setAttr o t => cSetAttrM e l s o t a
  | .findInit t => cFindInitM e l s t a
  | .genKey m t ptr => cGenKeyM e l s m t ptr a
  | .genPair m tp tq ptrs => cGenPairM e l s m tp tq ptrs a
  | .derive m base t ptr => cDeriveM e l s m base t ptr a
  | .cryptInit k m key => cCryptInitM e l s k m key a
  | .crypt c => cCryptM e l s c a
  | .wrap m wk key ob => cWrapM e l s m wk key ob a
  | .unwrap m wk d t ptr => cUnwrapM e l s m wk d t ptr a
  | c => sessCall e l s c

/-- What a call does to a library that is not `bad`, with the outcomes `a` of its
allocations (src/slot.c:721-744 and the functions above). -/
def callBodyM (e : Env) (a : Mem) (l : Lib) : Call → Lib × Resp
  | .slot id (.openSession rw serial ptr) =>
    if l.count ≤ 0 then (l, { rv := .cryptokiNotInitialized })
    else if id ≠ 1 then (l, { rv := .slotIdInvalid })
    else if !serial then (l, { rv := .sessionParallelNotSupported })
    else if !ptr then (l, { rv := .argumentsBad })
    else openSessionM l rw a
  | .sess h c =>
    if l.count ≤ 0 then (l, { rv := .cryptokiNotInitialized })
    else
      match getSession l h with
      | none => (l, { rv := .sessionHandleInvalid })
      | some s => sessCallM e a l s c
  | c => callBody e l c

/-- One API call with the outcomes `a` of its allocations (entry points as for `step`, e.g.
src/crypto.c:734-759). -/
def stepM (e : Env) (a : Mem) (l : Lib) (c : Call) : Lib × Resp :=
  if l.bad then (l, { rv := .ub })
  else
    let r := callBodyM e a l c
    if r.2.rv = .ub then ({ r.1 with bad := true }, r.2) else r

end Verif
