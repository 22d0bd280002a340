import Verif.Model.Api

/-!
# Storing when the file system fails

The functions that write files, with failures of `fopen`, `fwrite` and `fflush`.  Each
function of this file is the one of `Model/Store.lean` or `Model/Api.lean` with the same name
and with the failures in addition; `stepF_none` says that without failures they agree.
-/

namespace Verif

/-- What happens to a file that is opened for writing (`wolfPKCS11_Store_Open`,
src/internal.c:707-863, `wolfPKCS11_Store_Write`, 943-975, `wp11_storage_write`, 1051-1075):
all goes well; it cannot be opened; writing it fails, with `b` in it; or writing it seems to go
well, as the results of `fflush` and `fclose` are not looked at (969, 889), but `b` is in it. -/
inductive Fault where
  | none
  | refuse
  | short (b : Bytes)
  | lost (b : Bytes)
  deriving DecidableEq, Repr

/-- Write a file: the directory and whether the library sees success. -/
def Disk.write (d : Disk) (w : Write) : Fault → Disk × Bool
  | .none => (d.put w, true)
  | .refuse => (d, false)
  | .short b => (d.put (w.1, b), false)
  | .lost b => (d.put (w.1, b), true)

/-- What happens to the file opened next; the failures are used up in order. -/
def nextFault (f : List Fault) : Fault := f.headD .none

/-- Result of storing with failures: the directory, the failures left, what was stored as it
is afterwards, the random generator and whether the library sees success. -/
structure FStore (α : Type) where
  disk : Disk
  left : List Fault
  val : α
  rng : Nat
  ok : Bool

/-- `wp11_Object_Store` (src/internal.c:2689-2794): the object's file; the new IV; and the key's
file, which is opened before the key is encoded. -/
def storeObjF (e : StoreExt) (key : Bytes) (rng : Nat) (o : Obj) (i : Nat) (f : List Fault) (d : Disk) : FStore Obj :=
  let a := d.write ((.object, i), wrObject o) (nextFault f)
  if !a.2 then ⟨a.1, f.tail, o, rng, false⟩
  else
    let r := storeObj e key rng o i
    match r.wr.tail with
    | [] => ⟨a.1, f.tail, r.obj, r.rng, r.ok⟩
    | w :: _ =>
      if nextFault f.tail = .refuse then
        ⟨a.1, f.tail.tail, if needsIv o then { o with iv := e.rand rng 12 } else o, r.rng, false⟩
      else
        let b := a.1.write w (nextFault f.tail)
        ⟨b.1, f.tail.tail, r.obj, r.rng, r.ok && b.2⟩

/-- The loop storing the objects (src/internal.c:3234-3239). -/
def storeObjsF (e : StoreExt) (key : Bytes) : Nat → List Obj → List Fault → Disk → FStore (List Obj)
  | rng, [], f, d => ⟨d, f, [], rng, true⟩
  | rng, o :: os, f, d =>
    let r := storeObjF e key rng o os.length f d
    if r.ok then
      let s := storeObjsF e key r.rng os r.left r.disk
      ⟨s.disk, s.left, r.val :: s.val, s.rng, s.ok⟩
    else ⟨r.disk, r.left, r.val :: os, r.rng, false⟩

namespace Lib

/-- `wp11_Token_Store` (src/internal.c:3157-3245) and `wp11_Slot_Store` (3429-3432). -/
def storeF (e : Env) (f : List Fault) (l : Lib) : Lib × Bool :=
  let a := l.disk.write ((.token, 0), wrToken l.token.toRec) (nextFault f)
  if !a.2 then ({ l with disk := a.1 }, false)
  else
    let r := storeObjsF e.store l.token.key l.rng l.token.objs f.tail a.1
    ({ l with token := { l.token with objs := r.val }, rng := r.rng, disk := r.disk }, r.ok)

/-- The failures that are left after storing the token: one is used up by each file
(src/internal.c:3157-3245). -/
def storeLeft (e : Env) (f : List Fault) (l : Lib) : List Fault :=
  let a := l.disk.write ((.token, 0), wrToken l.token.toRec) (nextFault f)
  if !a.2 then f.tail else (storeObjsF e.store l.token.key l.rng l.token.objs f.tail a.1).left

end Lib

/-- `WP11_Slot_SetSOPin` (src/internal.c:4073-4102). -/
def setSoPinF (e : Env) (f : List Fault) (l : Lib) (pin : Bytes) : Lib × Bool :=
  let seed := e.store.rand l.rng 16
  let so := { l.token.so with pin := e.store.hash pin seed, seed }
  Lib.storeF e f { l with rng := l.rng + 1, token := { l.token with so } }

/-- `WP11_Slot_SetUserPin` (src/internal.c:4114-4155). -/
def setUserPinF (e : Env) (f : List Fault) (l : Lib) (pin : Bytes) : Lib × Bool :=
  let seed := e.store.rand l.rng 16
  let kseed := e.store.rand (l.rng + 1) 16
  let user := { l.token.user with pin := e.store.hash pin seed, seed }
  let key := e.store.hash pin kseed
  Lib.storeF e f { l with rng := l.rng + 2, token := { l.token with user, seed := kseed, key } }

/-- `C_InitToken` (src/slot.c:557-587) with `WP11_Slot_TokenReset` (src/internal.c:3779-3795). -/
def initTokenF (e : Env) (f : List Fault) (l : Lib) (pin label : Option Bytes) : Lib × Resp :=
  match pin, label with
  | some pin, some label =>
    if !pinLenOk pin then (l, { rv := .pinIncorrect })
    else if l.token.init && anyInUse l.sessions then (l, { rv := .sessionExists })
    else if l.token.init && checkPin e l.token l.token.so pin != .ok then (l, { rv := .pinIncorrect })
    else pinSet (setSoPinF e f { l with token := { label := labelOf label, init := true } } pin)
  | _, _ => (l, { rv := .argumentsBad })

/-- `C_InitPIN` (src/slot.c:602-627). -/
def initPinF (e : Env) (f : List Fault) (l : Lib) (s : Session) (pin : Option Bytes) : Lib × Resp :=
  match pin with
  | none => (l, { rv := .argumentsBad })
  | some pin =>
    if sessState l s ≠ .rwSo then (l, { rv := .userNotLoggedIn })
    else if !pinLenOk pin then (l, { rv := .pinIncorrect })
    else pinSet (setUserPinF e f l pin)

/-- `C_SetPIN` (src/slot.c:647-699). -/
def setPinF (e : Env) (f : List Fault) (l : Lib) (s : Session) (old new : Option Bytes) : Lib × Resp :=
  match old, new with
  | some old, some new =>
    if !pinLenOk old then (l, { rv := .pinIncorrect })
    else if !pinLenOk new then (l, { rv := .pinIncorrect })
    else
      match sessState l s with
      | .rwSo =>
        match checkPin e l.token l.token.so old with
        | .notSet => (l, { rv := .userPinNotInitialized })
        | .invalid => (l, { rv := .pinIncorrect })
        | .ok => pinSet (setSoPinF e f l new)
      | .rwUser | .rwPublic =>
        match checkPin e l.token l.token.user old with
        | .notSet => (l, { rv := .userPinNotInitialized })
        | .invalid => (l, { rv := .pinIncorrect })
        | .ok => pinSet (setUserPinF e f l new)
      | _ => (l, { rv := .sessionReadOnly })
  | _, _ => (l, { rv := .argumentsBad })

/-- `WP11_Session_AddObject` (src/internal.c:4639-4697): the result of storing the token is
not looked at (4674).  With the failures that are left. -/
def sessAddObjectF (e : Env) (f : List Fault) (l : Lib) (s : Session) (on : Nat) (o : Obj) :
    (Lib × Option Nat) × List Fault :=
  let o := { o with onToken := decide (on % 2 = 1), uid := l.uid }
  if on ≠ 0 then
    if l.token.objs.length ≥ tokenObjMax then ((l, none), f)
    else
      let r := encodeObj e.store l.token.key false o
      if r.1 then
        let h := nextHandle l.token.objs on
        let o := { r.2 with handle := h }
        let l := { l with uid := l.uid + 1, token := { l.token with objs := o :: l.token.objs } }
        (((Lib.storeF e f l).1, some h), Lib.storeLeft e f l)
      else ((l, none), f)
  else
    if s.objs.length ≥ sessObjMax then ((l, none), f)
    else
      let h := nextHandle s.objs on
      (({ l with uid := l.uid + 1 }.upd s.handle fun t => { t with objs := { o with handle := h } :: t.objs },
        some h), f)

/-- The answer of `AddObject` (src/crypto.c:517-523). -/
def addedF (r : Lib × Option Nat) : Lib × Resp :=
  match r with
  | (l, none) => (l, { rv := .functionFailed })
  | (l, some h) => (l, { rv := .ok, handle := some h })

/-- `AddObject` (src/crypto.c:499-524), with the failures that are left. -/
def addObjectF (e : Env) (f : List Fault) (l : Lib) (s : Session) (t : List Entry) (o : Obj) :
    (Lib × Resp) × List Fault :=
  match tokenByte t 0 with
  | .error rv => ((l, { rv }), f)
  | .ok on =>
    let r := sessAddObjectF e f l s on o
    (addedF r.1, r.2)

/-- `C_CreateObject` (src/crypto.c:734-759). -/
def cCreateF (e : Env) (f : List Fault) (l : Lib) (s : Session) (t : Option (List Entry)) (ptr : Bool) : Lib × Resp :=
  match t with
  | none => (l, { rv := .argumentsBad })
  | some t =>
    if !ptr then (l, { rv := .argumentsBad })
    else if s.use ≠ .rw then (l, { rv := .sessionReadOnly })
    else
      match createObject e s t with
      | (.ok, o) => (addObjectF e f l s t o).1
      | (rv, _) => (l, { rv })

/-- `C_CopyObject` (src/crypto.c:783-850). -/
def cCopyF (e : Env) (f : List Fault) (l : Lib) (s : Session) (h : Nat) (t : Option (List Entry)) (ptr : Bool) : Lib × Resp :=
  match t with
  | none => (l, { rv := .argumentsBad })
  | some t =>
    if !ptr then (l, { rv := .argumentsBad })
    else if s.use ≠ .rw then (l, { rv := .sessionReadOnly })
    else
      match findObj l s h with
      | none => (l, { rv := .objectHandleInvalid })
      | some o =>
        match tokenByte t 0 with
        | .error rv => (l, { rv })
        | .ok on =>
          let g := getAttributeValue e.key o t
          if g.1 ≠ .ok then (l, { rv := g.1, tmpl := some g.2 })
          else
            let n := setAttributeValue e.key true (newObj 0 o.typ) g.2
            if n.1 ≠ .ok then (l, { rv := n.1, tmpl := some g.2 })
            else
              let r := addedF (sessAddObjectF e f l s on n.2).1
              (r.1, { r.2 with tmpl := some g.2 })

/-- `C_GenerateKey` (src/crypto.c:3621-3671). -/
def cGenKeyF (e : Env) (f : List Fault) (l : Lib) (s : Session) (m : Option (Mech × MechParam)) (t : Option (List Entry))
    (ptr : Bool) : Lib × Resp :=
  match m, t with
  | some (m, p), some t =>
    if !ptr then (l, { rv := .argumentsBad })
    else if m ≠ .aesKeyGen then (l, { rv := .mechanismInvalid })
    else if !p.isNone then (l, { rv := .mechanismParamInvalid })
    else
      match newObject e s CKK_AES CKO_SECRET_KEY t with
      | (.ok, o) =>
        (addObjectF e f { l with rng := l.rng + 1 } s t
          { o with data := .symm (e.store.rand l.rng o.symm.length) }).1
      | (rv, _) => (l, { rv })
  | _, _ => (l, { rv := .argumentsBad })

/-- Adding the two keys of a pair (src/crypto.c:3808-3840): the second one meets the failures
that the first one has left. -/
def addPairF (e : Env) (f : List Fault) (l : Lib) (s : Session) (tp tq : List Entry) (pub priv : Obj) : Lib × Resp :=
  let a := addObjectF e f l s tp pub
  if a.1.2.rv ≠ .ok then (a.1.1, { rv := a.1.2.rv, handle := some 0, priv := some 0 })
  else
    match a.1.1.sessions.find? fun t => t.handle == s.handle with
    | none => (a.1.1, { rv := .ub })
    | some s1 =>
      let b := (addObjectF e a.2 a.1.1 s1 tq priv).1
      if b.2.rv ≠ .ok then ({ b.1 with bad := true }, { rv := b.2.rv, handle := a.1.2.handle, priv := some 0 })
      else (b.1, { rv := .ok, handle := a.1.2.handle, priv := b.2.handle })

/-- `C_GenerateKeyPair` (src/crypto.c:3704-3842). -/
def cGenPairF (e : Env) (f : List Fault) (l : Lib) (s : Session) (m : Option (Mech × MechParam))
    (tp tq : Option (List Entry)) (ptrs : Bool) : Lib × Resp :=
  match m, tp, tq with
  | some (m, p), some tp, some tq =>
    if !ptrs then (l, { rv := .argumentsBad })
    else
      match pairGen e l.rng m with
      | none => (l, { rv := .mechanismInvalid })
      | some (typ, gen) =>
        if !p.isNone then (l, { rv := .mechanismParamInvalid })
        else
          match newObject e s typ CKO_PUBLIC_KEY tp with
          | (.ok, pub) =>
            match newObject e s typ CKO_PRIVATE_KEY tq with
            | (.ok, priv) =>
              match gen pub priv with
              | (.ok, pub, priv) => addPairF e f { l with rng := l.rng + 1 } s tp tq pub priv
              | (.ub, _, _) => (l, { rv := .ub })
              | _ => ({ l with rng := l.rng + 1 },
                  { rv := .functionFailed, handle := some 0, priv := some 0 })
            | (rv, _) => (l, { rv, handle := some 0, priv := some 0 })
          | (rv, _) => (l, { rv, handle := some 0, priv := some 0 })
  | _, _, _ => (l, { rv := .argumentsBad })

/-- `AddRSAPrivateKeyObject` (src/crypto.c:547-642). -/
def addRsaPrivateF (e : Env) (f : List Fault) (l : Lib) (s : Session) (t : List Entry) (der : Bytes) : Lib × Resp :=
  match newObject e s CKK_RSA CKO_PRIVATE_KEY t with
  | (.ok, o) =>
    match e.parsePriv der with
    | none => (l, { rv := .wrappedKeyInvalid, handle := some 0 })
    | some k =>
      let r := (addObjectF e f l s t { o with data := .rsa k }).1
      (r.1, { r.2 with handle := some (r.2.handle.getD 0) })
  | (rv, _) => (l, { rv, handle := some 0 })

/-- `C_UnwrapKey` (src/crypto.c:3987-4103). -/
def cUnwrapF (e : Env) (f : List Fault) (l : Lib) (s : Session) (m : Option (Mech × MechParam)) (wk : Nat)
    (data : Option Bytes) (t : Option (List Entry)) (ptr : Bool) : Lib × Resp :=
  if s.use ≠ .rw then (l, { rv := .sessionReadOnly })
  else
    match m, data, t with
    | some (m, p), some d, some t =>
      if d = [] ∨ !ptr then (l, { rv := .argumentsBad })
      else
        match findObj l s wk with
        | none => (l, { rv := .unwrappingKeyHandleInvalid, handle := some 0 })
        | some w =>
          if m ≠ .aesCbcPad then (l, { rv := .mechanismInvalid, handle := some 0 })
          else
            let c := unwrapTemplate t
            if c ≠ .ok then (l, { rv := c, handle := some 0 })
            else if w.typ ≠ CKK_AES then (l, { rv := .unwrappingKeyTypeInconsistent, handle := some 0 })
            else
              let i := decryptInit s.op w m p
              if i.2 ≠ .ok then (l.upd s.handle fun u => { u with op := i.1 }, { rv := i.2, handle := some 0 })
              else
                let r := decrypt e.crypto i.1 (some w) (some d) (.buf 0) 0
                let l := l.upd s.handle fun u => { u with op := r.1, curr := some w.uid }
                if r.2.rv ≠ .ok then (l, { rv := r.2.rv, handle := some 0 })
                else addRsaPrivateF e f l s t r.2.wr
    | _, _, _ => (l, { rv := .argumentsBad })

/-- `C_DeriveKey` (src/crypto.c:4163-4275). -/
def cDeriveF (e : Env) (f : List Fault) (l : Lib) (s : Session) (m : Option DeriveMech) (base : Nat)
    (t : Option (List Entry)) (ptr : Bool) : Lib × Resp :=
  match m, t with
  | some m, some t =>
    if !ptr then (l, { rv := .argumentsBad })
    else
      match findObj l s base with
      | none => (l, { rv := .objectHandleInvalid })
      | some b =>
        match deriveSecret e b m with
        | .error rv => (l, { rv })
        | .ok sec =>
          match createObject e s t with
          | (.ok, o) =>
            let d := deriveTail e.key o sec
            match d.obj with
            | none => (l, { rv := d.rv })
            | some o => (addObjectF e f l s t o).1
          | (rv, _) => (l, { rv })
  | _, _ => (l, { rv := .argumentsBad })

/-- Empty files; the results of opening them are not looked at (`wp11_Object_Unstore`,
src/internal.c:2920-2970). -/
def emptyF (d : Disk) : List Write → List Fault → Disk × List Fault
  | [], f => (d, f)
  | w :: ws, f => emptyF (d.write w (nextFault f)).1 ws f.tail

/-- `WP11_Session_RemoveObject` (src/internal.c:4705-4743): the result of storing the token
is not looked at (4739). -/
def removeTokenF (e : Env) (f : List Fault) (l : Lib) (o : Obj) : Lib :=
  let os := l.token.objs.filter fun p => p.uid != o.uid
  let id := (l.token.objs.dropWhile fun p => p.uid != o.uid).length - 1
  let d := emptyF l.disk (unstore o id) f
  (Lib.storeF e d.2 { l with token := { l.token with objs := os }, disk := d.1 }).1

/-- `C_DestroyObject` (src/crypto.c:863-888). -/
def cDestroyF (e : Env) (f : List Fault) (l : Lib) (s : Session) (h : Nat) : Lib × Resp :=
  if s.use ≠ .rw then (l, { rv := .sessionReadOnly })
  else
    match findObj l s h with
    | none => (l, { rv := .objectHandleInvalid })
    | some o =>
      if handleOnToken h then
        if o.onToken then (removeTokenF e f l o, { rv := .ok })
        else ({ l with bad := true }, { rv := .ok })
      else
        (l.upd s.handle fun t => { t with objs := t.objs.filter fun p => p.uid != o.uid }, { rv := .ok })

/-- `C_Finalize` (src/wolfpkcs11.c:143-150, src/internal.c:3474-3498): the result of storing is
not looked at (3486). -/
def cFinalizeF (e : Env) (f : List Fault) (l : Lib) : Lib × Resp :=
  let l := { l with count := l.count - 1 }
  (if l.count = 0 then { (Lib.storeF e f l).1 with sessions := [], token := {} } else l, { rv := .ok })

/-- What a call does to a library that is not `bad`, while the failures `f` happen: the calls
that write files are those above (src/internal.c:3474-3498, 3779-3795, 4073-4155, 4639-4743). -/
def callBodyF (e : Env) (f : List Fault) (l : Lib) : Call → Lib × Resp
  | .cFinal => cFinalizeF e f l
  | .slot id (.initToken pin label) =>
    if l.count ≤ 0 then (l, { rv := .cryptokiNotInitialized })
    else if id ≠ 1 then (l, { rv := .slotIdInvalid })
    else initTokenF e f l pin label
  | .sess h c =>
    if l.count ≤ 0 then (l, { rv := .cryptokiNotInitialized })
    else
      match getSession l h with
      | none => (l, { rv := .sessionHandleInvalid })
      | some s =>
        match c with
        | .initPin pin => initPinF e f l s pin
        | .setPin old new => setPinF e f l s old new
        | .create t ptr => cCreateF e f l s t ptr
        | .copy k t ptr => cCopyF e f l s k t ptr
        | .genKey m t ptr => cGenKeyF e f l s m t ptr
        | .genPair m tp tq ptrs => cGenPairF e f l s m tp tq ptrs
        | .unwrap m wk d t ptr => cUnwrapF e f l s m wk d t ptr
        | .derive m b t ptr => cDeriveF e f l s m b t ptr
        | .destroy k => cDestroyF e f l s k
        | c => sessCall e l s c
  | c => callBody e l c

/-- One API call while the failures `f` happen. -/
def stepF (e : Env) (f : List Fault) (l : Lib) (c : Call) : Lib × Resp :=
  if l.bad then (l, { rv := .ub })
  else
    let r := callBodyF e f l c
    if r.2.rv = .ub then ({ r.1 with bad := true }, r.2) else r

end Verif
