import Verif.Model.Api
import Verif.Model.Lists

/-!
# The rest of the interface

The functions that only tell constants, and those the library offers as entries of the
function table without doing anything: digests, signatures with recovery, two operations
at once, saved operation states, slot events.  With them the machine answers every function
of the table (src/wolfpkcs11.c:29-100) but `C_GetFunctionList` itself, which hands out the
table.
-/

namespace Verif

/-- Two operations at once. -/
inductive Both where
  | digestEncrypt | decryptDigest | signEncrypt | decryptVerify
  deriving DecidableEq, Repr

/-- The other functions with a session handle as first argument.  `data` is the data with its
length (`none`: NULL), a `Bool` says that the pointer is not NULL. -/
inductive RestSess where
  | getOpState (len : Bool)
  | setOpState (ptr : Bool)
  | functionStatus
  | cancel
  | digestInit (mech : Bool)
  | digest (data : Option Bytes) (len : Bool)
  | digestUpdate (data : Option Bytes)
  | digestKey (key : Nat)
  | digestFinal (len : Bool)
  | signRecoverInit (mech : Bool) (key : Nat)
  | signRecover (data : Option Bytes) (len : Bool)
  | verifyRecoverInit (mech : Bool) (key : Nat)
  | verifyRecover (data : Option Bytes) (len : Bool)
  | both (b : Both) (data : Option Bytes) (len : Bool)
  | seed (ptr : Bool)
  deriving DecidableEq, Repr

/-- The other functions.  `count` is `*pulCount` (`none`: `pulCount == NULL`). -/
inductive RestCall where
  | info (ptr : Bool)
  | slotList (present : Nat) (buf : Bool) (count : Option Nat)
  | slotInfo (id : Nat) (ptr : Bool)
  | mechList (id : Nat) (buf : Bool) (count : Option Nat)
  | mechInfo (id : Nat) (m : Mech) (ptr : Bool)
  | waitEvent
  | sess (h : Nat) (c : RestSess)
  deriving DecidableEq, Repr

/-- What they answer: the status, the list written and the new `*pulCount`, the information on
the mechanism, the two digits of the slot description that depend on the slot. -/
structure RestResp where
  rv : RV
  wr : List Nat := []
  count : Option Nat := none
  info : Option MechInfo := none
  digits : Option (Nat × Nat) := none
  deriving DecidableEq, Repr

/-- Data that a call may process: not NULL and not empty. -/
def hasData (d : Option Bytes) : Bool :=
  match d with
  | none => false
  | some d => !d.isEmpty

/-- The answer of a list query as an answer of the rest. -/
def ListOut.resp (o : ListOut) : RestResp := { rv := o.rv, wr := o.wr, count := o.count }

/-- A call on a session found (`WP11_Session_Get` succeeded). -/
def restSess (l : Lib) (s : Session) : RestSess → Lib × RV
  -- `C_GetOperationState` (src/slot.c:837-853)
  | .getOpState len => (l, if !len then .argumentsBad else .stateUnsaveable)
  -- `C_SetOperationState` (src/slot.c:869-889)
  | .setOpState ptr => (l, if !ptr then .argumentsBad else .saveStateInvalid)
  -- `C_GetFunctionStatus` (src/slot.c:991-1000)
  | .functionStatus => (l, .functionNotParallel)
  -- `C_CancelFunction` (src/slot.c:1010-1019)
  | .cancel => (l, .functionNotParallel)
  -- `C_DigestInit` (src/crypto.c:2306-2319)
  | .digestInit mech => (l, if !mech then .argumentsBad else .mechanismInvalid)
  -- `C_Digest` (src/crypto.c:2338-2354)
  | .digest d len => (l, if !hasData d || !len then .argumentsBad else .operationNotInitialized)
  -- `C_DigestUpdate` (src/crypto.c:2369-2382)
  | .digestUpdate d => (l, if !hasData d then .argumentsBad else .operationNotInitialized)
  -- `C_DigestKey` (src/crypto.c:2396-2412)
  | .digestKey k =>
    (l, if (findObj l s k).isNone then .objectHandleInvalid else .operationNotInitialized)
  -- `C_DigestFinal` (src/crypto.c:2429-2444)
  | .digestFinal len => (l, if !len then .argumentsBad else .operationNotInitialized)
  -- `C_SignRecoverInit` (src/crypto.c:2919-2939)
  | .signRecoverInit mech k =>
    (l, if !mech then .argumentsBad
        else if (findObj l s k).isNone then .objectHandleInvalid else .mechanismInvalid)
  -- `C_SignRecover` (src/crypto.c:2958-2974)
  | .signRecover d len =>
    (l, if !hasData d || !len then .argumentsBad else .operationNotInitialized)
  -- `C_VerifyRecoverInit` (src/crypto.c:3392-3412)
  | .verifyRecoverInit mech k =>
    (l, if !mech then .argumentsBad
        else if (findObj l s k).isNone then .objectHandleInvalid else .mechanismInvalid)
  -- `C_VerifyRecover` (src/crypto.c:3432-3448)
  | .verifyRecover d len =>
    (l, if !hasData d || !len then .argumentsBad else .operationNotInitialized)
  -- `C_DigestEncryptUpdate`, `C_DecryptDigestUpdate`, `C_SignEncryptUpdate`,
  -- `C_DecryptVerifyUpdate` (src/crypto.c:3468-3598)
  | .both _ d len =>
    (l, if !hasData d || !len then .argumentsBad else .operationNotInitialized)
  -- `C_SeedRandom` (src/crypto.c:4290-4312) with `WP11_Slot_SeedRandom`
  -- (src/internal.c:8536-8547): the generator is set up anew, its outputs from now on are
  -- others; setting it up does not fail
  | .seed ptr =>
    if !ptr then (l, .argumentsBad) else ({ l with rng := l.rng + 1 }, .ok)

/-- One of these calls (`C_GetInfo` src/wolfpkcs11.c:169-179, `C_GetSlotList` src/slot.c:45-62,
`C_GetSlotInfo` src/slot.c:86-101, `C_GetMechanismList` src/slot.c:293-317,
`C_GetMechanismInfo` src/slot.c:436-539, `C_WaitForSlotEvent` src/slot.c:1030-1041;
`WP11_SlotIdValid` src/internal.c:3527-3530). -/
def restBody (l : Lib) (c : RestCall) : Lib × RestResp :=
  if l.count ≤ 0 then (l, { rv := .cryptokiNotInitialized })
  else
    match c with
    | .info ptr => (l, { rv := if !ptr then .argumentsBad else .ok })
    | .slotList present buf count =>
      if present ≠ 0 ∧ present ≠ 1 then (l, { rv := .argumentsBad })
      else
        match count with
        | none => (l, { rv := .argumentsBad })
        | some n => (l, (getSlotList buf n).resp)
    | .slotInfo id ptr =>
      if id ≠ 1 then (l, { rv := .slotIdInvalid })
      else if !ptr then (l, { rv := .argumentsBad })
      else (l, { rv := .ok, digits := some (id / 10 % 10, id % 10) })
    | .mechList id buf count =>
      if id ≠ 1 then (l, { rv := .slotIdInvalid })
      else
        match count with
        | none => (l, { rv := .argumentsBad })
        | some n => (l, (getMechanismList buf n).resp)
    | .mechInfo id m ptr =>
      if id ≠ 1 then (l, { rv := .slotIdInvalid })
      else if !ptr then (l, { rv := .argumentsBad })
      else
        match getMechanismInfo m with
        | none => (l, { rv := .mechanismInvalid })
        | some i => (l, { rv := .ok, info := some i })
    | .waitEvent => (l, { rv := .functionNotSupported })
    | .sess h c =>
      match getSession l h with
      | none => (l, { rv := .sessionHandleInvalid })
      | some s =>
        let r := restSess l s c
        (r.1, { rv := r.2 })

/-- One of these calls in a library that has not misbehaved yet. -/
def restStep (l : Lib) (c : RestCall) : Lib × RestResp :=
  if l.bad then (l, { rv := .ub }) else restBody l c

/-- A call of any function. -/
inductive AnyCall where
  | main (c : Call)
  | rest (c : RestCall)

/-- Its answer. -/
inductive AnyResp where
  | main (r : Resp)
  | rest (r : RestResp)
  deriving DecidableEq

/-- The status in an answer. -/
def AnyResp.rv : AnyResp → RV
  | .main r => r.rv
  | .rest r => r.rv

/-- One call of any function. -/
def anyStep (e : Env) (l : Lib) : AnyCall → Lib × AnyResp
  | .main c => let r := step e l c; (r.1, .main r.2)
  | .rest c => let r := restStep l c; (r.1, .rest r.2)

/-- The library after a sequence of calls of any functions. -/
def anyRun (e : Env) (l : Lib) : List AnyCall → Lib
  | [] => l
  | c :: cs => anyRun e (anyStep e l c).1 cs

/-- The answers to a sequence of calls of any functions. -/
def anyAnswers (e : Env) (l : Lib) : List AnyCall → List AnyResp
  | [] => []
  | c :: cs => (anyStep e l c).2 :: anyAnswers e (anyStep e l c).1 cs

end Verif
