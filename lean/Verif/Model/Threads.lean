import Verif.Spec.Lock

/-!
# Calls of several threads, as sequences of lock operations and accesses

What every function of src/internal.c that takes a lock does with the locks of
the library, in program order, and which shared data it reads and writes between
two lock operations.  `n` threads each run a finite sequence of calls of the
PKCS#11 interface; their steps interleave in every way.

The library has one slot (src/internal.c:349-351), so there are four locks:
`globalLock`, the lock of the slot, the lock of the token and the lock of the
token's random generator.

Simplifications:
* The values read and written are not modelled here: every branch on data is a
  free choice (`opt`) and every loop may run any number of times (`star`), so the
  model has all the runs of the code and more.
* `C_Initialize`, `C_Finalize` and `C_InitToken` create and destroy the locks; they
  are left out.  So are the data only they write: `libraryInitCount`, the token's
  label and its state.
* The type and class of an object are fixed before the object can be found by
  another thread; reading them is not an access.
* An object that is not yet added to the token, a session object and the fields of
  a session other than its place in the list of sessions and its use flag belong to
  the thread that uses the session; accesses to them are left out, and so is
  `WP11_Session_IsRW` (src/internal.c:4338-4341), which reads the use flag of the
  caller's own session.
* Lock operations do not fail, and the code between them ends.
-/

namespace Verif.Threads

/-- The locks.  src/internal.c:340 (`globalLock`), wolfpkcs11 structures `WP11_Slot`
(`lock`) and `WP11_Token` (`lock`, `rngLock`). -/
inductive LockId where
  | glob
  | slot
  | token
  | rng
deriving DecidableEq, Repr

/-- The data threads share. -/
inductive Loc where
  /-- the state of the token's random generator (`token.rng`) -/
  | rng
  /-- the list of sessions and their use flags (`slot->session`, `next`, `inUse`) -/
  | sessions
  /-- who is logged in (`token.loginState`) -/
  | login
  /-- the failure counters and times of both accounts (`token.soFailedLogin`, …) -/
  | fails
  /-- hash, length and seed of a PIN: of the security officer (`true`) or the user -/
  | pin (so : Bool)
  /-- the storage key and its seed (`token.key`, `token.seed`) -/
  | tokenKey
  /-- the list of token objects and its length (`token.object`, `next`, `objCnt`) -/
  | objects
  /-- the attributes and the key of one token object -/
  | obj (o : Nat)
  /-- the files of the token -/
  | store
deriving DecidableEq, Repr

/-- The four lock functions of src/internal.c:406-491. -/
inductive Kind where
  | lockRW
  | unlockRW
  | lockRO
  | unlockRO
deriving DecidableEq, Repr

/-- What a thread does next. -/
inductive Act where
  | lk (k : Kind) (l : LockId)
  | read (x : Loc)
  | write (x : Loc)
deriving DecidableEq, Repr

/-! ## One step of the lock functions -/

/-- The next atomic step of thread `t` inside the lock function `k`, or `none` if it
has to wait (or has no business calling `k`).  src/internal.c:406-491. -/
def attempt {n : Nat} (k : Kind) (s : Lock.State n) (t : Fin n) : Option (Lock.State n) :=
  match k, s.pc t with
  -- WP11_Lock_LockRW, src/internal.c:406-416
  | .lockRW, .rest 0 => some (s.goto t .wantW)
  | .lockRW, .wantW =>
      if s.writeHeld then none else some (({ s with writeHeld := true } : Lock.State n).goto t .critW)
  -- WP11_Lock_UnlockRW, src/internal.c:425-437
  | .unlockRW, .critW => some (({ s with writeHeld := false } : Lock.State n).goto t (.rest 0))
  -- WP11_Lock_LockRO, src/internal.c:446-464
  | .lockRO, .rest d => some (s.goto t (.wantR d))
  | .lockRO, .wantR d =>
      if s.readOwner = none then
        some (({ s with readOwner := some t } : Lock.State n).goto t (.r1 d)) else none
  | .lockRO, .r1 d =>
      some (({ s with cnt := s.cnt + 1 } : Lock.State n).goto t
        (if s.cnt + 1 = 1 then .r2 d else .r3 d))
  | .lockRO, .r2 d =>
      if s.writeHeld then none
      else some (({ s with writeHeld := true } : Lock.State n).goto t (.r3 d))
  | .lockRO, .r3 d =>
      some (({ s with readOwner := none } : Lock.State n).goto t (.rest (d + 1)))
  -- WP11_Lock_UnlockRO, src/internal.c:473-491
  | .unlockRO, .rest (d + 1) => some (s.goto t (.u0 d))
  | .unlockRO, .u0 d =>
      if s.readOwner = none then
        some (({ s with readOwner := some t } : Lock.State n).goto t (.u1 d)) else none
  | .unlockRO, .u1 d =>
      if s.cnt - 1 = 0 then
        some (({ s with cnt := s.cnt - 1, writeHeld := false } : Lock.State n).goto t (.u2 d))
      else some (({ s with cnt := s.cnt - 1 } : Lock.State n).goto t (.u2 d))
  | .unlockRO, .u2 d =>
      some (({ s with readOwner := none } : Lock.State n).goto t (.rest d))
  | _, _ => none

/-- Whether a thread is outside the lock functions.  src/internal.c:406-491. -/
def settled : Lock.PC → Bool
  | .rest _ => true
  | .critW => true
  | _ => false

/-! ## The threads -/

/-- The locks, and what each thread still has to do. -/
structure Sys (n : Nat) where
  lk : LockId → Lock.State n
  todo : Fin n → List Act

/-- The next step of thread `t`, if it has one.  A lock function takes several
steps and is left (the next action begins) when it returns. -/
def Sys.step {n : Nat} (S : Sys n) (t : Fin n) : Option (Sys n) :=
  match S.todo t with
  | [] => none
  | .read _ :: as => some { S with todo := Function.update S.todo t as }
  | .write _ :: as => some { S with todo := Function.update S.todo t as }
  | .lk k l :: as =>
      (attempt k (S.lk l) t).map fun s =>
        { lk := Function.update S.lk l s,
          todo := if settled (s.pc t) then Function.update S.todo t as else S.todo }

/-- A schedule: the threads that take a step, in order.  `none` if one of them
cannot step when it is its turn. -/
def Sys.run {n : Nat} (S : Sys n) : List (Fin n) → Option (Sys n)
  | [] => some S
  | t :: ts => (S.step t).bind fun S' => S'.run ts

/-! ## Programs -/

/-- The shape of a function: its actions in order, with branches and loops. -/
inductive Prog where
  | skip
  | act (a : Act)
  | seq (p q : Prog)
  /-- a branch -/
  | alt (p q : Prog)
  /-- a loop -/
  | star (p : Prog)
  /-- an object of the code's choosing -/
  | any (f : Nat → Prog)

/-- The sequences of actions a program can perform. -/
inductive Prog.Runs : Prog → List Act → Prop
  | skip : Runs .skip []
  | act (a) : Runs (.act a) [a]
  | seq {p q xs ys} : Runs p xs → Runs q ys → Runs (.seq p q) (xs ++ ys)
  | altLeft {p q xs} : Runs p xs → Runs (.alt p q) xs
  | altRight {p q xs} : Runs q xs → Runs (.alt p q) xs
  | starNone {p} : Runs (.star p) []
  | starMore {p xs ys} : Runs p xs → Runs (.star p) ys → Runs (.star p) (xs ++ ys)
  | any {f o xs} : Runs (f o) xs → Runs (.any f) xs

/-- A branch that may be left out. -/
abbrev Prog.opt (p : Prog) : Prog := .alt .skip p

/-- One program after another. -/
def seqs : List Prog → Prog
  | [] => .skip
  | p :: ps => .seq p (seqs ps)

/-- A lock function is called. -/
abbrev lock (k : Kind) (l : LockId) : Prog := .act (.lk k l)
/-- Shared data is read. -/
abbrev rd (x : Loc) : Prog := .act (.read x)
/-- Shared data is written. -/
abbrev wr (x : Loc) : Prog := .act (.write x)
/-- A section under the lock taken for reading. -/
def ro (l : LockId) (ps : List Prog) : Prog :=
  seqs [lock .lockRO l, seqs ps, lock .unlockRO l]
/-- A section under the lock taken for writing. -/
def rw (l : LockId) (ps : List Prog) : Prog :=
  seqs [lock .lockRW l, seqs ps, lock .unlockRW l]
/-- `if (object->onToken) lock … unlock`, reading the object; nothing for a session
object. -/
def roObj (ps : Nat → List Prog) : Prog := .opt (.any fun o => ro .token (ps o))
/-- The same, writing. -/
def rwObj (ps : Nat → List Prog) : Prog := .opt (.any fun o => rw .token (ps o))

/-! ## The functions of src/internal.c that use the locks -/

/-- `Rng_New` (src/internal.c:494-508): a seed is drawn under the lock. -/
def rngNew : Prog := rw .rng [wr .rng]

/-- `wp11_Token_Store` (src/internal.c:3157-3245), called by `wp11_Slot_Store`
(3429-3432): the token file and the files of the objects, whose keys are encoded on
the way (1883-1908, 2077-2103, 2382-2436, 2534-2554). -/
def tokenStore : Prog :=
  seqs [wr .store, rd (.pin true), rd .fails, rd (.pin false), rd .tokenKey, rd .objects,
    .star (seqs [rd .objects, .any fun o => seqs [wr .store, rd .tokenKey, wr (.obj o)]])]

/-- `WP11_Library_IsInitialized` (src/internal.c:3503-3516). -/
def isInitialized : Prog := .opt (ro .glob [])

/-- `WP11_Slot_GetTokenLabel` (src/internal.c:4193-4205). -/
def getTokenLabel : Prog := ro .slot []

/-- `WP11_Slot_IsTokenInitialized` (src/internal.c:4214-4223). -/
def isTokenInitialized : Prog := ro .slot []

/-- `WP11_Slot_IsTokenUserPinInitialized` (src/internal.c:4265-4268): no lock. -/
def isUserPinInitialized : Prog := rd (.pin false)

/-- `WP11_Slot_TokenFailedLogin` (src/internal.c:4232-4238): no lock. -/
def failedLogin : Prog := rd .fails

/-- `WP11_Slot_TokenFailedExpire` (src/internal.c:4248-4256): no lock. -/
def failedExpire : Prog := rd .fails

/-- `WP11_Slot_OpenSession` (src/internal.c:3596-3644). -/
def openSession : Prog :=
  rw .slot [.opt (rd .login), .opt (seqs [rd .sessions, .opt (wr .sessions)])]

/-- `WP11_Slot_Logout` (src/internal.c:4162-4184): the keys of the token objects are
encoded (2857-2912) under the lock of the slot. -/
def logout : Prog :=
  rw .slot [rd .login,
    .opt (seqs [rd .objects,
      .star (seqs [.any fun o => seqs [rd .tokenKey, wr (.obj o)], rd .objects])]),
    wr .login]

/-- `WP11_Slot_CloseSession` (src/internal.c:3652-3681) with `wp11_Slot_FreeSession`
(3253-3275) and `wp11_Session_Final` (580-650); the objects removed there are session
objects. -/
def closeSession : Prog :=
  seqs [rw .slot [rd .sessions, wr .sessions], ro .slot [rd .sessions], .opt logout]

/-- `WP11_Slot_CloseSessions` (src/internal.c:3688-3702): the sessions above the
minimum are unlinked and freed before the lock is taken. -/
def closeSessions : Prog :=
  seqs [rd .sessions, .star (seqs [rd .sessions, wr .sessions]),
    rw .slot [rd .sessions, wr .sessions]]

/-- `WP11_Slot_CheckSOPin` (src/internal.c:3808-3832): the seed is read while the lock
is not held. -/
def checkSoPin : Prog :=
  seqs [lock .lockRO .slot, rd (.pin true),
    .opt (seqs [lock .unlockRO .slot, rd (.pin true), lock .lockRO .slot]),
    .opt (rd (.pin true)), lock .unlockRO .slot]

/-- `WP11_Slot_CheckUserPin` (src/internal.c:3845-3870). -/
def checkUserPin : Prog :=
  seqs [lock .lockRO .slot, rd (.pin false),
    .opt (seqs [lock .unlockRO .slot, rd (.pin false), lock .lockRO .slot]),
    .opt (rd (.pin false)), lock .unlockRO .slot]

/-- `WP11_Slot_SOLogin` (src/internal.c:3884-3960): line 3915 clears the counter under
the lock taken for reading. -/
def soLogin : Prog :=
  seqs [ro .slot [.opt (rd .login), .opt (seqs [rd .fails, .opt (wr .fails)]), .opt (rd .sessions)],
    .opt (seqs [checkSoPin, rw .slot [.opt (wr .fails)]]),
    .opt (rw .slot [wr .login])]

/-- `WP11_Slot_UserLogin` (src/internal.c:3974-4061): the storage key is derived
(4016-4019) without a lock; the token objects are decoded (2806-2846) under the lock of
the slot. -/
def userLogin : Prog :=
  seqs [rw .slot [.opt (rd .login), .opt (seqs [rd .fails, .opt (wr .fails)])],
    .opt (seqs [checkUserPin, .opt (seqs [rd .tokenKey, wr .tokenKey]),
      rw .slot [.opt (wr .fails),
        .opt (seqs [rd .objects,
          .star (seqs [.any fun o => seqs [rd .tokenKey, wr (.obj o)], rd .objects])])]]),
    .opt (rw .slot [wr .login])]

/-- `WP11_Slot_SetSOPin` (src/internal.c:4073-4102): the PIN is hashed into place while
the lock is not held. -/
def setSoPin : Prog :=
  seqs [lock .lockRW .slot, rw .rng [wr .rng, wr (.pin true)],
    .opt (seqs [lock .unlockRW .slot, rd (.pin true), wr (.pin true), lock .lockRW .slot]),
    .opt (seqs [wr (.pin true), tokenStore]), lock .unlockRW .slot]

/-- `WP11_Slot_SetUserPin` (src/internal.c:4114-4155). -/
def setUserPin : Prog :=
  seqs [lock .lockRW .slot, rw .rng [wr .rng, wr (.pin false), .opt (wr .tokenKey)],
    .opt (seqs [lock .unlockRW .slot, rd (.pin false), wr (.pin false),
      .opt (seqs [rd .tokenKey, wr .tokenKey]), lock .lockRW .slot]),
    .opt (seqs [wr (.pin false), tokenStore]), lock .unlockRW .slot]

/-- `WP11_Session_Get` (src/internal.c:4278-4299). -/
def sessionGet : Prog := .opt (ro .slot [rd .sessions])

/-- `WP11_Session_GetState` (src/internal.c:4307-4329). -/
def getState : Prog := ro .slot [rd .login, .opt (rd .sessions)]

/-- `WP11_Session_AddObject` (src/internal.c:4639-4697), for an object of the token:
the object is encoded (2857-2912), linked and the token written.  A session object
concerns no shared data. -/
def addObject : Prog :=
  .opt (rw .token [rd .objects, .any fun o => seqs [.opt (seqs [rd .tokenKey, wr (.obj o)]),
    .opt (seqs [wr .objects, wr (.obj o), tokenStore])]])

/-- `WP11_Session_RemoveObject` (src/internal.c:4705-4743) with `wp11_Object_Unstore`
(2920-2970). -/
def removeObject : Prog :=
  .opt (rw .token [rd .objects, wr .objects, .any fun o => rd (.obj o), wr .store, tokenStore])

/-- `WP11_Object_GetAttr` (src/internal.c:5906-6073). -/
def getAttr : Prog := roObj fun o => [rd (.obj o)]

/-- `WP11_Session_Find` (src/internal.c:4874-4899) with `wp11_Session_FindNext`
(4797-4842) and `WP11_Object_MatchAttr` (6411-6437), which gets the attribute with the
lock of the token held already.  If the token is not searched, the lock is taken around
the reading of the login state only. -/
def find : Prog :=
  seqs [.opt (ro .token [.star (seqs [rd .objects, .any fun o => seqs [rd (.obj o),
      .opt (rd .login), .star getAttr]])]),
    .star (ro .token [rd .login])]

/-- `WP11_Object_Free` (src/internal.c:4938-4975) of an object that was on the token:
no lock. -/
def objectFree : Prog := .any fun o => wr (.obj o)

/-- `WP11_Object_SetRsaKey` (src/internal.c:5045-5104). -/
def setRsaKey : Prog := rwObj fun o => [wr (.obj o)]
/-- `WP11_Object_SetEcKey` (src/internal.c:5232-5276). -/
def setEcKey : Prog := rwObj fun o => [wr (.obj o)]
/-- `WP11_Object_SetDhKey` (src/internal.c:5291-5323). -/
def setDhKey : Prog := rwObj fun o => [wr (.obj o)]
/-- `WP11_Object_SetSecretKey` (src/internal.c:5338-5380). -/
def setSecretKey : Prog := rwObj fun o => [wr (.obj o)]
/-- `WP11_Object_SetCert` (src/internal.c:5382-5415). -/
def setCert : Prog := rwObj fun o => [wr (.obj o)]
/-- `WP11_Object_SetClass` (src/internal.c:5425-5434). -/
def setClass : Prog := rwObj fun o => [wr (.obj o)]
/-- `WP11_Object_SetAttr` (src/internal.c:6217-6399). -/
def setAttr : Prog := rwObj fun o => [rd (.obj o), .opt (wr (.obj o))]

/-- `WP11_Object_Find` (src/internal.c:5445-5478). -/
def objectFind : Prog := .opt (ro .token [rd .objects])

/-- `WP11_Session_SetCbcParams` (src/internal.c:4562-4582). -/
def setCbcParams : Prog := roObj fun o => [rd (.obj o)]

/-- `WP11_Rsa_GenerateKeyPair` (src/internal.c:6501-6562), into new objects. -/
def rsaGenerate : Prog := .opt rngNew

/-- `WP11_Rsa_KeyLen` (src/internal.c:6571-6574): no lock. -/
def rsaKeyLen : Prog := .opt (.any fun o => rd (.obj o))

/-- `WP11_Rsa_SerializeKeyPTPKC8` (src/internal.c:1795-1835): no lock. -/
def rsaSerialize : Prog := .opt (.any fun o => rd (.obj o))

/-- An RSA operation under the lock taken for reading if the key is on the token, with
a generator of its own.  src/internal.c:6598-6606 and the like. -/
def rsaRo : Prog := .alt rngNew (.any fun o => ro .token [rngNew, .opt (rd (.obj o))])

/-- An RSA operation under the lock taken for writing, because the generator is put
into the key.  src/internal.c:6707-6725, 6809-6828. -/
def rsaRw : Prog :=
  .alt rngNew (.any fun o => rw .token [rngNew, .opt (seqs [wr (.obj o), rd (.obj o)])])

/-- `WP11_Rsa_PublicEncrypt` (src/internal.c:6591-6609). -/
def rsaPublicEncrypt : Prog := rsaRo
/-- `WP11_Rsa_PrivateDecrypt` (src/internal.c:6625-6643). -/
def rsaPrivateDecrypt : Prog := rsaRo
/-- `WP11_RsaPkcs15_PublicEncrypt` (src/internal.c:6658-6683). -/
def pkcs15PublicEncrypt : Prog := rsaRo
/-- `WP11_RsaPkcs15_PrivateDecrypt` (src/internal.c:6698-6734). -/
def pkcs15PrivateDecrypt : Prog := rsaRw
/-- `WP11_RsaOaep_PublicEncrypt` (src/internal.c:6750-6782). -/
def oaepPublicEncrypt : Prog := rsaRo
/-- `WP11_RsaOaep_PrivateDecrypt` (src/internal.c:6797-6842). -/
def oaepPrivateDecrypt : Prog := rsaRw
/-- `WP11_Rsa_Sign` (src/internal.c:6859-6891): the length of the key is read
before the lock is taken. -/
def rsaSign : Prog := seqs [rsaKeyLen, rsaRo]
/-- `WP11_Rsa_Verify` (src/internal.c:6905-6942). -/
def rsaVerify : Prog := roObj fun o => [rd (.obj o)]
/-- `WP11_RsaPkcs15_Sign` (src/internal.c:6958-6980). -/
def pkcs15Sign : Prog := rsaRo
/-- `WP11_RsaPkcs15_Verify` (src/internal.c:6994-7020). -/
def pkcs15Verify : Prog := roObj fun o => [rd (.obj o)]
/-- `WP11_RsaPKCSPSS_Sign` (src/internal.c:7038-7062). -/
def pssSign : Prog := rsaRo
/-- `WP11_RsaPKCSPSS_Verify` (src/internal.c:7077-7113). -/
def pssVerify : Prog := roObj fun o => [rd (.obj o)]
/-- `WP11_Ec_GenerateKeyPair` (src/internal.c:7127-7175). -/
def ecGenerate : Prog := .opt rngNew
/-- `WP11_Ec_SigLen` (src/internal.c:7325-7328): no lock. -/
def ecSigLen : Prog := .opt (.any fun o => rd (.obj o))
/-- `WP11_Ec_Sign` (src/internal.c:7345-7384). -/
def ecSign : Prog := seqs [roObj fun o => [rd (.obj o)], .opt rsaRo]
/-- `WP11_Ec_Verify` (src/internal.c:7399-7420). -/
def ecVerify : Prog := roObj fun o => [rd (.obj o)]
/-- `WP11_EC_Derive` (src/internal.c:7434-7470): the generator is put into the
key (7452) without the lock, and left there. -/
def ecDerive : Prog :=
  seqs [.opt (seqs [rngNew, .opt (.any fun o => wr (.obj o))]),
    .opt (roObj fun o => [rd (.obj o)])]
/-- `WP11_Dh_GenerateKeyPair` (src/internal.c:7483-7512). -/
def dhGenerate : Prog := .opt rngNew
/-- `WP11_Dh_Derive` (src/internal.c:7525-7538). -/
def dhDerive : Prog := roObj fun o => [rd (.obj o)]
/-- `WP11_AesGenerateKey` (src/internal.c:7550-7560). -/
def aesGenerate : Prog := rw .rng [wr .rng]
/-- `WP11_AesGcm_Encrypt` (src/internal.c:8054-8090). -/
def gcmEncrypt : Prog := .opt (roObj fun o => [rd (.obj o)])
/-- `WP11_AesGcm_EncryptUpdate` (src/internal.c:8106-8142). -/
def gcmEncryptUpdate : Prog := .opt (roObj fun o => [rd (.obj o)])
/-- `WP11_AesGcm_Decrypt` (src/internal.c:8186-8228). -/
def gcmDecrypt : Prog := .opt (roObj fun o => [rd (.obj o)])
/-- `WP11_AesGcm_DecryptFinal` (src/internal.c:8289-8303). -/
def gcmDecryptFinal : Prog := gcmDecrypt
/-- `WP11_Hmac_Init` (src/internal.c:8370-8393). -/
def hmacInit : Prog := .opt (roObj fun o => [rd (.obj o)])
/-- `WP11_Slot_SeedRandom` (src/internal.c:8536-8547). -/
def seedRandom : Prog := rw .rng [wr .rng]
/-- `WP11_Slot_GenerateRandom` (src/internal.c:8556-8565). -/
def generateRandom : Prog := rw .rng [wr .rng]

/-! ## The functions of the interface -/

/-- The functions above. -/
inductive Fn where
  | isInitialized | getTokenLabel | isTokenInitialized | isUserPinInitialized | failedLogin
  | failedExpire | openSession | closeSession | closeSessions | checkSoPin | checkUserPin
  | soLogin | userLogin | setSoPin | setUserPin | logout | sessionGet | getState | setCbcParams
  | addObject | removeObject | find | objectFree | setRsaKey | setEcKey | setDhKey
  | setSecretKey | setCert | setClass | objectFind | getAttr | setAttr | rsaGenerate
  | rsaKeyLen | rsaSerialize | rsaPublicEncrypt | rsaPrivateDecrypt | pkcs15PublicEncrypt
  | pkcs15PrivateDecrypt | oaepPublicEncrypt | oaepPrivateDecrypt | rsaSign | rsaVerify
  | pkcs15Sign | pkcs15Verify | pssSign | pssVerify | ecGenerate | ecSigLen | ecSign | ecVerify
  | ecDerive | dhGenerate | dhDerive | aesGenerate | gcmEncrypt | gcmEncryptUpdate | gcmDecrypt
  | gcmDecryptFinal | hmacInit | seedRandom | generateRandom
deriving DecidableEq, Repr

/-- What each of them does. -/
def Fn.prog : Fn → Prog
  | .isInitialized => Threads.isInitialized
  | .getTokenLabel => Threads.getTokenLabel
  | .isTokenInitialized => Threads.isTokenInitialized
  | .isUserPinInitialized => Threads.isUserPinInitialized
  | .failedLogin => Threads.failedLogin
  | .failedExpire => Threads.failedExpire
  | .openSession => Threads.openSession
  | .closeSession => Threads.closeSession
  | .closeSessions => Threads.closeSessions
  | .checkSoPin => Threads.checkSoPin
  | .checkUserPin => Threads.checkUserPin
  | .soLogin => Threads.soLogin
  | .userLogin => Threads.userLogin
  | .setSoPin => Threads.setSoPin
  | .setUserPin => Threads.setUserPin
  | .logout => Threads.logout
  | .sessionGet => Threads.sessionGet
  | .getState => Threads.getState
  | .setCbcParams => Threads.setCbcParams
  | .addObject => Threads.addObject
  | .removeObject => Threads.removeObject
  | .find => Threads.find
  | .objectFree => Threads.objectFree
  | .setRsaKey => Threads.setRsaKey
  | .setEcKey => Threads.setEcKey
  | .setDhKey => Threads.setDhKey
  | .setSecretKey => Threads.setSecretKey
  | .setCert => Threads.setCert
  | .setClass => Threads.setClass
  | .objectFind => Threads.objectFind
  | .getAttr => Threads.getAttr
  | .setAttr => Threads.setAttr
  | .rsaGenerate => Threads.rsaGenerate
  | .rsaKeyLen => Threads.rsaKeyLen
  | .rsaSerialize => Threads.rsaSerialize
  | .rsaPublicEncrypt => Threads.rsaPublicEncrypt
  | .rsaPrivateDecrypt => Threads.rsaPrivateDecrypt
  | .pkcs15PublicEncrypt => Threads.pkcs15PublicEncrypt
  | .pkcs15PrivateDecrypt => Threads.pkcs15PrivateDecrypt
  | .oaepPublicEncrypt => Threads.oaepPublicEncrypt
  | .oaepPrivateDecrypt => Threads.oaepPrivateDecrypt
  | .rsaSign => Threads.rsaSign
  | .rsaVerify => Threads.rsaVerify
  | .pkcs15Sign => Threads.pkcs15Sign
  | .pkcs15Verify => Threads.pkcs15Verify
  | .pssSign => Threads.pssSign
  | .pssVerify => Threads.pssVerify
  | .ecGenerate => Threads.ecGenerate
  | .ecSigLen => Threads.ecSigLen
  | .ecSign => Threads.ecSign
  | .ecVerify => Threads.ecVerify
  | .ecDerive => Threads.ecDerive
  | .dhGenerate => Threads.dhGenerate
  | .dhDerive => Threads.dhDerive
  | .aesGenerate => Threads.aesGenerate
  | .gcmEncrypt => Threads.gcmEncrypt
  | .gcmEncryptUpdate => Threads.gcmEncryptUpdate
  | .gcmDecrypt => Threads.gcmDecrypt
  | .gcmDecryptFinal => Threads.gcmDecryptFinal
  | .hmacInit => Threads.hmacInit
  | .seedRandom => Threads.seedRandom
  | .generateRandom => Threads.generateRandom

/-- The functions of the PKCS#11 interface, without `C_Initialize`, `C_Finalize`,
`C_InitToken` and the two that only copy constants (`C_GetInfo`, `C_GetFunctionList`). -/
inductive Api where
  /-- `C_GetSlotList` (src/slot.c:45-62) -/
  | cGetSlotList
  /-- `C_GetSlotInfo` (src/slot.c:86-101) -/
  | cGetSlotInfo
  /-- `C_GetTokenInfo` (src/slot.c:135-215) -/
  | cGetTokenInfo
  /-- `C_GetMechanismList` (src/slot.c:293-317) -/
  | cGetMechanismList
  /-- `C_GetMechanismInfo` (src/slot.c:436-539) -/
  | cGetMechanismInfo
  /-- `C_InitPIN` (src/slot.c:602-627) -/
  | cInitPIN
  /-- `C_SetPIN` (src/slot.c:647-698) -/
  | cSetPIN
  /-- `C_OpenSession` (src/slot.c:721-744) -/
  | cOpenSession
  /-- `C_CloseSession` (src/slot.c:754-768) -/
  | cCloseSession
  /-- `C_CloseAllSessions` (src/slot.c:778-789) -/
  | cCloseAllSessions
  /-- `C_GetSessionInfo` (src/slot.c:801-820) -/
  | cGetSessionInfo
  /-- `C_GetOperationState` (src/slot.c:837-853) -/
  | cGetOperationState
  /-- `C_SetOperationState` (src/slot.c:869-889) -/
  | cSetOperationState
  /-- `C_Login` (src/slot.c:912-957) -/
  | cLogin
  /-- `C_Logout` (src/slot.c:967-981) -/
  | cLogout
  /-- `C_GetFunctionStatus` (src/slot.c:991-1000) -/
  | cGetFunctionStatus
  /-- `C_CancelFunction` (src/slot.c:1010-1019) -/
  | cCancelFunction
  /-- `C_WaitForSlotEvent` (src/slot.c:1030-1041) -/
  | cWaitForSlotEvent
  /-- `C_CreateObject` (src/crypto.c:734-758) -/
  | cCreateObject
  /-- `C_CopyObject` (src/crypto.c:783-850) -/
  | cCopyObject
  /-- `C_DestroyObject` (src/crypto.c:863-885) -/
  | cDestroyObject
  /-- `C_GetObjectSize` (src/crypto.c:902-923) -/
  | cGetObjectSize
  /-- `C_GetAttributeValue` (src/crypto.c:944-987) -/
  | cGetAttributeValue
  /-- `C_SetAttributeValue` (src/crypto.c:1010-1032) -/
  | cSetAttributeValue
  /-- `C_FindObjectsInit` (src/crypto.c:1050-1079) -/
  | cFindObjectsInit
  /-- `C_FindObjects` (src/crypto.c:1095-1119) -/
  | cFindObjects
  /-- `C_FindObjectsFinal` (src/crypto.c:1130-1142) -/
  | cFindObjectsFinal
  /-- `C_EncryptInit` (src/crypto.c:1165-1302) -/
  | cEncryptInit
  /-- `C_Encrypt` (src/crypto.c:1325-1484) -/
  | cEncrypt
  /-- `C_EncryptUpdate` (src/crypto.c:1507-1606) -/
  | cEncryptUpdate
  /-- `C_EncryptFinal` (src/crypto.c:1627-1718) -/
  | cEncryptFinal
  /-- `C_DecryptInit` (src/crypto.c:1740-1872) -/
  | cDecryptInit
  /-- `C_Decrypt` (src/crypto.c:1896-2055) -/
  | cDecrypt
  /-- `C_DecryptUpdate` (src/crypto.c:2079-2179) -/
  | cDecryptUpdate
  /-- `C_DecryptFinal` (src/crypto.c:2200-2292) -/
  | cDecryptFinal
  /-- `C_DigestInit` (src/crypto.c:2306-2319) -/
  | cDigestInit
  /-- `C_Digest` (src/crypto.c:2338-2354) -/
  | cDigest
  /-- `C_DigestUpdate` (src/crypto.c:2369-2382) -/
  | cDigestUpdate
  /-- `C_DigestKey` (src/crypto.c:2396-2412) -/
  | cDigestKey
  /-- `C_DigestFinal` (src/crypto.c:2429-2444) -/
  | cDigestFinal
  /-- `C_SignInit` (src/crypto.c:2465-2579) -/
  | cSignInit
  /-- `C_Sign` (src/crypto.c:2602-2745) -/
  | cSign
  /-- `C_SignUpdate` (src/crypto.c:2762-2816) -/
  | cSignUpdate
  /-- `C_SignFinal` (src/crypto.c:2838-2903) -/
  | cSignFinal
  /-- `C_SignRecoverInit` (src/crypto.c:2919-2939) -/
  | cSignRecoverInit
  /-- `C_SignRecover` (src/crypto.c:2958-2974) -/
  | cSignRecover
  /-- `C_VerifyInit` (src/crypto.c:2995-3109) -/
  | cVerifyInit
  /-- `C_Verify` (src/crypto.c:3129-3229) -/
  | cVerify
  /-- `C_VerifyUpdate` (src/crypto.c:3246-3300) -/
  | cVerifyUpdate
  /-- `C_VerifyFinal` (src/crypto.c:3318-3376) -/
  | cVerifyFinal
  /-- `C_VerifyRecoverInit` (src/crypto.c:3392-3412) -/
  | cVerifyRecoverInit
  /-- `C_VerifyRecover` (src/crypto.c:3432-3448) -/
  | cVerifyRecover
  /-- `C_DigestEncryptUpdate` (src/crypto.c:3468-3485) -/
  | cDigestEncryptUpdate
  /-- `C_DecryptDigestUpdate` (src/crypto.c:3504-3523) -/
  | cDecryptDigestUpdate
  /-- `C_SignEncryptUpdate` (src/crypto.c:3543-3560) -/
  | cSignEncryptUpdate
  /-- `C_DecryptVerifyUpdate` (src/crypto.c:3579-3598) -/
  | cDecryptVerifyUpdate
  /-- `C_GenerateKey` (src/crypto.c:3621-3671) -/
  | cGenerateKey
  /-- `C_GenerateKeyPair` (src/crypto.c:3704-3841) -/
  | cGenerateKeyPair
  /-- `C_WrapKey` (src/crypto.c:3862-3964) -/
  | cWrapKey
  /-- `C_UnwrapKey` (src/crypto.c:3987-4102) -/
  | cUnwrapKey
  /-- `C_DeriveKey` (src/crypto.c:4163-4275) -/
  | cDeriveKey
  /-- `C_SeedRandom` (src/crypto.c:4290-4312) -/
  | cSeedRandom
  /-- `C_GenerateRandom` (src/crypto.c:4327-4349) -/
  | cGenerateRandom
deriving DecidableEq, Repr

/-- Which of the functions above a function of the interface calls, itself or through
the static functions of src/crypto.c (206-714, 4113-4137).  `WP11_Object_Free` is listed
where the object can have been on the token. -/
def Api.uses : Api → List Fn
  -- src/slot.c:45-62
  | .cGetSlotList => [.isInitialized]
  -- src/slot.c:86-101
  | .cGetSlotInfo => [.isInitialized]
  -- src/slot.c:135-215
  | .cGetTokenInfo =>
      [.isInitialized, .getTokenLabel, .failedLogin, .failedExpire, .isTokenInitialized,
       .isUserPinInitialized]
  -- src/slot.c:293-317
  | .cGetMechanismList => [.isInitialized]
  -- src/slot.c:436-539
  | .cGetMechanismInfo => [.isInitialized]
  -- src/slot.c:602-627
  | .cInitPIN => [.isInitialized, .sessionGet, .getState, .setUserPin]
  -- src/slot.c:647-698
  | .cSetPIN =>
      [.isInitialized, .sessionGet, .getState, .checkSoPin, .setSoPin, .checkUserPin,
       .setUserPin]
  -- src/slot.c:721-744
  | .cOpenSession => [.isInitialized, .openSession]
  -- src/slot.c:754-768
  | .cCloseSession => [.isInitialized, .sessionGet, .closeSession]
  -- src/slot.c:778-789
  | .cCloseAllSessions => [.isInitialized, .closeSessions]
  -- src/slot.c:801-820
  | .cGetSessionInfo => [.isInitialized, .sessionGet, .getState]
  -- src/slot.c:837-853
  | .cGetOperationState => [.isInitialized, .sessionGet]
  -- src/slot.c:869-889
  | .cSetOperationState => [.isInitialized, .sessionGet]
  -- src/slot.c:912-957
  | .cLogin => [.isInitialized, .sessionGet, .soLogin, .userLogin]
  -- src/slot.c:967-981
  | .cLogout => [.isInitialized, .sessionGet, .logout]
  -- src/slot.c:991-1000
  | .cGetFunctionStatus => [.isInitialized, .sessionGet]
  -- src/slot.c:1010-1019
  | .cCancelFunction => [.isInitialized, .sessionGet]
  -- src/slot.c:1030-1041
  | .cWaitForSlotEvent => [.isInitialized]
  -- src/crypto.c:734-758
  | .cCreateObject =>
      [.isInitialized, .sessionGet, .setClass, .setCert, .setRsaKey, .setEcKey, .setDhKey,
       .setSecretKey, .setAttr, .addObject]
  -- src/crypto.c:783-850
  | .cCopyObject =>
      [.isInitialized, .sessionGet, .objectFind, .getAttr, .setCert, .setRsaKey, .setEcKey,
       .setDhKey, .setSecretKey, .setAttr, .addObject]
  -- src/crypto.c:863-885
  | .cDestroyObject => [.isInitialized, .sessionGet, .objectFind, .removeObject, .objectFree]
  -- src/crypto.c:902-923
  | .cGetObjectSize => [.isInitialized, .sessionGet, .objectFind]
  -- src/crypto.c:944-987
  | .cGetAttributeValue => [.isInitialized, .sessionGet, .objectFind, .getAttr]
  -- src/crypto.c:1010-1032
  | .cSetAttributeValue =>
      [.isInitialized, .sessionGet, .objectFind, .setCert, .setRsaKey, .setEcKey, .setDhKey,
       .setSecretKey, .setAttr]
  -- src/crypto.c:1050-1079
  | .cFindObjectsInit => [.isInitialized, .sessionGet, .find]
  -- src/crypto.c:1095-1119
  | .cFindObjects => [.isInitialized, .sessionGet]
  -- src/crypto.c:1130-1142
  | .cFindObjectsFinal => [.isInitialized, .sessionGet]
  -- src/crypto.c:1165-1302
  | .cEncryptInit => [.isInitialized, .sessionGet, .objectFind, .setCbcParams]
  -- src/crypto.c:1325-1484
  | .cEncrypt =>
      [.isInitialized, .sessionGet, .rsaKeyLen, .rsaPublicEncrypt, .pkcs15PublicEncrypt,
       .oaepPublicEncrypt, .gcmEncrypt]
  -- src/crypto.c:1507-1606
  | .cEncryptUpdate => [.isInitialized, .sessionGet, .gcmEncryptUpdate]
  -- src/crypto.c:1627-1718
  | .cEncryptFinal => [.isInitialized, .sessionGet]
  -- src/crypto.c:1740-1872
  | .cDecryptInit => [.isInitialized, .sessionGet, .objectFind, .setCbcParams]
  -- src/crypto.c:1896-2055
  | .cDecrypt =>
      [.isInitialized, .sessionGet, .rsaKeyLen, .rsaPrivateDecrypt, .pkcs15PrivateDecrypt,
       .oaepPrivateDecrypt, .gcmDecrypt]
  -- src/crypto.c:2079-2179
  | .cDecryptUpdate => [.isInitialized, .sessionGet]
  -- src/crypto.c:2200-2292
  | .cDecryptFinal => [.isInitialized, .sessionGet, .gcmDecryptFinal]
  -- src/crypto.c:2306-2319
  | .cDigestInit => [.isInitialized, .sessionGet]
  -- src/crypto.c:2338-2354
  | .cDigest => [.isInitialized, .sessionGet]
  -- src/crypto.c:2369-2382
  | .cDigestUpdate => [.isInitialized, .sessionGet]
  -- src/crypto.c:2396-2412
  | .cDigestKey => [.isInitialized, .sessionGet, .objectFind]
  -- src/crypto.c:2429-2444
  | .cDigestFinal => [.isInitialized, .sessionGet]
  -- src/crypto.c:2465-2579
  | .cSignInit => [.isInitialized, .sessionGet, .objectFind, .hmacInit]
  -- src/crypto.c:2602-2745
  | .cSign =>
      [.isInitialized, .sessionGet, .rsaKeyLen, .rsaSign, .pkcs15Sign, .pssSign, .ecSigLen,
       .ecSign]
  -- src/crypto.c:2762-2816
  | .cSignUpdate => [.isInitialized, .sessionGet]
  -- src/crypto.c:2838-2903
  | .cSignFinal => [.isInitialized, .sessionGet]
  -- src/crypto.c:2919-2939
  | .cSignRecoverInit => [.isInitialized, .sessionGet, .objectFind]
  -- src/crypto.c:2958-2974
  | .cSignRecover => [.isInitialized, .sessionGet]
  -- src/crypto.c:2995-3109
  | .cVerifyInit => [.isInitialized, .sessionGet, .objectFind, .hmacInit]
  -- src/crypto.c:3129-3229
  | .cVerify => [.isInitialized, .sessionGet, .rsaVerify, .pkcs15Verify, .pssVerify, .ecVerify]
  -- src/crypto.c:3246-3300
  | .cVerifyUpdate => [.isInitialized, .sessionGet]
  -- src/crypto.c:3318-3376
  | .cVerifyFinal => [.isInitialized, .sessionGet]
  -- src/crypto.c:3392-3412
  | .cVerifyRecoverInit => [.isInitialized, .sessionGet, .objectFind]
  -- src/crypto.c:3432-3448
  | .cVerifyRecover => [.isInitialized, .sessionGet]
  -- src/crypto.c:3468-3485
  | .cDigestEncryptUpdate => [.isInitialized, .sessionGet]
  -- src/crypto.c:3504-3523
  | .cDecryptDigestUpdate => [.isInitialized, .sessionGet]
  -- src/crypto.c:3543-3560
  | .cSignEncryptUpdate => [.isInitialized, .sessionGet]
  -- src/crypto.c:3579-3598
  | .cDecryptVerifyUpdate => [.isInitialized, .sessionGet]
  -- src/crypto.c:3621-3671
  | .cGenerateKey =>
      [.isInitialized, .sessionGet, .setClass, .setCert, .setRsaKey, .setEcKey, .setDhKey,
       .setSecretKey, .setAttr, .aesGenerate, .addObject]
  -- src/crypto.c:3704-3841
  | .cGenerateKeyPair =>
      [.isInitialized, .sessionGet, .setClass, .setCert, .setRsaKey, .setEcKey, .setDhKey,
       .setSecretKey, .setAttr, .objectFree, .rsaGenerate, .ecGenerate, .dhGenerate,
       .addObject, .getAttr]
  -- src/crypto.c:3862-3964
  | .cWrapKey =>
      [.isInitialized, .sessionGet, .objectFind, .rsaSerialize, .setCbcParams, .rsaKeyLen,
       .rsaPublicEncrypt, .pkcs15PublicEncrypt, .oaepPublicEncrypt, .gcmEncrypt]
  -- src/crypto.c:3987-4102
  | .cUnwrapKey =>
      [.isInitialized, .sessionGet, .objectFind, .setCbcParams, .rsaKeyLen,
       .rsaPrivateDecrypt, .pkcs15PrivateDecrypt, .oaepPrivateDecrypt, .gcmDecrypt, .setClass,
       .setCert, .setRsaKey, .setEcKey, .setDhKey, .setSecretKey, .setAttr, .objectFree,
       .addObject, .removeObject]
  -- src/crypto.c:4163-4275
  | .cDeriveKey =>
      [.isInitialized, .sessionGet, .objectFind, .ecDerive, .dhDerive, .setClass, .setCert,
       .setRsaKey, .setEcKey, .setDhKey, .setSecretKey, .setAttr, .getAttr, .addObject]
  -- src/crypto.c:4290-4312
  | .cSeedRandom => [.isInitialized, .sessionGet, .seedRandom]
  -- src/crypto.c:4327-4349
  | .cGenerateRandom => [.isInitialized, .sessionGet, .generateRandom]

/-- What one call of a function of the interface can do: it runs functions of its list,
in any order and any number of times (more than the code does). -/
inductive Api.Runs (c : Api) : List Act → Prop
  | ret : Runs c []
  | call {f xs ys} : f ∈ c.uses → f.prog.Runs xs → Runs c ys → Runs c (xs ++ ys)

/-- What a thread that makes the calls `cs`, one after another, can do. -/
inductive Calls : List Api → List Act → Prop
  | nil : Calls [] []
  | cons {c cs xs ys} : c.Runs xs → Calls cs ys → Calls (c :: cs) (xs ++ ys)

/-- All locks are free and thread `t` is about to make the calls `cs t`. -/
structure Sys.Begins {n : Nat} (S : Sys n) (cs : Fin n → List Api) : Prop where
  free : ∀ l, S.lk l = Lock.init n
  calls : ∀ t, Calls (cs t) (S.todo t)

end Verif.Threads
