# Formal model of wolfPKCS11: design

The subject is the C code in `/repo` (wolfSSL/wolfPKCS11 at the pinned commit):
`src/slot.c`, `src/crypto.c`, `src/internal.c`, `src/wolfpkcs11.c` and the two
headers `wolfpkcs11/internal.h`, `wolfpkcs11/store.h`.  The model is written in
Lean 4 under `lean/Verif`.  `properties.jsonl` holds the English properties,
`MANIFEST.json` maps each of them to theorem names.

## Trusted base

* Lean 4.33.0's kernel.  The theorems depend on no axioms besides `propext`,
  `Classical.choice` and `Quot.sound`; `#print axioms` is run beside the
  property theorems.  There is no `sorry`, `admit`, own axiom, `native_decide`
  or `bv_decide`.
* The reading of the C code that is written down, definition by definition, in
  the model (each definition cites file and lines).
* The configuration modelled: default build of the library with RSA, ECC, DH,
  AES-CBC, AES-GCM, HMAC and file storage on (`WOLFPKCS11_NO_STORE`, TPM,
  `WOLFPKCS11_NO_TIME`, `WOLFPKCS11_KEYPAIR_GEN_COMMON_LABEL`, FIPS off), one
  slot, little-endian, 64-bit `CK_ULONG`, 32-bit `int`/`word32`.
* The assumptions about wolfCrypt and about callers listed below.  Each is a
  hypothesis of the theorems that need it, and each is shown to be satisfiable
  (`Proofs/DemoEnv.lean`, `Proofs/DemoLaws.lean`).

## What is not modelled

* wolfCrypt itself.  Block ciphers, GCM, HMAC, RSA primitives, ECDSA, the PIN
  hash and the random generator are parameters of the model; what is assumed of
  them is an explicit hypothesis of the theorem that needs it.
* Failing allocations, except in `Model/Alloc.lean`, and failing writes, except in
  `Model/Fault.lean` and the crash model.
* The C function table (`C_GetFunctionList`), TPM support.
* Threads, except in `Model/Lock.lean` (the read/write lock), `Model/Threads.lean`
  (the lock calls of every function), `Model/Conc.lean` (`C_Login` split at its
  critical sections, any number of threads), `Model/ConcPin.lean` (`C_SetPIN`,
  `C_InitPIN` split likewise), `Model/ConcObj.lean` and `Model/ConcSet.lean` (the calls on objects),
  `Model/ConcSess.lean` (opening and closing sessions), `Model/ConcMake.lean`
  (objects made at once), `Model/ConcReset.lean` (`C_InitToken`) and `Model/ConcInit.lean`
  (`C_Initialize`, `C_Finalize`); there every other call is made in one go.  All other theorems are about calls made one after the other.
* Integer overflow of the failure counters and timeouts is not modelled (they are
  unbounded integers); C121 proves that it cannot happen in up to 2^49 sequential calls.
* The session's `params` is a union in C; the model keeps its members apart
  (`Model/OpCall.lean`).  What a refused Init writes over the parameters of the
  operation in progress is modelled: exactly for AES-GCM, RSA-OAEP and RSA-PSS
  (`OpSt.pssOver`, `OpSt.oaepOver`), and as undefined behaviour of the next data
  call where an `Aes` or `Hmac` object or a pointer is overwritten (`OpInit.torn`).
  That `C_CloseSession` may then free an overwritten pointer is not modelled;
  `Spec/Safe.lean` keeps careful callers clear of such an Init.  An HMAC operation abandoned before an AES-CBC one can
  therefore leave other bytes in the partial block than the model says; the model
  still shows the effect (C63, C66) for an abandoned AES-CBC operation.

## Conventions

* Model definitions live in `Verif/Model/*.lean`, small specifications written
  from the English properties in `Verif/Spec/*.lean`, helper lemmas in
  `Verif/Proofs/*.lean`, and the property theorems with their non-vacuity
  examples in `Verif/Props/*.lean`.
* A property the code violates gets a theorem `..._violated` (the negation, with
  a concrete witness) and, where part of it is true, a theorem with suffix
  `_partial` that says what is missing.
* Undefined behaviour of the C code (out of bounds write, use after free) is a
  distinct outcome in the model, never a silently harmless step.

## The machine

`Model/Api.lean` is the sequential machine: `step : Env → Lib → Call → Lib × Resp`.
`Lib` is the library with its sessions, its token (accounts, objects, login state,
storage key), the files of the storage directory and the state of the random
generator.  `Env` holds the external functions.  A call that runs into undefined
behaviour answers `RV.ub` and sets `bad`; after that nothing is claimed.  Pointers
to objects are allocation identities (`uid`), so a dangling pointer is visible.
Histories are lists of calls from a process that has not initialised the library
(`Start`), with any contents of the storage directory unless a theorem says
otherwise.

The parts it is built from: `Object`, `Attr` (attributes), `Codec`, `Store`,
`StoreName` (files), `Op`, `OpCall` (sign, verify, encrypt, decrypt over `AesCbc`,
`AesGcm`, `Hmac`, `Rsa`, `EcSig`), `RsaGen`, `Derive`, `DhDer`, `Lists`.

`Model/Alloc.lean` repeats the calls that take memory (`C_OpenSession`, `C_CreateObject`,
`C_CopyObject`, `C_GenerateKey`, `C_GenerateKeyPair`, `C_DeriveKey`, `C_SetAttributeValue`,
`C_FindObjectsInit`, `C_Login`, `C_Logout`, `C_CloseSession`, `C_EncryptInit`, `C_DecryptInit`,
`C_DecryptUpdate`, `C_WrapKey`, `C_UnwrapKey`) with a list of outcomes, one per
allocation made by the library itself; `stepM_enough` shows that without failures they are the
calls of `Model/Api.lean`.  A pointer left NULL with a length counts as `bad`.

`Model/Fault.lean` repeats the calls that write files (`C_InitToken`, `C_InitPIN`, `C_SetPIN`,
`C_CreateObject`, `C_DestroyObject`, `C_Finalize`) with storage that may refuse a file, fail
after a part of it, or lose a part without saying so; without failures they are the calls of
the main model (`stepF_none`).  A history has at most one call with failures, the last; the
other calls that make objects store them with the same function and are not repeated.
`Model/Rest.lean` adds the remaining functions of the table, which change nothing, and
`C_SeedRandom`: `anyStep` answers a call of any function.  `c91_histories` carries what is
proved about `run` over to it.

`Model/Conc.lean` cuts `C_Login` at its critical sections; `login_alone` shows that
a login that is not interrupted is the call of the sequential machine.
`Model/ConcSess.lean` cuts `C_CloseSession` at the places where it does not hold the lock of the slot (C106).
The pointer to a session whose memory another thread has freed is tracked; using it is undefined
behaviour.  `close_alone` shows that a close that is not interrupted is the call of the sequential machine.  `C_CloseAllSessions`, which frees sessions without the lock, is a whole call here.
`Model/ConcSet.lean` cuts `C_SetAttributeValue` and `C_GetAttributeValue` (C134); that an uninterrupted change is the call of the
sequential machine is a case of `c134_change_partial`.
`Model/ConcReset.lean` cuts `C_InitToken` (C131); that an uninterrupted one is the call of the sequential machine is a case of
`c131_partial`.
`Model/ConcInit.lean` cuts `C_Initialize` and `C_Finalize` where they do not hold the global lock (C116); that an
uninterrupted one is the call of the sequential machine is a case of `c116_partial`.  Using a destroyed lock is not
undefined behaviour in this model: the code ignores the result, and so does the model.

`Model/ConcObj.lean` cuts `C_DestroyObject` and `C_GetAttributeValue` of token objects where
they go on with a pointer after giving the lock back (`destroy_alone`, `getAttr_alone`).
`Model/ConcPin.lean` adds `C_SetPIN` and `C_InitPIN`, cut in the same way;
`setPin_alone` and `initPin_alone` are the corresponding theorems.

`Model/Threads.lean` models every call (but those that create and destroy the locks) as
the lock operations it does and the shared data it accesses, in program order; branches
on data are free choices.  `n` threads run lists of calls, one atomic step of a lock
function at a time (`Model/Lock.lean`).

`Spec/Lives.lean` puts several processes on one directory: a history is a list of calls
and of processes ending between two calls.  `Spec/StreamHist.lean` picks the data calls
of one session out of such a history; the multi-part theorems of C43, C44, C47 and C49
are stated for those.  The parameters of an operation are a C union: an HMAC Init is
counted among the calls that may leave bytes in the buffer of CBC.

## Assumptions about external functions and callers

| name | meaning | used by |
|------|---------|---------|
| `HashLen`, `RandLen` | PIN hash 32 bytes, random bytes as many as asked for | PIN theorems |
| `NoCollision`, `OnlyPin`, `OnePin` | the offered PIN is no second preimage of the PIN | C10, C39, C40, C107, C109 |
| `StoreLaws` | the storage cipher undoes itself under the same key and nonce and adds at least the tag; each decoder of keys undoes the encoder | C34, C39, C40, C70, C107, C109 |
| `KeyExt.Lawful` | key import/export of wolfCrypt round-trips | C29, C58 |
| `MkLawful` | `wc_MakeRsaKey` uses the exponent it is given | C59 |
| `GenLawful`, `RsaPair`, `EcPair` | generated halves belong together: verify accepts sign, decrypt undoes encrypt | C77–C79, C82 |
| `DhLawful`, `EcdhLawful` | `wc_DhAgree` gives a form of other^own mod p; ECDH with two pairs on one curve gives the same secret on both sides | C90 |
| `Unrepeated` | the generator has not given the same bytes twice in this history | C92 |
| `Pkcs8Lawful` | `wc_RsaPrivateKeyDecode` reads what `wc_RsaKeyToDer`, `wc_CreatePKCS8Key` write | C84 |
| `Aes.Lawful`, `Gcm.Lawful`, streaming MAC | block cipher; GCM decryption inverts encryption; the MAC of parts is the MAC of the whole | C43, C44, C47, C49 |
| `BoolToken`, `KeepsClass`, `NoCertificates` | callers: `CKA_TOKEN` is 0 or 1; class not changed; no certificates | C18, C22, C70, C81 |
| lengths below 2^31 (2^64-1 in templates) | callers | C43–C49, C22, C83 |

## Where the code does not have the property

The theorems named `..._violated` prove these of the model.

* Library and sessions: a surplus `C_Finalize` makes the next `C_Initialize` leave the
  library unusable (C02); `C_CloseAllSessions` leaves one session open and the user
  logged in (C06).
* PINs: `C_SetPIN` does not count wrong PINs (C15); a read-only session can be opened
  during a login as security officer (C09); two threads step over the failure counter
  and the account never locks (C12); failed logins are not written to storage (C76).
* Objects: handle numbers run into the token bit (C19); `C_GenerateKeyPair` may leave
  half a pair (C32); private session objects are visible without login (C23); results
  of an ended search are delivered (C64); destroying a key in use leaves a dangling
  pointer (C55).
* Attributes: `CKA_EC_POINT` and over-long values are written past the buffer (C24,
  C30, C61); a DH key of another class is readable (C25); sensitive and extractable
  can be flipped (C26) and are not looked at by `C_WrapKey` (C27); several booleans
  and dates do not read back (C28, C29); `C_SetAttributeValue` wipes the key and is
  not undone (C31); usage attributes are ignored (C56).
* Storage: file names collide for long paths (C36); destroyed keys stay on disk (C37);
  one nonce for all created keys (C38); storage key all zero before the first user
  login, DH keys of another class in clear (C70); a PIN change by others than the
  logged-in user loses the keys (C39); a login with a storage key that does not fit
  succeeds and the next logout overwrites the objects (C40); certificates do not
  survive, or make the token unloadable (C34, C75); a crash inside a file loses the
  token (C35); finalising before the first `C_InitToken` makes it impossible (C74).
* Cryptography: CBC-PAD ignores the size of the output buffer and accepts invalid
  padding (C45, C46); multi-part GCM encryption is not GCM (C47); GCM, RSA and ECDSA
  operations do not end (C48); raw RSA verification compares too little (C51);
  exponents are byte-reversed (C59); derived keys have other lengths than asked for
  (C60); an abandoned CBC operation leaks into the next (C63, C66); a refused
  `C_*Init` overwrites the parameters of the operation in progress (C71), so that two
  AES-GCM encryptions started with different nonces use the same one, and an AES-CBC
  encryption goes on with a broken key schedule; negative salt lengths and tag sizes (C83);
  `C_WrapKey` after an unfinished CBC operation wraps its bytes too (C84) and, like
  `C_UnwrapKey`, replaces the operation of the session (C85).
* Lengths of 2^32 and more are cut in `C_GenerateRandom` (C92); `C_GenerateKey` without
  `CKA_VALUE_LEN` makes an empty key (C93).
* `C_CopyObject` copies only the attributes its template names and overwrites the
  template with the original's values (C94).
* `C_WrapKey` with a buffer that is too small, or asked for the length only, leaves an encryption with the wrapping key active:
  `C_Encrypt` then works though no operation was begun (C53).
* Storage failures: the calls that make objects, `C_DestroyObject` and `C_Finalize` ignore them
  (one file that cannot be opened while a pair is generated costs the whole token in the next process), all
  calls ignore those that only `fflush` or `fclose` report (C96); a failed `C_SetPIN` has
  changed the PIN in memory, and may have destroyed the token's file (C97).
* A login as user and one as security officer made at the same time both succeed (C101).
* Two threads that destroy the same token object free it twice, and a thread that reads an
  object destroyed meanwhile reads freed memory: the object is looked up holding the lock and
  used after it is given back (C102).  Attributes read while another thread sets them may be
  partly old and partly new.
* Undefined behaviour is reached by single calls of a logged-in user with well-formed arguments
  (C103): an EC key pair without `CKA_EC_PARAMS`, a secret of more than 512 bytes, a NULL label
  with a length, a point without a curve, a certificate read or used as a key, a derivation from
  a key of another type, data after the key of the operation was destroyed.
* C105: secret keys that `C_GenerateKey` generates have CKA_LOCAL CK_FALSE, and a generated
  key pair goes on saying CKA_LOCAL after `C_SetAttributeValue` has replaced its value.
* C106: `C_CloseSession` logs out after having given back the lock.  A thread that closes the last
  session undoes the login of a session that another thread opens meanwhile.  Two threads that close
  the same session: the second finalizes the session that a third has just opened on that handle, or
  uses memory that the first has freed (`c106_violated`).
* `C_GenerateKeyPair` takes `CKA_CLASS` from either template: a private key made with class
  `CKO_PUBLIC_KEY` reads as a public key, and a DH private key then shows its value although it is
  sensitive (`c79_violated_class`).
* C109: `C_SetAttributeValue` on a token object answers `CKR_OK`, but the token is not stored; when the process ends without `C_Finalize` the change is lost (`Demo.c109_violated_setAttr`).
* C110, C111: memory that runs out.  `C_OpenSession` does not map `MEMORY_E` and answers
  `CKR_OK` without writing a handle (`Demo.c111_violated_open`); `C_FindObjectsInit` skips
  objects it has no memory to compare (`Demo.c111_violated_find`); `C_Logout` ignores that a key
  could not be encrypted, leaves it and all older ones in clear, and every later login of the
  user fails because that key has no encrypted form (`Demo.c111_violated_logout`); `C_Login`
  reports a lack of memory as `CKR_PIN_INCORRECT` and leaves keys decrypted
  (`Demo.c110_violated_login`); `C_SetAttributeValue` frees the old label first and keeps its
  length (`Demo.c110_violated_set`); `C_GenerateKeyPair` frees a public key that is in a list
  (`Demo.c110_violated_pair`); a `C_EncryptInit` with AES-GCM that has no memory for the additional
  data is refused, but an encryption in progress goes on with its nonce (`Demo.c110_violated_init`).
* C112: `C_FindObjectsInit` makes the search active before it looks at the template; after a
  refused one every search of that session is refused until `C_FindObjectsFinal` (`Demo.c112_violated`).
* C113: codes that the standard does not give the function: CKR_PIN_INCORRECT from `C_InitPIN`,
  CKR_USER_PIN_NOT_INITIALIZED from `C_SetPIN`, CKR_BUFFER_TOO_SMALL from the functions that set
  attributes, CK_UNAVAILABLE_INFORMATION (not a status code) from `C_GetAttributeValue`,
  CKR_OBJECT_HANDLE_INVALID where the key of an operation does not exist, CKR_MECHANISM_INVALID
  from the data functions while an operation of another kind is active, CKR_DATA_LEN_RANGE from
  `C_DecryptFinal`, CKR_SESSION_READ_ONLY from `C_WrapKey`, CKR_KEY_NOT_WRAPPABLE from
  `C_UnwrapKey`.
* `C_SetAttributeValue` on an RSA key of the token empties the key. `C_Logout` then cannot
  encode it, stops clearing there and answers `CKR_OK`: every key created before it stays in
  memory in clear, readable by any session without login (`Demo.c114_violated`).
* C116: `C_Initialize` tests the count of initialisations without the lock, and `C_Finalize` stores and frees everything after giving the lock back.  Two threads that both make the first `C_Initialize` set the library up twice, and the sessions the first one opened are gone (`Demo.c116_violated`); a last `C_Finalize` that overlaps a `C_Initialize` frees what that call has set up (`Demo.c116_violated_final`).
* `C_InitToken` does not remove the files of the objects it erases (C118): the encrypted keys stay in the directory, and a certificate with an empty value, which `C_CreateObject` accepts although it cannot be stored, is completed after a restart by the file of an old certificate with the same number.
* A new object gets the handle of the newest one plus one, so the handle of a destroyed object goes to the next object made if the destroyed one was the newest: an application that kept the handle, or a thread about to use it, works with another key (C119, `Demo.c119_violated`).
* After `C_Finalize` and `C_Initialize` the public keys of the token are empty until the user logs in: only `WP11_Slot_UserLogin` decodes them, with the others (C120, `Demo.c120_violated`).  The login also takes back a key value set since the last logout (`Demo.c120_violated_set`).
* A writer may starve (C122): the lock prefers readers. While two threads keep calling C_GetSessionInfo so that
  one of the calls is always in progress, a C_Logout, C_Login or C_OpenSession of a third thread never gets the lock
  (`c122_writer_violated`, `c122_overtaken_violated`).
* C_GetAttributeValue stops at the first attribute it cannot give (C123, `c123_violated`): attributes after it are
  not answered and their lengths stay what the caller put in, where the standard wants them all processed.
* `C_CreateObject` changes the list of a session without a lock: two threads that create objects
  of the same session can be told the same handle, and one object is lost. The handle is read
  from the object after the lock of the token is released, so a concurrent `C_DestroyObject` makes it a
  read of freed memory (C126).
* A search ends after ten objects without any sign that there are more (C128, `c128_violated`; `WP11_FIND_MAX`).
* `C_InitToken` by two threads at once: after one has wiped the token the other compares its PIN with a PIN of length 0 (`XMEMCMP` with length 0) and is let in whatever PIN it gave (`c131_violated`). A session opened after the test for sessions survives the wipe and works with freed objects (`c131_violated_session`). Two threads that initialise a new token may both be told that they have, or leave a PIN nobody knows (`c131_violated_new`).
* The last session closed while another thread is inside `C_Login` on it: the close logs out, the login sets the state afterwards and answers `CKR_OK` although its session is gone, and the next session anybody opens is logged in without a PIN (`c132_violated`).
* `C_SetAttributeValue` with a new key value and `CKA_SENSITIVE` true: another thread reads the new value before the mark is set (`c134_violated`); two such calls at once leave the label of one and the identifier of the other (`c134_mixed`).
* Two threads that change the PIN of one account at the same time can leave the hash of
  one thread's PIN beside the seed of the other: both calls succeed and no PIN works any
  more (C86).
* Data races (C88): `C_CloseAllSessions` frees sessions before it takes the lock;
  `C_Login` and `C_Logout` encrypt and decrypt the token's keys under the lock of the
  slot while others use them under the lock of the token; `C_SetPIN` writes the files
  under the lock of the slot and `C_CreateObject` under that of the token; PIN hash and
  storage key are computed into place with no lock held; `C_GetTokenInfo` takes no lock;
  `C_DeriveKey` puts a pointer to its own generator into the shared key.
* The value of an object is a C union without a tag (C89): changing `CKA_CLASS` to or
  from certificate, an RSA operation with a certificate (its type 0 is also that of RSA
  keys), reading `CKA_MODULUS` of a certificate, and `C_DeriveKey` with a base key of any
  type read the bytes as something else. The model answers `ub` there.

## Plan per property

| id | modelled as | proof |
|----|-------------|-------|
| C01, C02 | reference count machine inside the API machine | invariant over call histories; witness for the stray finalise |
| C03–C05, C07, C08, C13 | session list of a slot with the real allocation order | inductive invariant (consecutive decreasing ids), frame lemmas |
| C06 | `WP11_Slot_CloseSessions` with its loop | witness; partial: all handles but the lowest |
| C09, C12 | small-step model of login/open with one step per critical section, any number of threads | witness schedules; unbounded failure count theorem |
| C10, C11, C14–C16, C62 | token account with hash as parameter | refinement to an account with clear PINs (Spec), invariants |
| C17–C20, C32, C54, C55 | object lists with allocation identities, pointers as identities | inductive invariant; witnesses |
| C21 | API machine | case analysis over all calls on a read-only session |
| C22, C23 | list walk of `FindNext`, result buffer and cursor | equality with filter/take specification by induction |
| C24–C31, C61 | attribute getters/setters on typed objects with buffers | case analysis per attribute; non-interference |
| C33, C34, C36, C57 | byte-level codecs | round-trip lemmas by induction on structure |
| C35, C37–C40 | file map, list of single-file writes, crash = prefix | witnesses and partial theorems |
| C41, C42 | two-mutex lock, interleaving semantics, unbounded threads | inductive invariant on counts |
| C43–C49 | streaming state with partial block; cipher as parameter | induction over the list of parts; C45 and C48 after every history by the invariants of C53 (`c45_history_partial`, `c48_history_partial`), C68 likewise (`c68_history`) |
| C50–C53, C56, C58–C60 | decision logic as total functions | characterisation theorems; witnesses |
| C60 (whole histories) | `SharedSecret` in Spec/Derive: the agreement function applied to the base key and the other party | inversion of `C_DeriveKey` on every reachable state (Props/Derive) |
| C63, C66, C71, C80, C83 | the operation state of a session, parameters as given by the caller | non-interference: two runs that agree on the operation's own calls give the same answers; witnesses |
| C64, C69, C74–C76 | search cursor; files cut short; first start; restart | invariants; case analysis over prefixes; witnesses |
| C86 | `C_SetPIN`, `C_InitPIN` cut at their critical sections, beside the logins of C09, C12 | invariant per account over all schedules in which changes of one account do not overlap; witness schedule |
| C87, C88 | every call as a program of lock operations and accesses; interleaved steps of the lock functions | lock order and lock sections by a weakest-precondition calculus over the programs, for all their traces; invariant over all schedules; decreasing measure; witness schedules |
| C89 | the union of an object as a sum; the calls that read another member than the one stored answer `ub` | invariant over all objects, files and histories; witnesses |
| C90 | two processes, each with its own history; what they publish is what `C_GetAttributeValue` shows | C79 for the pairs, C81 and C107 for the calls in between, C60 for the derivation; powers commute |
| C91 | the whole function table as one machine | case analysis; simulation by the machine without the added functions |
| C92, C93 | the random generator as a numbered sequence of outputs | the number of draws only grows; inversion of `C_GenerateRandom`, `C_GenerateKey` on every reachable state; witnesses |
| C94 | `C_CopyObject` as reading into the template and setting from it | the entries filled in by the reading are what the setting uses; C18 for the new handle; witnesses |
| C96, C97, C98 | `Model/Fault.lean`: every call that writes files, with a list of failures, one per file written | the store fails visibly or is the faultless one; inversion of the PIN calls; reload as for C34; witnesses |
| C99, C100, C101 | the machine of C86: `C_Login`, `C_SetPIN`, `C_InitPIN` cut at their critical sections | what the place of a thread says about the schedule so far, by induction on the schedule from its end; witness for C101 |
| C102 | `C_DestroyObject`, `C_GetAttributeValue` cut at their critical sections; freed objects | simulation by the sequential machine, event by event; invariant: the pointers a thread holds are to objects on the list; frame of C81 for reads; witnesses |
| C103 | the whole sequential machine with undefined behaviour as an outcome; conditions on each call in `Spec/Safe.lean` | invariant (handles, capacities, key values of at most 512 bytes, encodable keys) kept by every call; per call: no branch with undefined behaviour is taken; a history that meets the conditions, found by a test proved sound; witnesses for calls that do not |
| C104 | the checks of templates in every call that sets attributes; `Spec/Template.lean` lists the attributes by kind | an entry that makes no sense makes the check fail whatever stands before it; the state is shown equal, using that objects have different identities |
| C105 | the attributes CKA_LOCAL and CKA_KEY_GEN_MECHANISM, which the generators set; `Spec/Origin.lean` | invariant over memory and storage: the mark of each object is plain or that of a generation that succeeded; failing generations are shown to change nothing but the random generator; where each object of each call comes from (`Proofs/Marks.lean`) |
| C106 | `C_CloseSession` in four parts, any number of threads, whole calls in between (`Model/ConcSess.lean`); `Spec/ConcSess.lean` says when no two threads close one session | invariants over schedules: the shape of the session list, whoever holds a session has it open, somebody logged in means a session in use or a thread about to log out; counterexamples for the rest |
| C107 | histories over any number of processes; `Spec/KeyKept.lean` says which calls do not give up a key | invariant with three shapes: while the user is logged in the key is in the list; otherwise its kept form under a PIN of the user is; while the library is ended it is in the files. Storing changes nothing once a kept form exists |
| C108, C82 | the same operations; `Untouched` (`Spec/KeyKept.lean`) says which calls leave a key alone | C44, C47, C49, C77, C78 for the operations, C107 and C81 for the calls in between, C79 for generated pairs (`Props/Lasting.lean`) |
| C109 | histories of calls and process ends (`Spec/Lives.lean`, `Spec/Durable.lean`) | invariant `Durable` (`Proofs/Durable`): the directory holds the present record up to the counts of failed logins and exactly the files that storing the token would write; what a dead process leaves is what `C_Finalize` would have left from a twin of the state with the counts on disk, so the steps of C107 apply. `c109_settled` shows that a call that made a token object leads to such a state. |
| C110, C111 | `Model/Alloc.lean`: the calls that take memory, with the outcome of each allocation | every step either takes the path with enough memory or ends the call; the state is written only after the last allocation; searches by the invariant of C22; witnesses |
| C112 | the sequential machine; `Call.MayChange` in `Spec/Trace.lean` is the table of what an error may leave | case by case over all calls; the object written by `C_SetAttributeValue` is told from the others by its identity; witness |
| C113 | all functions (`anyStep`); `Spec/Codes.lean` has the standard's list of codes for each function and, separately, the codes wolfPKCS11 answers besides | case by case over all functions, in any state; a witness for each code that the standard does not list |
| C114 | two libraries that differ in the secret parts of token keys, run side by side from `C_Logout` on; `Lib.blind` replaces what logging out has made unreadable and every API function commutes with it | `Props/Sealed.lean`: `c114_partial`, `c114_create_partial`; violated when a key cannot be encoded (`Demo.c114_violated`); missing: `C_Finalize` then `C_Initialize` |
| C115 | the sequential machine with ends of processes (`Spec/Lives.lean`); `Spec/Label.lean` follows the label through the answers | invariant over memory and the token's file, by induction over the events |
| C116 | `C_Initialize` in up to four parts and `C_Finalize` in up to three, any number of threads, whole calls in between (`Model/ConcInit.lean`); `Spec/ConcInit.lean` counts the holds on the library | simulation of every schedule by the calls in the order in which they return (`IRel`); the count is the holds plus the threads that have called `C_Finalize` and not yet counted |
| C117 | whether a session has a search in progress, read off the answers (`searchOn`, Spec/Search.lean) | invariant relating it to the session, and closed sessions having none; induction over the history; `c117_exact` counts the refusal that begins a search as the code does |
| C118 | two runs of the whole interface with ends of processes: the token as it was, and a brand-new one in an empty directory (`heard`, `brandNew`, Spec/Erase.lean) | the library on a directory with further files answers alike (Proofs/Onto.lean, one lemma per function); loading reads only files that the token's file names; induction over the events |
| C119 | handles after C_DestroyObject, all later calls of all sessions | each object after a call has the handle of one in the same place before it, or one above all of them (`Later`, Proofs/Stale.lean); induction over the calls |
| C120 | a public key of the token through logins, logouts and PIN changes of anybody (`Passed`, Spec/PublicKey.lean) | the kept form of a public key is the key itself, so encoding, clearing and decoding leave it as it is (Proofs/PublicKey.lean); induction over the calls |
| C121 | counters and times of failed logins over calls and ends of processes (`ClockWithin`, `NoOverflow`, Spec/Counters.lean) | invariant over memory and the token's file: count between 0 and 3, times bounded by the clock and 600 s per call (Props/Counters.lean); the record fits its file format |
| C122 | infinite executions of the two-mutex lock; strong fairness as a hypothesis | leads-to lemmas on top of the invariant of C41; a periodic execution as the witness of starvation; the round of calls extended by induction to any number |
| C123 | the loop of C_GetAttributeValue over any template | induction over the template; witness for the refused case |
| C124 | all calls on sessions, logins and PINs; a reference machine in Spec/Access.lean without lists, hashes or files | refinement: the function `Lib.ref` maps states to states of the machine, every call is one step of it, induction over the history |
| C125 | The rules are a predicate on a call and the state it is made in (`Spec/Orderly.lean`); `Ordered` asks it of every call of a history. | An invariant (`InOrder`, `Proofs/Orderly.lean`): every object of the token is a filled secret, RSA or EC key whose kept form is current or can be made, in memory and in the files. It gives the hypotheses of C107 for every call, so the key is not lost; record bounds come from C121, handle bounds from C27, the absence of undefined behaviour from C103 (`c125_kept_safe`). `Props/OneSlip.lean` shows by histories with one slip (`OneSlip`) that six of the rules are needed. |
| C126 | `C_CreateObject` is split into making the object, reading the head of the list, linking and reading the handle (`Model/ConcMake.lean`); a schedule interleaves these parts with whole calls. | `Mc.Ok` says that what a thread has read is still so; it is kept by every part and by every whole call that leaves the thread's session and object alone. So each part that links an object is the whole call at that moment, and a schedule is a history of whole calls. Partial because the list of a session has no lock: `c126_violated`, `c126_freed`. |
| C127 | `Spec/Ledger.lean` is a ledger kept from calls and answers alone: handles entered, struck out, dropped with their session. | `Books` says that the handles of the library's lists are those of the ledger, in order. Every call that neither makes nor ends objects keeps all handles (`book_plain`); making, destroying, closing and `C_InitToken` change both sides alike. Induction over the history. Over restarts (`c127_restart`) what a load would give is part of the invariant, for applications that obey the rules of C125. Partial because of `C_CloseAllSessions` (`c127_violated`). |
| C128 | The ledger of C127 and the search of C22. | C125's invariant says that all keys of the token are in clear while the user is logged in, so none is skipped (`hits_token`); objects of a session are never encrypted (`sessClear`, an invariant), which gives the search without conditions (`c128_all_partial`); the list is the ledger by C127, the portions are C22. Partial because the search ends after ten objects (`c128_violated`). |
| C129 | The whole path from `C_CreateObject` to the data call. | `Spec/Import.lean` says what a job is and what it should answer. The template is followed through the attribute code to the object (`createObject_import`), the object is kept by every call that spares it (C81), Init and data call are computed on it (`job_init`, `job_run`), and C80 says that the session is used by nothing else in between. |
| C130 | The whole path from `C_CreateObject` to the data call, for RSA and EC keys. | `Spec/ImportPair.lean` says which templates are meant, which key their parts make and what RSA answers. As for C129 (the common part is `import_use`), with `setRsaKey` and `setEcKey` followed through (`half_setKey`); signatures and decryption across two histories by C77 and C78. |
| C131 | `Model/ConcReset.lean`: `C_InitToken` split where the lock of the slot is given back and where hashes are computed without it; any number of threads, all other calls whole. | Linearizability: a relation between the state and the library of the calls that have returned (`TRel`), kept by every event (`TRel.step`); the rule about what may overlap is in `Spec/ConcReset.lean`. The cases outside the rule are violated (`c131_violated`, `c131_violated_session`, `c131_violated_new`). |
| C132 | `Model/Conc.lean` (C_Login in parts, any number of threads, other calls whole). | Invariant over schedules: nobody is logged in unless a session is in use (`logTidy_step`); the rule that a session stays open meanwhile is `OpenMeanwhile` in `Spec/ConcLast.lean`. Outside it `c132_violated`. |
| C133 | The machine of `Model/Api.lean`. | Noninterference: two libraries that differ only in the secret part of one key stay so, call by call, and answer the same (`tw_step` in `Proofs/Silent.lean`); `DifferIn` and `Employs` in `Spec/Silent.lean`. `c133_created` starts at the two `C_CreateObject` calls; it needs that no session's key is younger than the newest object (`Proofs/Aged.lean`). |
| C134 | `Model/ConcSet.lean`: `C_SetAttributeValue` split into look-up, key data and one part per entry, `C_GetAttributeValue` into one part per attribute; any number of threads, all other calls whole. | `Under` says what the object is while the thread is inside: the object at the beginning, with the key data and the entries set so far; every event of the others keeps it (`Under.other`), the thread's own parts advance it (`Under.go`). The end is the whole call; each moment in between is a whole call with a shorter template (`part_whole`). Partial because what is seen in between is neither before nor after: `c134_violated`, `c134_mixed`. |
| C135 | The machine of all calls. | A relation between two libraries: the same but for one key of the token, in no session's use, that differs in its secret part and stored form, and for the store (`LTk`). Every call but those that use the key, log the user in or shut the library down keeps it and gets the same reply (`tk_step`); writing the store and logging out keep it because both keys can be encoded or neither can. |
| C136 | The machine of all calls. | An object is shown with a given reading of one attribute (`ShownIn`); every call that retains it keeps that: calls that spare the object by C81, logging in and out because encoding and decoding keep everything but key material (`Obj.face`), changes of other attributes by C31. What a change or a creation leaves in the first place is C28/C29 (`reading_set`). |
| C137 | The machine of all calls. | C136 across restarts (`c136_restart`) says what the key reads, the order of C125 that it is in clear while the user is logged in, C22 that a search hands out the first ten objects that read as asked for. |
| C138 | The machine of all calls. | The theorems of C108 are proved from the key being the same at both operations (`lasting_…`); that it is comes from C125 here and from C107 there. |
| C139 | The machine of all calls. | The import is that of C129; C125 carries the object, with type, class and value, to the time of its use; there the Init and data calls are computed as for C129. |
| C140 | The machine of all calls. | C79 gives two objects that belong together; C125 carries each to the time of its use; C77 and C78 do the rest. |
| C141 | The machine of all calls. | The import is that of C130; C125 carries the object to the time of its use; what operations with a key answer is shared with C130 (`OnKey`). |
| C142 | Two machines of all calls. | What a party has at the end is shared with C90 (`ec_key`, `ec_same`); that the private key is still the same comes from C125 here and from C107 there. |
| C143 | The machine of all calls, OutLens for wolfCrypt. | Invariant over all histories (every HMAC that was started keeps its hash size, `macOk_keeps`); the data calls one by one. The same generic invariant (`AllOps`, `OpKeeps` in Proofs/Fit.lean) gives C45 after every history (`c45_history_partial`). 32-bit wrap as a witness. |
| C144 | The machine of all calls; RightSig as the specification. | C80 reduces the answer to the operation alone; C49–C52 and C67 judge it; DER encodings are unique (Proofs/DerUnique.lean). |
| C145 | The machine of all calls; the functions `enciphered`, `deciphered` as specification. | C80 reduces the answer to the operation alone, then the mechanisms one by one. |
| C146 | The machine of all calls; the relation `SignedWith` as specification. | C80 reduces the answer to the operation alone, then the mechanisms one by one (C49, C52). |
| C95, C53 for histories | last successful Init of an open session, read off the answers | invariant relating it to the session's operation; the AES-CBC state of every session is in order (`Proofs/Fit`), so that `C_UnwrapKey` never leaves a decryption behind; `openSession_spec`; witness for `C_WrapKey` |
| C84, C85 | `C_WrapKey`, `C_UnwrapKey`; the PKCS#8 encoder and decoder abstract | composition of the CBC-PAD theorems of C44, C66 with the theorem of the new object; frame of the other sessions; witnesses |
| C67, C68, C73, C77, C78, C79 | the RSA, ECDSA, HMAC calls over abstract primitives; generation | composition of call-level theorems with C80 and C81 to whole histories |
| C70 | all files of the directory | invariant: every key in a file is encrypted |
| C81 | objects of the machine | frame: only calls that name an object change it |
