{"id": "C01", "title": "Nothing works before C_Initialize", "statement": "While the library is not initialised every other API call returns CKR_CRYPTOKI_NOT_INITIALIZED and changes nothing; for every history in which C_Finalize is never called more often than C_Initialize has succeeded, the library is initialised exactly when the number of successful C_Initialize calls exceeds the number of C_Finalize calls.", "quantifier": "every finite history of API calls starting from a process in which the library has never been initialised and every next call", "why_tests_cant": "The claim is about all interleavings of initialise/finalise with all other calls, an infinite set of histories.", "anchors": ["src/wolfpkcs11.c:C_Initialize", "src/wolfpkcs11.c:C_Finalize", "src/internal.c:WP11_Library_Init", "src/internal.c:WP11_Library_Final", "src/internal.c:WP11_Library_IsInitialized"]}
{"id": "C02", "title": "A successful C_Initialize leaves the library usable", "statement": "Whenever C_Initialize returns CKR_OK the library is initialised afterwards. (Code violates this: a stray C_Finalize makes the reference count negative and the next C_Initialize succeeds without initialising anything.)", "quantifier": "every finite history of API calls starting from a process in which the library has never been initialised, including unbalanced C_Finalize calls", "why_tests_cant": "Needs a history test authors do not write; the positive half quantifies over all balanced histories.", "anchors": ["src/internal.c:WP11_Library_Init", "src/internal.c:WP11_Library_Final"]}
{"id": "C03", "title": "Session handles are unique and resolve to their own session", "statement": "At every point two different open sessions have different handles, C_OpenSession never returns the handle of a session that is already open, and the returned handle is accepted by C_GetSessionInfo with the read-only/read-write mode that was asked for until that session is closed.", "quantifier": "every finite history of API calls starting from a process in which the library has never been initialised", "why_tests_cant": "Handle allocation depends on the whole open/close history.", "anchors": ["src/slot.c:C_OpenSession", "src/internal.c:WP11_Slot_OpenSession", "src/internal.c:wp11_Slot_AddSession", "src/internal.c:wp11_Slot_FreeSession", "src/internal.c:WP11_Session_Get"]}
{"id": "C04", "title": "At most 70 sessions, and refusal only when 70 are open", "statement": "Never more than 70 sessions are open, and C_OpenSession returns CKR_SESSION_COUNT if and only if 70 sessions are open (and the call is otherwise valid).", "quantifier": "every finite history of API calls starting from a process in which the library has never been initialised", "why_tests_cant": "Tests open a handful of sessions in one order; the claim is about all open/close orders.", "anchors": ["src/internal.c:WP11_Slot_OpenSession", "src/internal.c:wp11_Slot_AddSession", "wolfpkcs11/internal.h:WP11_SESSION_CNT_MAX"]}
{"id": "C05", "title": "Closing one session affects no other session", "statement": "C_CloseSession makes exactly the given handle invalid; every other open session stays open with the same mode, the same session objects, the same search state and the same active operation.", "quantifier": "every finite history of API calls starting from a process in which the library has never been initialised and every handle closed", "why_tests_cant": "Depends on the position of the session in the list and the history that produced it.", "anchors": ["src/slot.c:C_CloseSession", "src/internal.c:WP11_Slot_CloseSession", "src/internal.c:wp11_Slot_FreeSession", "src/internal.c:wp11_Session_Final"]}
{"id": "C06", "title": "C_CloseAllSessions closes every session", "statement": "After C_CloseAllSessions no session handle is valid and nobody is logged in. (Code violates this: the session with the lowest handle stays open and the login state is kept.)", "quantifier": "every finite history of API calls starting from a process in which the library has never been initialised", "why_tests_cant": "The claim is over all sets of open sessions.", "anchors": ["src/slot.c:C_CloseAllSessions", "src/internal.c:WP11_Slot_CloseSessions"]}
{"id": "C07", "title": "Closing the last session logs out", "statement": "When C_CloseSession closes the last open session, nobody is logged in afterwards; a later C_OpenSession therefore gives a public session until a new C_Login succeeds.", "quantifier": "every finite history of API calls starting from a process in which the library has never been initialised", "why_tests_cant": "All histories of opens, closes and logins.", "anchors": ["src/internal.c:WP11_Slot_CloseSession", "src/internal.c:WP11_Slot_Logout"]}
{"id": "C08", "title": "No read-only session while the security officer is logged in", "statement": "In every sequential history there is never a moment at which the SO is logged in and a read-only session is open: SO login is refused with CKR_SESSION_READ_ONLY_EXISTS while one is open and opening one is refused with CKR_SESSION_READ_WRITE_SO_EXISTS while the SO is logged in.", "quantifier": "every finite history of API calls starting from a process in which the library has never been initialised", "why_tests_cant": "Safety invariant over unbounded histories.", "anchors": ["src/internal.c:WP11_Slot_OpenSession", "src/internal.c:WP11_Slot_SOLogin"]}
{"id": "C09", "title": "No read-only session with SO login under concurrency", "statement": "The exclusion of C08 also holds when threads run C_Login and C_OpenSession concurrently. (Code violates this: the read-only check and the setting of the login state are separate critical sections.)", "quantifier": "every interleaving of the critical sections of any number of threads", "why_tests_cant": "Schedules cannot be enumerated by tests.", "anchors": ["src/internal.c:WP11_Slot_SOLogin", "src/internal.c:WP11_Slot_OpenSession"]}
{"id": "C10", "title": "Login needs the right PIN", "statement": "C_Login as SO (user) returns CKR_OK only if the PIN offered equals the SO (user) PIN most recently set, the PIN was set, nobody is logged in, and the account is not locked; and in every such situation (for the SO: with no read-only session open; for the user: when the stored objects can be decrypted; after a restart: when the files of the token could be read) it does return CKR_OK, also in later processes on the same directory, whether the earlier ones called C_Finalize or were killed between two calls. Stated as refinement of an abstract account that stores the PINs in clear.", "quantifier": "every finite history of API calls starting from a process in which the library has never been initialised; every PIN; every hash function that is injective for each seed", "why_tests_cant": "The PIN in force depends on the history; PIN space is not enumerable.", "anchors": ["src/slot.c:C_Login", "src/internal.c:WP11_Slot_SOLogin", "src/internal.c:WP11_Slot_UserLogin", "src/internal.c:WP11_Slot_CheckSOPin", "src/internal.c:WP11_Slot_CheckUserPin", "src/internal.c:HashPIN"]}
{"id": "C11", "title": "Three wrong PINs lock the account", "statement": "In sequential use, after three consecutive wrong PINs every further C_Login for that account is refused, whatever the PIN, as long as the clock has not passed lock time plus the timeout; the timeout grows by 600 s (SO) or 60 s (user) with every lock and is reset only by a successful login; hence in any window in which the clock does not pass the unlock time at most three wrong guesses are evaluated.", "quantifier": "every finite history of API calls starting from a process in which the library has never been initialised and every sequence of clock readings", "why_tests_cant": "Claims about every guess sequence and every clock behaviour.", "anchors": ["src/internal.c:WP11_Slot_SOLogin", "src/internal.c:WP11_Slot_UserLogin"]}
{"id": "C12", "title": "The lockout cannot be bypassed by concurrency", "statement": "With C_Login calls running concurrently, the number of evaluated wrong guesses before a lock is still bounded. (Code violates this: the counter is tested for equality with 3, so concurrent failures can step over it and the account then never locks.)", "quantifier": "every interleaving of any number of login attempts", "why_tests_cant": "Needs adversarial schedules.", "anchors": ["src/internal.c:WP11_Slot_UserLogin", "src/internal.c:WP11_Slot_SOLogin"]}
{"id": "C13", "title": "One login state for all sessions", "statement": "C_GetSessionInfo reports for every open session the state determined by the token-wide login state and the session's own mode: RW_SO iff SO logged in, RO_USER/RW_USER iff user logged in, RO_PUBLIC/RW_PUBLIC otherwise; login or logout through any session changes it for all of them.", "quantifier": "every finite history of API calls starting from a process in which the library has never been initialised and every open session", "why_tests_cant": "All session sets and histories.", "anchors": ["src/slot.c:C_GetSessionInfo", "src/internal.c:WP11_Session_GetState"]}
{"id": "C14", "title": "C_InitToken cannot wipe an initialised token without the SO PIN", "statement": "On an initialised token C_InitToken succeeds only when no session is open and the PIN offered is the SO PIN; in every other case it fails and the token (label, PINs, objects, counters) is unchanged. On success no object and no user PIN remains.", "quantifier": "every finite history of API calls starting from a process in which the library has never been initialised, every PIN and label", "why_tests_cant": "All histories and PINs.", "anchors": ["src/slot.c:C_InitToken", "src/internal.c:WP11_Slot_TokenReset", "src/internal.c:WP11_Slot_HasSession"]}
{"id": "C15", "title": "Every wrong PIN is counted", "statement": "A wrong PIN offered to any API function counts towards the lock. (Code violates this: C_SetPIN in a public read/write session and C_InitToken evaluate any number of guesses without touching the counters.)", "quantifier": "every finite history of API calls starting from a process in which the library has never been initialised", "why_tests_cant": "Unbounded number of guesses.", "anchors": ["src/slot.c:C_SetPIN", "src/slot.c:C_InitToken", "src/internal.c:WP11_Slot_CheckUserPin", "src/internal.c:WP11_Slot_CheckSOPin"]}
{"id": "C16", "title": "PINs change only by authorised calls", "statement": "The SO PIN changes only through C_InitToken (subject to C14) or C_SetPIN in an SO session with the correct old SO PIN; the user PIN changes only through C_InitPIN in an SO session, C_SetPIN in a read/write non-SO session with the correct old user PIN, or C_InitToken (which removes it). New PINs always have 4 to 32 bytes.", "quantifier": "every finite history of API calls starting from a process in which the library has never been initialised and every next call", "why_tests_cant": "Frame property over all calls.", "anchors": ["src/slot.c:C_InitPIN", "src/slot.c:C_SetPIN", "src/internal.c:WP11_Slot_SetSOPin", "src/internal.c:WP11_Slot_SetUserPin"]}
{"id": "C17", "title": "Object caps", "statement": "Never more than 64 objects exist on the token nor more than 8 in a session; creation succeeds up to the cap and is refused beyond it, leaving the existing objects unchanged.", "quantifier": "every finite history of API calls starting from a process in which the library has never been initialised", "why_tests_cant": "All create/destroy histories.", "anchors": ["src/internal.c:WP11_Session_AddObject", "src/internal.c:WP11_Session_RemoveObject", "wolfpkcs11/internal.h:WP11_TOKEN_OBJECT_CNT_MAX"]}
{"id": "C18", "title": "Object handles are unique and resolve", "statement": "At every point different token objects have different handles, different objects of one session have different handles, and the handle returned by C_CreateObject/C_GenerateKey/... denotes the new object in that session (shown for all handle numbers below 2^28).", "quantifier": "every finite history of API calls starting from a process in which the library has never been initialised", "why_tests_cant": "Handles depend on the full create/destroy history.", "anchors": ["src/internal.c:WP11_Session_AddObject", "src/internal.c:WP11_Object_Find"]}
{"id": "C19", "title": "Handle numbers never run into the token/session bit", "statement": "A handle returned for a session object always denotes that object in later calls, however long the session lives. (Code violates this: handle numbers are never recycled while the newest object lives, and after 2^28 creations the number spills into the bit that selects the token's list.)", "quantifier": "histories of any length", "why_tests_cant": "Needs more than 2^28 calls.", "anchors": ["src/internal.c:OBJ_HANDLE", "src/internal.c:WP11_Session_AddObject", "src/internal.c:WP11_Object_Find"]}
{"id": "C20", "title": "Session objects are private to their session and die with it", "statement": "An object created as a session object cannot be named or found from any other session, and once its session has been closed no call can reach it, even after the session slot has been reused.", "quantifier": "every finite history of API calls starting from a process in which the library has never been initialised", "why_tests_cant": "All histories, all pairs of sessions.", "anchors": ["src/internal.c:wp11_Session_Final", "src/internal.c:WP11_Object_Find", "src/internal.c:wp11_Session_FindNext"]}
{"id": "C21", "title": "Read-only sessions change nothing", "statement": "No call made on a read-only session creates, destroys or modifies an object or changes a PIN.", "quantifier": "every finite history of API calls starting from a process in which the library has never been initialised, every call on a read-only session", "why_tests_cant": "All calls and arguments.", "anchors": ["src/crypto.c:C_CreateObject", "src/crypto.c:C_DestroyObject", "src/crypto.c:SetAttributeValue", "src/crypto.c:C_GenerateKey", "src/crypto.c:C_UnwrapKey", "src/crypto.c:C_DeriveKey", "src/slot.c:C_SetPIN"]}
{"id": "C22", "title": "Search returns exactly the matching objects", "statement": "C_FindObjectsInit followed by any sequence of C_FindObjects calls with any batch sizes returns, each exactly once and in list order, the handles of the first ten objects visible to the session that match every attribute of the template (session objects first, then token objects), and nothing else; then zero results until C_FindObjectsFinal.", "quantifier": "every object population, every template, every sequence of batch sizes", "why_tests_cant": "Unbounded populations, templates and batchings.", "anchors": ["src/crypto.c:C_FindObjectsInit", "src/crypto.c:C_FindObjects", "src/crypto.c:C_FindObjectsFinal", "src/internal.c:WP11_Session_Find", "src/internal.c:wp11_Session_FindNext", "src/internal.c:WP11_Object_MatchAttr"]}
{"id": "C23", "title": "Private objects are invisible without login", "statement": "A session that is not logged in as user neither finds a private object nor reads its attributes. (Code violates this: the visibility test reads the wrong flag word with the wrong operator, and lookup by handle has no test at all.)", "quantifier": "every finite history of API calls starting from a process in which the library has never been initialised", "why_tests_cant": "All populations and templates.", "anchors": ["src/internal.c:wp11_Session_FindNext", "src/internal.c:WP11_Object_Find", "src/crypto.c:C_GetAttributeValue"]}
{"id": "C24", "title": "C_GetAttributeValue never writes past the caller's buffer", "statement": "For every attribute type and buffer the number of bytes written is at most the buffer length given, the required length reported by a NULL query is the length written when the buffer is large enough, and a too small buffer is left untouched with CKR_BUFFER_TOO_SMALL. (Code violates this for CKA_EC_POINT, by 2-3 bytes; proved for all other attributes.)", "quantifier": "every object, attribute type, buffer length", "why_tests_cant": "All objects and lengths.", "anchors": ["src/crypto.c:C_GetAttributeValue", "src/internal.c:WP11_Object_GetAttr", "src/internal.c:GetEcPoint", "src/internal.c:GetData", "src/internal.c:GetMPIData", "src/internal.c:GetULong", "src/internal.c:GetBool"]}
{"id": "C25", "title": "Sensitive or unextractable key material is never returned by C_GetAttributeValue", "statement": "If a key object is sensitive or not extractable, the output of C_GetAttributeValue for any template and any buffers does not depend on its secret components: replacing them by any others of the same kind gives the same result.", "quantifier": "every private or secret key object, every template", "why_tests_cant": "Non-interference over all key values and templates.", "anchors": ["src/internal.c:RsaObject_GetAttr", "src/internal.c:EcObject_GetAttr", "src/internal.c:DhObject_GetAttr", "src/internal.c:SecretObject_GetAttr"]}
{"id": "C26", "title": "A sensitive key stays sensitive, an unextractable key stays unextractable", "statement": "No history of calls makes a sensitive key non-sensitive or an unextractable key extractable. (Code violates this: C_SetAttributeValue flips both flags.)", "quantifier": "every finite history of API calls starting from a process in which the library has never been initialised", "why_tests_cant": "All histories.", "anchors": ["src/crypto.c:C_SetAttributeValue", "src/crypto.c:SetAttributeValue", "src/internal.c:WP11_Object_SetAttr"]}
{"id": "C27", "title": "C_WrapKey respects CKA_EXTRACTABLE", "statement": "C_WrapKey never exports a key whose CKA_EXTRACTABLE is false. (Code violates this: no flag is consulted.)", "quantifier": "every key and wrapping key", "why_tests_cant": "All keys and flags.", "anchors": ["src/crypto.c:C_WrapKey"]}
{"id": "C28", "title": "Boolean attributes read back as set", "statement": "After a successful C_SetAttributeValue of a boolean attribute, C_GetAttributeValue returns the value set and every other boolean attribute is unchanged. (Code violates this for the protection flags, which are stored in one word and read from another, and for CKA_UNWRAP, which is stored as CKA_WRAP; proved for the other usage flags.)", "quantifier": "every object state, attribute, value", "why_tests_cant": "All flag words.", "anchors": ["src/internal.c:WP11_Object_SetAttr", "src/internal.c:WP11_Object_GetAttr"]}
{"id": "C29", "title": "Data attributes read back as set", "statement": "CKA_LABEL, CKA_ID, CKA_START_DATE, CKA_END_DATE and CKA_CLASS read back exactly as set for every value, the key components given at creation read back (as numbers for RSA/EC, as bytes for secret, DH and certificate values) when they are readable at all.", "quantifier": "every value and length", "why_tests_cant": "All byte strings.", "anchors": ["src/internal.c:WP11_Object_SetAttr", "src/internal.c:WP11_Object_GetAttr", "src/internal.c:WP11_Object_SetRsaKey", "src/internal.c:WP11_Object_SetSecretKey", "src/internal.c:WP11_Object_SetCert", "src/internal.c:WP11_Object_SetDhKey"]}
{"id": "C30", "title": "Setting key material never writes outside the object", "statement": "Creating an object or setting its value never copies more bytes than the object's fixed-size buffer holds. (Code violates this for secret keys, whose length is unchecked against 512; proved for DH values and certificates and for secret keys up to 512 bytes.)", "quantifier": "every value length", "why_tests_cant": "All lengths.", "anchors": ["src/internal.c:WP11_Object_SetSecretKey", "src/internal.c:WP11_Object_SetDhKey", "src/internal.c:WP11_Object_SetCert"]}
{"id": "C31", "title": "C_SetAttributeValue changes only what the template names", "statement": "A C_SetAttributeValue call leaves the key material of an object unchanged unless the template contains key-material attributes, and changes nothing at all if it fails. (Code violates both: the key setter always runs and clears the key first, and attributes are applied one by one.)", "quantifier": "every object, template", "why_tests_cant": "All objects and templates.", "anchors": ["src/crypto.c:SetAttributeValue", "src/internal.c:WP11_Object_SetSecretKey"]}
{"id": "C32", "title": "Failed creation leaves no object behind", "statement": "If C_CreateObject, C_CopyObject, C_GenerateKey, C_UnwrapKey, C_DeriveKey or C_GenerateKeyPair does not return CKR_OK then every object that existed before exists unchanged and no new object is reachable. (Code violates this for C_GenerateKeyPair: when the private key does not fit, the public key is freed while still linked.)", "quantifier": "every finite history of API calls starting from a process in which the library has never been initialised", "why_tests_cant": "All failure points.", "anchors": ["src/crypto.c:C_CreateObject", "src/crypto.c:AddObject", "src/crypto.c:C_GenerateKeyPair"]}
{"id": "C33", "title": "Storage codec round trip", "statement": "Every scalar, array and object/token record written to storage reads back as the same value from the position where it was written, for all values in range.", "quantifier": "every record value, every suffix in the file", "why_tests_cant": "All values.", "anchors": ["src/internal.c:wp11_storage_write_int", "src/internal.c:wp11_storage_write_ulong", "src/internal.c:wp11_storage_write_alloc_array", "src/internal.c:wp11_Object_Store", "src/internal.c:wp11_Object_Load", "src/internal.c:wp11_Token_Store", "src/internal.c:wp11_Token_Load"]}
{"id": "C34", "title": "Tokens survive restart", "statement": "Storing the token and loading it in a new process yields the same label, PIN hashes and seeds, failure counters, and the same objects in the same order with the same attributes (private key material in encrypted form). Proved for tokens without certificates; the code violates it when a certificate is stored.", "quantifier": "every token state", "why_tests_cant": "All token states.", "anchors": ["src/internal.c:wp11_Token_Store", "src/internal.c:wp11_Token_Load", "src/internal.c:wp11_Slot_Store", "src/internal.c:wp11_Slot_Load"]}
{"id": "C35", "title": "A crash during an update loses at most the update", "statement": "If the process dies at any point during the write-out of a token, the next start finds either the old or the new token. (Code violates this: files are overwritten in place one after the other.)", "quantifier": "every crash point of every store", "why_tests_cant": "Crash points.", "anchors": ["src/internal.c:wp11_Token_Store", "src/internal.c:wp11_Storage_Open", "src/internal.c:wp11_Slot_Store"]}
{"id": "C36", "title": "Different stored items have different files", "statement": "Two different (kind, slot, object) triples never map to the same file name. (Code violates this for storage paths that leave too little room in the fixed name buffer; proved for paths short enough for the longest name.)", "quantifier": "every pair of stored items, every path length", "why_tests_cant": "All ids and path lengths.", "anchors": ["src/internal.c:wolfPKCS11_Store_Open"]}
{"id": "C37", "title": "Destroyed objects leave no copy in storage", "statement": "After C_DestroyObject of a token object no file contains its key. (Code violates this: remaining objects are renumbered and the highest-numbered file set stays behind.)", "quantifier": "every finite history of API calls starting from a process in which the library has never been initialised", "why_tests_cant": "All positions and counts.", "anchors": ["src/internal.c:wp11_Object_Unstore", "src/internal.c:WP11_Session_RemoveObject"]}
{"id": "C38", "title": "No nonce is used twice with one storage key", "statement": "No two encryptions under the same token key use the same nonce. (Code violates this: the IV of a newly created token object is all zero.)", "quantifier": "every finite history of API calls starting from a process in which the library has never been initialised", "why_tests_cant": "All histories.", "anchors": ["src/internal.c:wp11_EncryptData", "src/internal.c:wp11_Object_Encode"]}
{"id": "C39", "title": "Changing the user PIN keeps private keys usable", "statement": "After C_SetPIN/C_InitPIN, logging in with the new PIN makes every private key stored before usable again. (Code violates this when the change is made while objects are encrypted; proved when the user is logged in.)", "quantifier": "every finite history of API calls starting from a process in which the library has never been initialised", "why_tests_cant": "All histories.", "anchors": ["src/internal.c:WP11_Slot_SetUserPin", "src/internal.c:WP11_Slot_UserLogin", "src/internal.c:wp11_Object_Decode"]}
{"id": "C40", "title": "Logout then login restores private key material", "statement": "Encrypting the stored objects at logout and decrypting them at login with the same key gives back the same key material, and with a different key the login fails rather than yielding other key material.", "quantifier": "every object population, every authenticated cipher satisfying the stated laws", "why_tests_cant": "All populations and keys.", "anchors": ["src/internal.c:WP11_Slot_Logout", "src/internal.c:WP11_Slot_UserLogin", "src/internal.c:wp11_Object_Encode", "src/internal.c:wp11_Object_Decode"]}
{"id": "C41", "title": "The read/write lock excludes", "statement": "In every interleaving of any number of threads taking and releasing the lock in read or write mode, a thread in write mode is alone, and readers may share.", "quantifier": "every interleaving of any number of threads", "why_tests_cant": "Schedules.", "anchors": ["src/internal.c:WP11_Lock_LockRW", "src/internal.c:WP11_Lock_UnlockRW", "src/internal.c:WP11_Lock_LockRO", "src/internal.c:WP11_Lock_UnlockRO"]}
{"id": "C42", "title": "The read/write lock never deadlocks by itself", "statement": "In every reachable lock state in which some thread wants the lock and no thread is inside its critical section, some thread can take a step; and taking the lock in read mode while holding it in read mode is possible without a writer in between.", "quantifier": "every interleaving", "why_tests_cant": "Schedules.", "anchors": ["src/internal.c:WP11_Lock_LockRO", "src/internal.c:WP11_Lock_UnlockRO"]}
{"id": "C43", "title": "AES-CBC does not depend on how the data is split", "statement": "In a session in which no earlier CBC operation was left unfinished: for every way of splitting a message over C_EncryptUpdate (C_DecryptUpdate) calls, the concatenated output equals the CBC encryption (decryption) of the whole blocks of the message, and equals the output of the single-part call on block-aligned messages.", "quantifier": "every key, IV, message, split", "why_tests_cant": "All splits of all messages.", "anchors": ["src/internal.c:WP11_AesCbc_EncryptUpdate", "src/internal.c:WP11_AesCbc_DecryptUpdate", "src/crypto.c:C_EncryptUpdate", "src/crypto.c:C_DecryptUpdate"]}
{"id": "C44", "title": "AES-CBC-PAD does not depend on how the data is split and round-trips", "statement": "In a session in which no earlier CBC operation was left unfinished: for every split of the plaintext and every split of the resulting ciphertext, multi-part encryption gives the CBC encryption of the PKCS#7 padded message and multi-part decryption gives back the message; the same holds for the single-part functions.", "quantifier": "every key, IV, message, splits", "why_tests_cant": "All splits.", "anchors": ["src/internal.c:WP11_AesCbcPad_EncryptUpdate", "src/internal.c:WP11_AesCbcPad_EncryptFinal", "src/internal.c:WP11_AesCbcPad_DecryptUpdate", "src/internal.c:WP11_AesCbcPad_DecryptFinal"]}
{"id": "C45", "title": "CBC calls respect the output buffer", "statement": "C_Encrypt/C_Decrypt, their Update and Final forms never write more bytes than the output length given, and the length they report is the number of bytes written. (Code violates this for AES-CBC-PAD single-part encryption and decryption and the Final calls; proved for AES-CBC and for the CBC-PAD Update calls.)", "quantifier": "every data length, buffer length, operation state", "why_tests_cant": "All lengths.", "anchors": ["src/crypto.c:C_Encrypt", "src/crypto.c:C_Decrypt", "src/crypto.c:C_EncryptUpdate", "src/crypto.c:C_DecryptUpdate", "src/crypto.c:C_EncryptFinal", "src/crypto.c:C_DecryptFinal"]}
{"id": "C46", "title": "Invalid padding is rejected", "statement": "AES-CBC-PAD decryption fails if the padding is not valid PKCS#7 padding. (Code violates this: the padding is never checked.)", "quantifier": "every ciphertext", "why_tests_cant": "All ciphertexts.", "anchors": ["src/internal.c:WP11_AesCbcPad_DecryptFinal", "src/crypto.c:C_DecryptFinal"]}
{"id": "C47", "title": "AES-GCM multi-part equals single-part", "statement": "For every split, multi-part decryption gives the single-part result, and multi-part encryption gives the single-part ciphertext and tag. (Decryption proved; encryption violated: every part is encrypted from the same counter and the tag covers the last part only.)", "quantifier": "every message, split", "why_tests_cant": "All splits.", "anchors": ["src/internal.c:WP11_AesGcm_EncryptUpdate", "src/internal.c:WP11_AesGcm_EncryptFinal", "src/internal.c:WP11_AesGcm_DecryptUpdate", "src/internal.c:WP11_AesGcm_DecryptFinal"]}
{"id": "C48", "title": "One initialisation, one message", "statement": "After a single-part operation has returned its result the operation is over: another data call without a new Init is refused with CKR_OPERATION_NOT_INITIALIZED. (Proved for AES-CBC, AES-CBC-PAD and HMAC; violated for AES-GCM, RSA and ECDSA, for GCM with nonce reuse.)", "quantifier": "every finite history of API calls starting from a process in which the library has never been initialised", "why_tests_cant": "All histories.", "anchors": ["src/crypto.c:C_Encrypt", "src/crypto.c:C_Sign", "src/crypto.c:C_Verify", "src/internal.c:WP11_AesGcm_Encrypt"]}
{"id": "C49", "title": "HMAC does not depend on how the data is split", "statement": "For every split, C_SignUpdate*/C_SignFinal gives the MAC C_Sign gives on the concatenation, and C_VerifyFinal/C_Verify accept exactly that MAC.", "quantifier": "every key, message, split, candidate MAC", "why_tests_cant": "All splits and MACs.", "anchors": ["src/internal.c:WP11_Hmac_Sign", "src/internal.c:WP11_Hmac_Verify", "src/internal.c:WP11_Hmac_Update", "src/internal.c:WP11_Hmac_SignFinal", "src/internal.c:WP11_Hmac_VerifyFinal"]}
{"id": "C50", "title": "RSA PKCS#1 v1.5 verification accepts only the exact encoded data", "statement": "C_Verify with CKM_RSA_PKCS reports success exactly when the data recovered from the signature equals the data given, including its length.", "quantifier": "every signature and data", "why_tests_cant": "All signatures.", "anchors": ["src/internal.c:WP11_RsaPkcs15_Verify", "src/crypto.c:C_Verify"]}
{"id": "C51", "title": "Raw RSA verification accepts only signatures of the data", "statement": "C_Verify with CKM_RSA_X_509 reports success exactly when the recovered block equals the data padded on the left with zeros to the key length. (Code violates this: data longer than the block is accepted with any signature, and for 2048-bit keys the bytes in front of short data are not checked.)", "quantifier": "every signature, data, key length", "why_tests_cant": "All signatures and data lengths.", "anchors": ["src/internal.c:WP11_Rsa_Verify", "src/crypto.c:C_Verify"]}
{"id": "C52", "title": "ECDSA signature conversion is lossless", "statement": "For every pair (r,s) below 2^(8n) the fixed-length form C_Sign returns and the DER form used internally convert into each other without loss, the conversion writes exactly the expected number of bytes, and C_Verify refuses every signature whose length is not twice the order size.", "quantifier": "every r, s, order size n", "why_tests_cant": "All r, s, n.", "anchors": ["src/internal.c:Pkcs11ECDSASig_Encode", "src/internal.c:Pkcs11ECDSASig_Decode", "src/internal.c:WP11_Ec_Verify", "src/internal.c:WP11_Ec_Sign"]}
{"id": "C53", "title": "Cryptographic calls need a matching Init", "statement": "A data call (C_Encrypt, C_Decrypt, C_Sign, C_Verify and their Update/Final forms) produces output or changes state only if the session's most recent successful Init was of the same kind; otherwise it returns CKR_OPERATION_NOT_INITIALIZED or CKR_MECHANISM_INVALID and writes nothing.", "quantifier": "every finite history of API calls starting from a process in which the library has never been initialised", "why_tests_cant": "All call orders.", "anchors": ["src/crypto.c:C_Encrypt", "src/crypto.c:C_EncryptInit", "src/crypto.c:C_Decrypt", "src/crypto.c:C_Sign", "src/crypto.c:C_Verify", "src/internal.c:WP11_Session_IsOpInitialized"]}
{"id": "C54", "title": "Sessions do not disturb each other's operations", "statement": "A call on one session never changes the active operation, its buffered data, the search results or the session objects of another session.", "quantifier": "every finite history of API calls starting from a process in which the library has never been initialised, every call, every other session", "why_tests_cant": "All interleavings of sessions.", "anchors": ["src/internal.c:WP11_Session_Get", "src/crypto.c:C_EncryptUpdate"]}
{"id": "C55", "title": "Keys in use stay valid", "statement": "An operation in progress never touches freed memory. (Code violates this: destroying the key leaves the pointer in every session that initialised with it; proved for histories in which no key object is destroyed during an operation and token is not re-initialised.)", "quantifier": "every finite history of API calls starting from a process in which the library has never been initialised", "why_tests_cant": "All histories.", "anchors": ["src/crypto.c:C_DestroyObject", "src/internal.c:WP11_Session_RemoveObject", "src/internal.c:wp11_Session_Final"]}
{"id": "C56", "title": "Key usage attributes are enforced", "statement": "C_EncryptInit/C_SignInit/... refuse a key whose CKA_ENCRYPT/CKA_SIGN/... is false. (Code violates this: the flags are never consulted.)", "quantifier": "every key", "why_tests_cant": "All keys and flags.", "anchors": ["src/crypto.c:C_EncryptInit", "src/crypto.c:C_SignInit", "src/crypto.c:C_DeriveKey"]}
{"id": "C57", "title": "DER building blocks are well formed", "statement": "The DER length encoding and the DH parameter encoding produced for storage are canonical DER and parse back to the same numbers, and the computed size equals the number of bytes written, for every non-zero p and g whose encoding is shorter than 2^24 bytes (for a zero p or g the encoder emits an empty INTEGER, which is not DER).", "quantifier": "every length, every p and g", "why_tests_cant": "All values.", "anchors": ["src/internal.c:wp11_BytePrecision", "src/internal.c:SetLength", "src/internal.c:wp11_DhParamsToDer"]}
{"id": "C58", "title": "EC parameter and point attributes are parsed strictly", "statement": "CKA_EC_PARAMS and CKA_EC_POINT values are accepted only if they are a complete DER OBJECT IDENTIFIER / OCTET STRING with a length field that accounts for every byte, no byte outside the attribute is read, and CKA_EC_POINT as produced by C_GetAttributeValue is accepted again.", "quantifier": "every byte string", "why_tests_cant": "All byte strings.", "anchors": ["src/internal.c:EcSetParams", "src/internal.c:EcSetPoint", "src/internal.c:GetEcPoint", "src/internal.c:GetEcParams"]}
{"id": "C59", "title": "The public exponent asked for is the one used", "statement": "C_GenerateKeyPair for RSA generates a key with the public exponent of the template. (Code violates this: the bytes are assembled in reverse order; proved only for exponents whose big-endian bytes read the same reversed, e.g. 65537 and 3.)", "quantifier": "every exponent", "why_tests_cant": "All exponents.", "anchors": ["src/internal.c:WP11_Rsa_GenerateKeyPair"]}
{"id": "C60", "title": "Derived keys have the requested length and value", "statement": "C_DeriveKey yields a key of CKA_VALUE_LEN bytes consisting of the trailing bytes of the shared secret and reads only the shared secret. (Code violates this when CKA_VALUE_LEN is smaller than the shared secret; proved when they are equal.)", "quantifier": "every shared secret and requested length", "why_tests_cant": "All lengths.", "anchors": ["src/crypto.c:C_DeriveKey", "src/crypto.c:SymmKeyLen"]}
{"id": "C61", "title": "Size queries follow the two-call protocol", "statement": "C_GetSlotList, C_GetMechanismList and C_GetAttributeValue with a NULL buffer report the length, with a too small buffer return CKR_BUFFER_TOO_SMALL without writing, and with a sufficient buffer write exactly the reported number of elements.", "quantifier": "every buffer size", "why_tests_cant": "All sizes.", "anchors": ["src/slot.c:C_GetSlotList", "src/slot.c:C_GetMechanismList", "src/internal.c:WP11_GetSlotList"]}
{"id": "C62", "title": "C_GetTokenInfo tells the truth about PIN state", "statement": "The flags returned reflect the token: CKF_TOKEN_INITIALIZED iff initialised, CKF_USER_PIN_INITIALIZED iff a user PIN is set, COUNT_LOW iff at least one failure is pending, FINAL_TRY iff exactly one try is left, PIN_LOCKED only if a login attempt at that time is refused.", "quantifier": "every finite history of API calls starting from a process in which the library has never been initialised and every clock reading", "why_tests_cant": "All histories.", "anchors": ["src/slot.c:C_GetTokenInfo", "src/internal.c:WP11_Slot_TokenFailedLogin", "src/internal.c:WP11_Slot_TokenFailedExpire"]}
{"id": "C63", "title": "A new operation starts fresh", "statement": "After a successful Init the results of the data calls do not depend on operations previously run or abandoned in the session. (Code violates this: bytes of an abandoned AES-CBC update are kept and prepended; proved for all other mechanisms, and for AES-CBC if nothing was left over.)", "quantifier": "every history of the session", "why_tests_cant": "All histories.", "anchors": ["src/internal.c:WP11_Session_SetCbcParams", "src/internal.c:WP11_Session_SetGcmParams", "src/internal.c:wp11_Session_Final"]}
{"id": "C64", "title": "No search results without a search", "statement": "C_FindObjects delivers handles only between a successful C_FindObjectsInit and the next C_FindObjectsFinal of the same session. (Code violates this: after C_FindObjectsFinal, and in a new session that reuses the place of a closed one, it answers CKR_OK and goes on delivering the previous results; proved for histories without a search.)", "quantifier": "every finite history of API calls starting from a process in which the library has never been initialised", "why_tests_cant": "All histories.", "anchors": ["src/crypto.c:C_FindObjects", "src/crypto.c:C_FindObjectsFinal", "src/internal.c:WP11_Session_Find", "src/internal.c:WP11_Session_FindGet"]}
{"id": "C66", "title": "The plaintext returned depends only on key, IV and ciphertext", "statement": "A decryption that returns CKR_OK returns bytes determined by the key, the IV and the ciphertext handed over. (Code violates this for AES-CBC-PAD: bytes that were never part of the ciphertext can reach the output.)", "quantifier": "every ciphertext and split", "why_tests_cant": "All ciphertexts.", "anchors": ["src/internal.c:WP11_AesCbcPad_Decrypt", "src/internal.c:WP11_AesCbcPad_DecryptFinal"]}
{"id": "C67", "title": "RSA-PSS verification accepts only correct signatures", "statement": "C_Verify with CKM_RSA_PKCS_PSS reports success exactly when the signature recovers under the key and the PSS check of the data with the mechanism's hash, MGF and salt length succeeds.", "quantifier": "every signature and data", "why_tests_cant": "All signatures.", "anchors": ["src/internal.c:WP11_RsaPKCSPSS_Verify", "src/crypto.c:C_Verify"]}
{"id": "C68", "title": "Size queries of the cryptographic calls are harmless and sufficient", "statement": "A data call with a NULL output buffer that returns CKR_OK writes nothing, leaves the operation as it was and reports a length; the same call with a buffer of that length is never refused as too small. A call refused with CKR_BUFFER_TOO_SMALL writes nothing and leaves the operation as it was, so it can be repeated.", "quantifier": "every operation state, mechanism, data call and buffer size", "why_tests_cant": "All states and sizes.", "anchors": ["src/crypto.c:C_Encrypt", "src/crypto.c:C_EncryptUpdate", "src/crypto.c:C_EncryptFinal", "src/crypto.c:C_Decrypt", "src/crypto.c:C_DecryptUpdate", "src/crypto.c:C_DecryptFinal", "src/crypto.c:C_Sign", "src/crypto.c:C_SignFinal"]}
{"id": "C73", "title": "Mechanism information is truthful", "statement": "C_GetMechanismInfo knows exactly the mechanisms C_GetMechanismList returns. A mechanism whose flags do not name encryption, decryption, signing or verification is refused with CKR_MECHANISM_INVALID by the corresponding Init call in every state, and one whose flags name it is accepted with a suitable key and parameter.", "quantifier": "every mechanism number, session state, key and parameter", "why_tests_cant": "All mechanism numbers and states.", "anchors": ["src/slot.c:C_GetMechanismList", "src/slot.c:C_GetMechanismInfo", "src/crypto.c:C_EncryptInit", "src/crypto.c:C_DecryptInit", "src/crypto.c:C_SignInit", "src/crypto.c:C_VerifyInit"]}
{"id": "C77", "title": "Signatures made are accepted", "statement": "The bytes C_Sign writes are accepted by C_Verify for the same data, mechanism and mechanism parameter with the other half of the key pair (the same key for HMAC). (Code violates this for CKM_RSA_X_509 with data shorter than the key, unless the key is a multiple of 256 bytes long.)", "quantifier": "every mechanism, parameter, key pair, data and state of the two sessions before the Init calls", "why_tests_cant": "All data and keys.", "anchors": ["src/crypto.c:C_Sign", "src/crypto.c:C_Verify", "src/internal.c:WP11_Rsa_Sign", "src/internal.c:WP11_Ec_Sign", "src/internal.c:WP11_Ec_Verify"]}
{"id": "C78", "title": "RSA decryption undoes RSA encryption", "statement": "The bytes C_Encrypt writes with an RSA mechanism are turned back into the data by C_Decrypt with the same mechanism and parameter and the private key.", "quantifier": "every RSA mechanism, parameter, key pair, data and state of the two sessions before the Init calls", "why_tests_cant": "All data and keys.", "anchors": ["src/crypto.c:C_Encrypt", "src/crypto.c:C_Decrypt", "src/internal.c:WP11_RsaOaep_PubEncrypt", "src/internal.c:WP11_RsaOaep_PrivDecrypt"]}
{"id": "C74", "title": "A token nobody has initialised can be initialised", "statement": "As long as C_InitToken has never succeeded, C_GetTokenInfo reports the token as not initialised and C_InitToken with a PIN of allowed length succeeds. (Code violates this: C_Finalize stores the empty token and the next C_Initialize loads it as initialised, with no security officer's PIN that could be right; proved while C_GetTokenInfo reports it as not initialised.)", "quantifier": "every finite history of API calls starting from a process in which the library has never been initialised", "why_tests_cant": "All histories, with restarts.", "anchors": ["src/slot.c:C_InitToken", "src/internal.c:WP11_Library_Final", "src/internal.c:wp11_Token_Load", "src/internal.c:WP11_Slot_CheckSOPin"]}
{"id": "C75", "title": "What is accepted on the token can be loaded again", "statement": "If every object of a token was accepted with CKR_OK, the token can be loaded after C_Finalize: the PINs still work and the objects are there. (Code violates this: a token object with an empty certificate stops the writing of the token, and the next start finds none of it; proved for tokens of keys.)", "quantifier": "every finite history of API calls starting from a process in which the library has never been initialised", "why_tests_cant": "All histories, with restarts.", "anchors": ["src/internal.c:wp11_Object_Store_Cert", "src/internal.c:wp11_Token_Store", "src/internal.c:wp11_Token_Load"]}
{"id": "C76", "title": "The lockout survives a restart", "statement": "An account that is locked stays locked until its time is over, also when the process ends and a new one starts. (Code violates this: failed logins are not written; proved if C_Finalize is called.)", "quantifier": "every finite history of API calls starting from a process in which the library has never been initialised; with the process ending at any point", "why_tests_cant": "All histories and crash points.", "anchors": ["src/internal.c:WP11_Slot_UserLogin", "src/internal.c:WP11_Slot_SOLogin", "src/internal.c:wp11_Token_Store"]}
{"id": "C69", "title": "A storage file that was cut short is not taken for another token", "statement": "If the process ends while any one of the token's files is being written, so that this file holds only a proper prefix of its content, the next C_Initialize loads no object and no PIN from the directory: nothing of a half-written token is presented as if it were whole.", "quantifier": "every token, every file and every byte position", "why_tests_cant": "All crash points inside a file.", "anchors": ["src/internal.c:wp11_Token_Load", "src/internal.c:wp11_Object_Load", "src/internal.c:wp11_storage_read_fixed_array", "src/internal.c:wp11_storage_read_alloc_array"]}
{"id": "C70", "title": "Private and secret keys are not in clear in the storage directory", "statement": "Every file of the storage directory that holds a private or secret key holds it encrypted under a key derived from a PIN. (Code violates this: keys made before a user has logged in are encrypted under 32 zero bytes, and a DH private key whose class is changed is written in clear; proved up to these.)", "quantifier": "every finite history of API calls starting from a process in which the library has never been initialised", "why_tests_cant": "All histories, with restarts.", "anchors": ["src/internal.c:wp11_Object_Encode", "src/internal.c:wp11_Object_Store", "src/internal.c:wp11_EncryptData", "src/internal.c:WP11_Session_AddObject"]}
{"id": "C79", "title": "The two keys of a generated pair belong together", "statement": "When C_GenerateKeyPair returns CKR_OK, the two handles it returns name a public and a private key that belong together: the public key verifies what the private key signs and the private key decrypts what the public key encrypts; for DH both have the same domain parameters and the public value is the base raised to the private value. Both keys are marked as local with the mechanism that made them. The first is of class CKO_PUBLIC_KEY, the second of class CKO_PRIVATE_KEY. (Code violates this for RSA public exponents whose bytes are not a palindrome, and for templates that name another class: a private key may be made that reads as a public key and shows its sensitive value.)", "quantifier": "every finite history of API calls starting from a process in which the library has never been initialised; every mechanism and pair of templates", "why_tests_cant": "All histories, templates and random keys.", "anchors": ["src/crypto.c:C_GenerateKeyPair", "src/internal.c:WP11_Rsa_GenerateKeyPair", "src/internal.c:WP11_Ec_GenerateKeyPair", "src/internal.c:WP11_Dh_GenerateKeyPair"]}
{"id": "C80", "title": "A running operation depends only on its own calls", "statement": "After a successful Init, the answers of the operation's data calls depend only on the key, the mechanism with its parameter and the data calls made in that session: calls made in between in other sessions, with other keys, searches, creation and destruction of other objects, PIN changes, and whatever was done before, make no difference. (With AES-CBC what was done before in the session makes a difference, see C63.)", "quantifier": "every finite history of API calls starting from a process in which the library has never been initialised; every operation and every interleaving of other calls", "why_tests_cant": "All interleavings.", "anchors": ["src/crypto.c:C_EncryptInit", "src/crypto.c:C_SignUpdate", "src/internal.c:WP11_Session_SetObject", "src/internal.c:WP11_Session_SetOpInitialized"]}
{"id": "C81", "title": "Objects stay as they are", "statement": "An object's handle goes on naming it and every attribute reads the same, whatever calls are made that do not close its session, change or destroy it or, for a token object, log in or out or initialise the token.", "quantifier": "every finite history of API calls starting from a process in which the library has never been initialised", "why_tests_cant": "All histories.", "anchors": ["src/internal.c:WP11_Object_Find", "src/crypto.c:C_GetAttributeValue", "src/internal.c:WP11_Session_AddObject", "src/internal.c:WP11_Session_RemoveObject"]}
{"id": "C82", "title": "Generated pairs work", "statement": "A signature made with the private key handle that C_GenerateKeyPair returned is accepted under the public key handle it returned, and what is encrypted under the public key is decrypted with the private key, in any sessions and whatever calls are made in between that do not concern the two objects or the operations; for keys on the token these may be logouts, logins, PIN changes and restarts. (Violated where C59 and C77 are.)", "quantifier": "every finite history of API calls starting from a process in which the library has never been initialised; every RSA or EC mechanism, pair of templates, data and interleaving", "why_tests_cant": "All histories and interleavings.", "anchors": ["src/crypto.c:C_GenerateKeyPair", "src/crypto.c:C_Sign", "src/crypto.c:C_Verify"]}
{"id": "C71", "title": "A refused Init changes nothing", "statement": "When C_EncryptInit, C_DecryptInit, C_SignInit or C_VerifyInit does not return CKR_OK, every later call answers as if it had not been made; in particular an operation already running in the session goes on undisturbed. (Code violates this for RSA-OAEP, RSA-PSS, HMAC and AES-CBC with a key of a wrong length, which write their parameters before all checks are done, over those of the operation in progress: a refused RSA-PSS Init replaces the nonce of an AES-GCM encryption by a constant, a refused RSA-OAEP Init breaks the key schedule of an AES-CBC one; proved for all others.)", "quantifier": "every finite history of API calls starting from a process in which the library has never been initialised; every refused Init and every later history", "why_tests_cant": "All histories.", "anchors": ["src/crypto.c:C_EncryptInit", "src/crypto.c:C_SignInit", "src/internal.c:WP11_Session_SetOaepParams", "src/internal.c:WP11_Session_SetPssParams", "src/internal.c:WP11_Hmac_Init"]}
{"id": "C83", "title": "Mechanism parameters are checked", "statement": "An Init succeeds only with a parameter the mechanism may be used with: none for plain RSA, PKCS#1, ECDSA and HMAC, known algorithms for OAEP and PSS, a salt of at most 62 bytes, an IV of 16 bytes for CBC, an IV of at most 16 bytes and a tag of at most 128 bits for GCM. (Code violates this for salt lengths and tag bits of 2^31 and more, which are cut to a C int: a salt length of 2^64-2 is handed to wolfCrypt as -2; proved for smaller numbers.)", "quantifier": "every kind of Init, mechanism, parameter, key and state of the session", "why_tests_cant": "All parameters.", "anchors": ["src/crypto.c:C_VerifyInit", "src/crypto.c:C_EncryptInit", "src/internal.c:WP11_Session_SetPssParams", "src/internal.c:WP11_Session_SetGcmParams"]}
{"id": "C84", "title": "Wrapping and unwrapping give back the key", "statement": "The bytes C_WrapKey returns for an RSA private key under an AES key and an IV give an object with the same components when C_UnwrapKey is called with them under an AES key of the same value and with the same IV, in any session, of the same process or another one. (Code violates this: in a session with an unfinished AES-CBC operation the bytes still buffered are encrypted with the key.)", "quantifier": "every finite history of API calls starting from a process in which the library has never been initialised; every key, IV, buffer and template", "why_tests_cant": "All keys and histories.", "anchors": ["src/crypto.c:C_WrapKey", "src/crypto.c:C_UnwrapKey", "src/crypto.c:AddRSAPrivateKeyObject", "src/internal.c:WP11_Rsa_SerializeKeyPTPKC8", "src/internal.c:WP11_Rsa_ParsePrivKey"]}
{"id": "C85", "title": "Wrapping and unwrapping leave running operations alone", "statement": "C_WrapKey and C_UnwrapKey do not change the cryptographic operation that runs in any session. (Code violates this for the session of the call: the operation is replaced, even if the call then fails; proved for all other sessions and for calls whose arguments are refused.)", "quantifier": "every finite history of API calls starting from a process in which the library has never been initialised; every argument", "why_tests_cant": "All histories.", "anchors": ["src/crypto.c:C_WrapKey", "src/crypto.c:C_UnwrapKey"]}
{"id": "C86", "title": "PIN changes of several threads", "statement": "When threads change PINs and log in at the same time, an account accepts afterwards exactly the PIN whose setting was reported last. (Code violates this: two threads that call C_SetPIN for one account at the same time both get CKR_OK and leave the hash of one PIN with the seed of the other, so that neither PIN works; proved when changes of one account do not overlap in time.)", "quantifier": "every number of threads and every interleaving of the critical sections of C_Login, C_SetPIN and C_InitPIN with other calls", "why_tests_cant": "A schedule property.", "anchors": ["src/slot.c:C_SetPIN", "src/slot.c:C_InitPIN", "src/internal.c:WP11_Slot_SetSOPin", "src/internal.c:WP11_Slot_SetUserPin", "src/internal.c:WP11_Slot_CheckUserPin"]}
{"id": "C87", "title": "Calls of several threads do not deadlock", "statement": "When any number of threads call the library at the same time, no call waits for ever: as long as some call has not returned some thread can go on, the calls together take boundedly many steps, and once all have returned every lock of the library is free again.", "quantifier": "every number of threads, every list of calls per thread, every path through each call and every interleaving of the steps of the lock functions", "why_tests_cant": "Deadlocks appear only under particular schedules; a test runs a few.", "anchors": ["src/internal.c:WP11_Lock_LockRW", "src/internal.c:WP11_Lock_UnlockRO", "src/internal.c:WP11_Session_Find", "src/internal.c:WP11_Slot_SetUserPin", "src/internal.c:Rng_New"]}
{"id": "C88", "title": "Calls of several threads do not race on shared data", "statement": "When several threads call the library at the same time, two of them never access the same shared data at once with one of them writing: the random generator, the list of sessions, the login state, the failure counters, the PINs, the storage key, the token objects, the files. (Code violates this for all of these except the random generator; proved for the calls that do take the lock.)", "quantifier": "every number of threads, every list of calls per thread, every path through each call and every interleaving", "why_tests_cant": "Data races appear only under particular schedules, and often without visible effect.", "anchors": ["src/internal.c:WP11_Slot_CloseSessions", "src/internal.c:WP11_Slot_Logout", "src/internal.c:WP11_Slot_UserLogin", "src/internal.c:WP11_Slot_SetUserPin", "src/internal.c:WP11_EC_Derive", "src/internal.c:wp11_Token_Store"]}
{"id": "C89", "title": "No object is used as one of another kind", "statement": "No call takes the bytes of an object for those of another kind: a certificate is never used or read as a key, a key never as a certificate or as a key of another type; a call that names an object of the wrong kind is refused. (Code violates this: changing CKA_CLASS, beginning an RSA operation with a certificate, reading CKA_MODULUS of a certificate and C_DeriveKey with any key reinterpret the bytes.)", "quantifier": "every finite history of API calls starting from a process in which the library has never been initialised", "why_tests_cant": "Needs every sequence of attribute changes, templates and operations; the effect of reading the wrong bytes depends on memory contents.", "anchors": ["src/internal.c:WP11_Object_SetAttr", "src/internal.c:WP11_Object_GetAttr", "src/crypto.c:CreateObject", "src/crypto.c:C_SignInit", "src/crypto.c:C_DeriveKey", "src/internal.c:WP11_EC_Derive"]}
{"id": "C90", "title": "Both parties of a key agreement get the same key", "statement": "Two parties that generate Diffie-Hellman pairs over the same prime and base, or EC pairs on the same curve, read the public value of their pair, give it to the other and derive a key from their private key and the other's public value, get keys with the same value.", "quantifier": "every two processes, each with any history before the generation and any calls between generation and derivation that leave the private key alone, with a token key also logouts, logins, PIN changes and restarts", "why_tests_cant": "Needs pairs of histories and all key values; tests use fixed vectors in one process.", "anchors": ["src/crypto.c:C_GenerateKeyPair", "src/crypto.c:C_DeriveKey", "src/crypto.c:C_GetAttributeValue", "src/internal.c:WP11_Dh_Derive", "src/internal.c:WP11_EC_Derive", "src/internal.c:WP11_Dh_GenerateKeyPair"]}
{"id": "C91", "title": "Functions that are not offered do nothing", "statement": "The functions of the table that the library does not offer (digests, signatures with recovery, two operations at once, saved operation states, parallel functions, slot events) never succeed and change nothing, and asking about the library, its slots and mechanisms changes nothing: every other call is answered as if they had not been made, and every state the whole interface reaches is reached without them.", "quantifier": "every finite history of API calls starting from a process in which the library has never been initialised, of any functions of the table with any arguments", "why_tests_cant": "All states and all interleavings with other calls.", "anchors": ["src/crypto.c:C_DigestInit", "src/crypto.c:C_SignRecoverInit", "src/crypto.c:C_DecryptVerifyUpdate", "src/slot.c:C_GetOperationState", "src/slot.c:C_WaitForSlotEvent", "src/slot.c:C_GetMechanismInfo"]}
{"id": "C92", "title": "Random bytes are delivered in full and never twice", "statement": "A successful C_GenerateRandom has written as many random bytes as it was asked for; up to 65536 bytes are delivered on every open session; and no two calls of a history that hand out random bytes or generated secret keys hand out the same, unless the generator itself repeats an output. (Code violates the first part for lengths of 2^32 and more: the length is cut to 32 bits, the call succeeds and most of the buffer is left as it was.)", "quantifier": "every finite history of API calls starting from a process in which the library has never been initialised; every length", "why_tests_cant": "All lengths, and pairs of calls any distance apart.", "anchors": ["src/crypto.c:C_GenerateRandom", "src/crypto.c:C_SeedRandom", "src/internal.c:WP11_Slot_GenerateRandom", "src/crypto.c:C_GenerateKey"]}
{"id": "C93", "title": "A generated secret key is new, random and as long as asked for", "statement": "When C_GenerateKey succeeds it has made one AES key under a handle that named no object before; its value consists of bytes drawn from the random generator by this call, as many as CKA_VALUE_LEN of the template asks for, and that is 16, 24 or 32. (Code violates this for templates without CKA_VALUE_LEN: the call succeeds and the key is empty.)", "quantifier": "every finite history of API calls starting from a process in which the library has never been initialised; every mechanism, parameter and template", "why_tests_cant": "All histories and templates.", "anchors": ["src/crypto.c:C_GenerateKey", "src/internal.c:WP11_AesGenerateKey", "src/internal.c:WP11_Object_SetSecretKey"]}
{"id": "C94", "title": "A copy has the attributes of the original", "statement": "A successful C_CopyObject makes one new object under a handle that named nothing before, with the attributes of the original, except that those in the template have the template's values; the original and all other objects stay as they were; the value of a sensitive or unextractable key never gets into a copy that can show it. (Code violates this: the copy has only the attributes that the template names, with the original's values written over the template; a copy with a new label has the old label, no class and no key; copying a certificate with its class reads a key as a certificate.)", "quantifier": "every finite history of API calls starting from a process in which the library has never been initialised; every object and template", "why_tests_cant": "All objects, templates and histories.", "anchors": ["src/crypto.c:C_CopyObject", "src/crypto.c:C_GetAttributeValue", "src/crypto.c:SetAttributeValue"]}
{"id": "C95", "title": "A new session starts clean", "statement": "When C_OpenSession returns CKR_OK, the handle it gives was not open before, and the new session has no session objects and no active operation: until an Init succeeds in it, every data call is refused and writes nothing, even if an earlier session with the same handle was closed in the middle of an operation.", "quantifier": "every finite history of API calls starting from a process in which the library has never been initialised, every C_OpenSession, every data call", "why_tests_cant": "Depends on everything an earlier session in the same slot may have left behind.", "anchors": ["src/slot.c:C_OpenSession", "src/internal.c:WP11_Slot_OpenSession", "src/internal.c:wp11_Session_Final"]}
{"id": "C96", "title": "Success means stored", "statement": "When a call that sets a PIN (C_InitToken, C_InitPIN, C_SetPIN) or makes or destroys a token object returns CKR_OK, a process that starts after this one has ended at any later moment finds the effect of the call, whatever the storage did during the call. (Code violates this: C_CreateObject and C_DestroyObject ignore the result of storing; errors that only flushing or closing reports are ignored by all calls, so after a full disk C_InitToken reports success for a token on which nobody can log in.)", "quantifier": "Every reachable state, every such call, every sequence of storage failures during it", "why_tests_cant": "No test can make the storage fail in every way at every file.", "anchors": ["src/internal.c:wp11_Token_Store", "src/internal.c:wolfPKCS11_Store_Write", "src/internal.c:wolfPKCS11_Store_Close", "src/internal.c:WP11_Slot_SetUserPin", "src/internal.c:WP11_Session_AddObject", "src/internal.c:WP11_Session_RemoveObject"]}
{"id": "C97", "title": "A PIN call that fails changes nothing", "statement": "When C_InitToken, C_InitPIN or C_SetPIN returns an error because the storage failed, the old PIN still works and the new one does not, in this process and in the next. (Code violates this: a failed C_SetPIN has changed the PIN in memory, and if the failure came after the token's file was opened, no PIN works in the next process and the keys are gone.)", "quantifier": "Every state, every such call, every sequence of storage failures", "why_tests_cant": "No test can make the storage fail in every way at every file.", "anchors": ["src/internal.c:wp11_Token_Store", "src/internal.c:WP11_Slot_SetUserPin", "src/internal.c:WP11_Slot_SetSOPin", "src/internal.c:WP11_Slot_TokenReset"]}
{"id": "C98", "title": "Storage failures do not show in the running process", "statement": "Whatever the storage does while C_CreateObject, C_CopyObject, C_GenerateKey, C_GenerateKeyPair, C_UnwrapKey, C_DeriveKey or C_DestroyObject runs, the call gives the same answer, and the sessions, objects, PINs and login state of the process are the same, as if the storage had worked: no object is half made or half destroyed in memory, only the stored files differ.", "quantifier": "Every state, every such call, every sequence of storage failures", "why_tests_cant": "No test can make the storage fail in every way at every file.", "anchors": ["src/internal.c:WP11_Session_AddObject", "src/internal.c:WP11_Session_RemoveObject", "src/internal.c:wp11_Object_Unstore", "src/crypto.c:C_CreateObject", "src/crypto.c:C_CopyObject", "src/crypto.c:C_GenerateKey", "src/crypto.c:C_GenerateKeyPair", "src/crypto.c:C_UnwrapKey", "src/crypto.c:C_DeriveKey", "src/crypto.c:C_DestroyObject"]}
{"id": "C99", "title": "PINs change only by authorised calls, with any threads", "statement": "However the calls of several threads overlap: whenever the stored PIN of an account changes, it is by a thread inside C_InitPIN called in a read/write session of the security officer (then it is the user's PIN), or inside C_SetPIN called, in a session from which that account's PIN is changed, with an old PIN whose hash was found to be the stored one during that same call.", "quantifier": "Any number of threads, every interleaving of the critical sections of C_Login, C_SetPIN, C_InitPIN with other calls that do not load or reset the token", "why_tests_cant": "Depends on every interleaving.", "anchors": ["src/slot.c:C_InitPIN", "src/slot.c:C_SetPIN", "src/internal.c:WP11_Slot_CheckUserPin", "src/internal.c:WP11_Slot_SetUserPin", "src/internal.c:WP11_Slot_SetSOPin"]}
{"id": "C100", "title": "Login needs the PIN, with any threads", "statement": "However the calls of several threads overlap: whenever the security officer or the user becomes logged in, it is by a thread inside C_Login for that account in an open session, at a moment of which nobody was logged in, and with a PIN whose hash was found to be the stored one during that same call.", "quantifier": "Any number of threads, every interleaving of the critical sections of C_Login, C_SetPIN, C_InitPIN with any other calls", "why_tests_cant": "Depends on every interleaving.", "anchors": ["src/slot.c:C_Login", "src/internal.c:WP11_Slot_SOLogin", "src/internal.c:WP11_Slot_UserLogin", "src/internal.c:WP11_Slot_CheckUserPin"]}
{"id": "C101", "title": "Only one login at a time", "statement": "When C_Login returns CKR_OK nobody was logged in just before, and the account named in the call is logged in now; so of several threads that log in at the same time only one succeeds. (Code violates this: the check for an existing login and the login are separate critical sections, so a login as user and one as security officer both succeed, and the thread that was told it is the user acts as security officer.)", "quantifier": "Any number of threads, every interleaving", "why_tests_cant": "Depends on every interleaving.", "anchors": ["src/slot.c:C_Login", "src/internal.c:WP11_Slot_SOLogin", "src/internal.c:WP11_Slot_UserLogin"]}
{"id": "C102", "title": "Token objects used by several threads", "statement": "Several threads may destroy token objects and read their attributes at the same time, while others make any calls. The effect and the answers are those of the calls made one after the other, each at one moment between its beginning and its end; nothing is freed twice or used after it has been freed. (Code violates this: two threads that destroy the same object free it twice, an object destroyed while its attributes are read is used after it is freed, and several attributes read while they are set may be partly old and partly new. It holds when no object is destroyed, and no session closed, while another thread is inside a call that uses it, with each attribute that is read counting as a call; and a read of several attributes is one call if no other thread logs in or out or changes the object meanwhile.)", "quantifier": "every schedule of any number of threads that call C_DestroyObject and C_GetAttributeValue, interrupted at any point between their critical sections by each other and by any other calls; every history before it", "why_tests_cant": "A test runs a few of the interleavings; whether an object is freed between the moment another thread has found it and the moment it uses it depends on the schedule.", "anchors": ["src/crypto.c:C_DestroyObject", "src/crypto.c:C_GetAttributeValue", "src/internal.c:WP11_Object_Find", "src/internal.c:WP11_Session_RemoveObject", "src/internal.c:WP11_Object_Free", "src/internal.c:WP11_Object_GetAttr"]}
{"id": "C103", "title": "Careful callers meet no undefined behaviour", "statement": "No sequence of calls makes the library read or write outside its objects, follow a NULL pointer or use freed memory. (Code violates this: single calls with well-formed arguments do, for example C_GenerateKeyPair for EC without CKA_EC_PARAMS, a secret key of more than 512 bytes, a NULL label with a length, a certificate asked for its modulus or used as a key, a derivation from a key of another type, data for an operation whose key was destroyed or whose parameters a refused Init has overwritten. It holds for every history whose calls keep clear of these, each of which is spelled out as a condition on the template and on the objects addressed.)", "quantifier": "every finite history of API calls starting from a process in which the library has never been initialised, whose templates and objects meet the conditions of the specification", "why_tests_cant": "A test tries some histories; memory errors depend on which objects, operations and templates come together in any history.", "anchors": ["src/crypto.c:C_CreateObject", "src/crypto.c:C_GenerateKeyPair", "src/crypto.c:C_GetAttributeValue", "src/crypto.c:C_DeriveKey", "src/crypto.c:C_Encrypt", "src/internal.c:WP11_Object_GetAttr", "src/internal.c:WP11_Object_SetSecretKey", "src/internal.c:WP11_Slot_UserLogin"]}
{"id": "C104", "title": "Templates that make no sense are refused", "statement": "C_CreateObject, C_GenerateKey, C_GenerateKeyPair, C_DeriveKey, C_UnwrapKey and C_SetAttributeValue are refused when an entry of a template names an unknown attribute, gives a number or a date that does not have its size, a boolean that is not one byte or neither true nor false, or a value of unavailable length; a refused call changes no object, file, session or login (C_UnwrapKey replaces the operation of its session, C85).", "quantifier": "every finite history of API calls starting from a process in which the library has never been initialised; every template", "why_tests_cant": "The entry may stand anywhere in a template of any length, for every kind of object, in any state.", "anchors": ["src/crypto.c:CheckAttributes", "src/crypto.c:SetAttributeValue", "src/crypto.c:CreateObject", "src/crypto.c:C_SetAttributeValue"]}
{"id": "C105", "title": "A key says that it was generated on the token only if it was", "statement": "CKA_LOCAL reads CK_TRUE only for objects made by a C_GenerateKeyPair that returned CKR_OK, and CKA_KEY_GEN_MECHANISM of such an object is the mechanism of that call; for every other object CKA_LOCAL reads CK_FALSE and CKA_KEY_GEN_MECHANISM reads CK_UNAVAILABLE_INFORMATION. No template, copy, unwrapping, derivation, restart or logout makes an object claim to be generated, and between two C_Initialize the objects that say so are those whose handles C_GenerateKeyPair returned.", "quantifier": "every history of calls from an empty token on, over any number of processes; every handle in every session", "why_tests_cant": "The attribute is set in three generators and read in one place, but every call that makes, changes, stores or loads an object could forge or lose it.", "anchors": ["src/internal.c:WP11_Object_GetAttr", "src/internal.c:WP11_Rsa_GenerateKeyPair", "src/internal.c:WP11_Ec_GenerateKeyPair", "src/internal.c:WP11_Dh_GenerateKeyPair", "src/internal.c:WP11_Object_New", "src/internal.c:wp11_Object_Load", "src/crypto.c:C_GenerateKeyPair", "src/crypto.c:C_CopyObject"]}
{"id": "C106", "title": "Sessions opened and closed by several threads", "statement": "Whatever threads do at the same time, the handles of open sessions differ, at most 70 sessions are open, and a session that nobody closes stays open with its mode and its login. C_CloseSession, called while other threads open and close sessions, closes exactly its session and answers CKR_OK. When no session is open and no thread is inside C_CloseSession, nobody is logged in.", "quantifier": "every number of threads, every schedule of whole calls and of the parts of C_CloseSession between which it does not hold the lock, every state reached", "why_tests_cant": "which part of C_CloseSession another thread falls between cannot be chosen in a test", "anchors": ["src/slot.c:C_CloseSession", "src/slot.c:C_OpenSession", "src/internal.c:WP11_Slot_CloseSession", "src/internal.c:WP11_Slot_OpenSession", "src/internal.c:WP11_Session_Get", "src/internal.c:wp11_Slot_FreeSession", "src/internal.c:WP11_Slot_Logout"]}
{"id": "C107", "title": "A key of the token lasts", "statement": "A key of the token keeps its value and its attributes, and its handle goes on naming it, over any number of logouts and logins, changes of the user's PIN, openings and closings of sessions, and orderly restarts of the library, whatever else is done in between, as long as no call destroys or changes the object or initialises the token: whenever the user is logged in again, every attribute reads as before. (Code violates this: a PIN that the security officer sets or that is changed while nobody is logged in, and a C_Finalize after a change of the PIN before the user has logged out, make the keys unreadable; one key that cannot be encoded leaves the others as they are at logout. It holds when the PIN is changed only while the user is logged in, logouts happen while all keys can be encoded and C_Finalize while the kept forms are current.)", "quantifier": "every history before; every sequence of calls after it that meets the conditions of the specification, over any number of processes; every key on the token, every session of the user at the end", "why_tests_cant": "a test makes one logout or one restart; the key must survive every combination of them, each of which decodes and encodes it again, under PINs that change", "anchors": ["src/internal.c:WP11_Slot_Logout", "src/internal.c:WP11_Slot_UserLogin", "src/internal.c:wp11_Object_Encode", "src/internal.c:wp11_Object_Decode", "src/internal.c:wp11_Object_Store", "src/internal.c:wp11_Object_Load", "src/internal.c:wp11_Token_Store", "src/internal.c:wp11_Token_Load", "src/internal.c:WP11_Slot_SetUserPin", "src/slot.c:C_SetPIN", "src/slot.c:C_CloseSession"]}
{"id": "C108", "title": "What was protected with a token key can be used later", "statement": "A message that is encrypted under a key (AES-CBC and AES-CBC-PAD in parts or in one part, AES-GCM in one part) is given back by decryption later with the same key handle, and a MAC computed in parts or in one part is accepted later for the same data and nothing else is, in the same or in another session, whatever calls are made in between that leave the key alone; if the key is on the token and the user is logged in, these may be logouts, logins, changes of the PIN and the end and restart of the library.", "quantifier": "every finite history of API calls starting from a process in which the library has never been initialised; every message, split into parts, IV and every calls in between that leave the key alone", "why_tests_cant": "Needs all histories between the two operations.", "anchors": ["src/crypto.c:C_EncryptInit", "src/crypto.c:C_DecryptInit", "src/crypto.c:C_SignFinal", "src/crypto.c:C_VerifyFinal", "src/internal.c:wp11_Object_Encode", "src/internal.c:wp11_Object_Decode", "src/internal.c:wp11_Object_Load"]}
{"id": "C109", "title": "A stored key survives the process ending at any moment", "statement": "Once a call that made a key on the token has returned, the key is in the token's files: the process may end without C_Finalize at any moment between two calls, any number of times and in any later process, and whenever the user is logged in again the handle names the key, with the same value and attributes, whatever calls were made in between that do not destroy it. (Code violates this for changes made to it later: C_SetAttributeValue on a token object is kept in memory only until the token is next stored, and after a change of the user's PIN the files stay encrypted under the old one until the user logs out and the token is stored.)", "quantifier": "every history before; every sequence of calls and ends of processes after it that meets the conditions of the specification; every key on the token, every session of the user at the end", "why_tests_cant": "a test ends the library with C_Finalize; the moments at which a process can die are as many as the calls of all histories", "anchors": ["src/internal.c:wp11_Token_Store", "src/internal.c:wp11_Object_Store", "src/internal.c:WP11_Session_AddObject", "src/internal.c:WP11_Session_RemoveObject", "src/internal.c:wp11_Token_Load", "src/internal.c:wp11_Object_Load", "src/internal.c:WP11_Slot_Logout", "src/internal.c:WP11_Slot_UserLogin", "src/crypto.c:C_SetAttributeValue"]}
{"id": "C110", "title": "A call refused for lack of memory changes nothing", "statement": "When memory runs out during a call that makes, wraps, unwraps or uses a key or other object, the call either does all of what it would have done or is refused with an error code, and then every session, object, file and the login are as before. (Code violates this: C_GenerateKeyPair frees a public key that is already in a list when there is no memory to encrypt the private key; C_SetAttributeValue frees the old label or identifier before it has memory for the new one; C_Login answers CKR_PIN_INCORRECT to the right PIN and leaves keys decrypted although nobody is logged in; an Init call with AES-GCM that has no memory for its additional data is refused, but an encryption in progress goes on with its nonce.)", "quantifier": "every state of the library, every call, every choice of which of its allocations fail", "why_tests_cant": "a test can make one chosen allocation fail on one chosen path; the combinations of calls, states and failing allocations are unbounded", "anchors": ["src/internal.c:WP11_Object_New", "src/internal.c:WP11_Object_SetKeyId", "src/internal.c:WP11_Object_SetLabel", "src/internal.c:wp11_Object_Encode", "src/internal.c:WP11_Session_AddObject", "src/crypto.c:NewObject", "src/crypto.c:C_CreateObject", "src/crypto.c:C_CopyObject", "src/crypto.c:C_GenerateKey", "src/crypto.c:C_GenerateKeyPair", "src/crypto.c:C_DeriveKey", "src/crypto.c:C_SetAttributeValue", "src/internal.c:WP11_Slot_UserLogin", "src/internal.c:WP11_Session_SetOaepParams", "src/internal.c:WP11_Session_SetGcmParams", "src/internal.c:WP11_AesGcm_DecryptUpdate", "src/crypto.c:C_WrapKey", "src/crypto.c:C_UnwrapKey"]}
{"id": "C111", "title": "Success means the same when memory is short", "statement": "A call that reports success although some of its allocations failed has done exactly what it would have done with enough memory. (Code violates this: C_OpenSession answers CKR_OK without a session or a handle; C_FindObjectsInit answers CKR_OK and leaves out matching objects; C_Logout answers CKR_OK with the keys still in clear and readable by anyone, and refuses the right PIN from then on.)", "quantifier": "every state of the library, every call, every choice of which of its allocations fail", "why_tests_cant": "a test can make one chosen allocation fail on one chosen path; the combinations of calls, states and failing allocations are unbounded", "anchors": ["src/slot.c:C_OpenSession", "src/internal.c:WP11_Slot_OpenSession", "src/internal.c:wp11_Session_New", "src/internal.c:WP11_Object_MatchAttr", "src/internal.c:WP11_Session_Find", "src/internal.c:WP11_Slot_Logout", "src/internal.c:wp11_Object_Encode", "src/internal.c:wp11_Object_Decode_RsaKey", "src/internal.c:WP11_Slot_UserLogin", "src/crypto.c:C_FindObjectsInit"]}
{"id": "C112", "title": "A refused call leaves nothing behind", "statement": "A call that answers an error code changes nothing that a later call could see, apart from what the interface says: a login that is refused counts a try, and a cryptographic call that is refused may end the operation of its own session. In particular it changes no object, no PIN, no login state, no file and no other session.", "quantifier": "every history of calls, every call with any arguments that answers an error", "why_tests_cant": "a test can check one refused call in one state by looking at a few things afterwards; there are unboundedly many states and arguments, and what changed may be anywhere", "anchors": ["src/crypto.c:C_CreateObject", "src/crypto.c:C_CopyObject", "src/crypto.c:C_SetAttributeValue", "src/crypto.c:C_FindObjectsInit", "src/crypto.c:C_GenerateKeyPair", "src/crypto.c:C_UnwrapKey", "src/crypto.c:C_DeriveKey", "src/slot.c:C_Login", "src/slot.c:C_SetPIN", "src/slot.c:C_InitPIN", "src/slot.c:C_InitToken", "src/slot.c:C_OpenSession", "src/internal.c:WP11_Session_AddObject"]}
{"id": "C113", "title": "Each function answers only the status codes the standard gives it", "statement": "Whatever state the library is in and whatever the arguments are, a function of the interface answers a status code that PKCS #11 v2.40 lists for this function.", "quantifier": "all functions of the table, all states, all arguments, all answers of wolfCrypt", "why_tests_cant": "a test sees the code of one failure; an application that distinguishes codes relies on there being no others in any state", "anchors": ["src/crypto.c:SetAttributeValue", "src/crypto.c:C_GetAttributeValue", "src/crypto.c:C_EncryptInit", "src/crypto.c:C_Encrypt", "src/crypto.c:C_DecryptFinal", "src/crypto.c:C_WrapKey", "src/crypto.c:C_UnwrapKey", "src/crypto.c:C_DeriveKey", "src/slot.c:C_InitPIN", "src/slot.c:C_SetPIN", "src/slot.c:C_Login"]}
{"id": "C114", "title": "After the user logs out nothing tells the value of a token key", "statement": "Take two tokens that differ only in the secret parts of their keys: the values of secret keys of the same length, the private values of RSA, EC and DH keys. The user logs out of both. From then on, until C_Login is given the right user PIN, the same calls get the same answers on both: no status code, attribute, handle, search result, ciphertext, signature, MAC or derived key tells the two apart. In particular a secret key created on the token with one value or with another cannot be told apart once its owner has logged out.", "quantifier": "every library state in which the user is logged in, every pair of secret parts, every following sequence of calls on any session without the right PIN", "why_tests_cant": "It compares two executions over every later sequence of calls, not one execution; a test can only compare a few answers for a few values.", "anchors": ["src/internal.c:WP11_Slot_Logout", "src/internal.c:wp11_Object_Encode", "src/internal.c:WP11_Slot_UserLogin", "src/slot.c:C_Logout"]}
{"id": "C115", "title": "C_GetTokenInfo reports the label of the last C_InitToken", "statement": "Whenever C_GetTokenInfo answers, the label it reports is the one given to the last C_InitToken that succeeded on this directory, blanks if there was none; no other call changes it, and neither finalising nor the end of a process. If files of the token have become unreadable it may report blanks, but never another label.", "quantifier": "every sequence of calls and ends of processes on one directory, every label of 32 bytes", "why_tests_cant": "All histories of any number of processes.", "anchors": ["src/slot.c:C_GetTokenInfo", "src/slot.c:C_InitToken", "src/internal.c:wp11_Token_Init", "src/internal.c:WP11_Slot_GetTokenLabel", "src/internal.c:wp11_Token_Load"]}
{"id": "C116", "title": "The library initialised and finalized by several threads", "statement": "Threads may call C_Initialize and C_Finalize at the same time as other threads use the library. Every call answers as if the calls had been made one after the other in some order that respects which of them returned before another began: the library is set up once, stays as it is while a thread that has initialised it has not finalized it, and is stored and freed once, by the last C_Finalize.", "quantifier": "every number of threads, every schedule of whole calls and of the parts of C_Initialize and C_Finalize between which they do not hold the lock, every state of the library", "why_tests_cant": "which part of C_Initialize or C_Finalize another thread falls between cannot be chosen in a test", "anchors": ["src/wolfpkcs11.c:C_Initialize", "src/wolfpkcs11.c:C_Finalize", "src/internal.c:WP11_Library_Init", "src/internal.c:WP11_Library_Final", "src/internal.c:wp11_Slot_Init", "src/internal.c:wp11_Slot_Load", "src/internal.c:wp11_Slot_Store", "src/internal.c:wp11_Slot_Final"]}
{"id": "C117", "title": "One search at a time", "statement": "In an open session C_FindObjectsInit with a template answers CKR_OPERATION_ACTIVE exactly when a search was begun in that session since it was opened and has not been ended with C_FindObjectsFinal; the refused call changes nothing. A session that is closed while searching and opened again has no search. (Proved for every history in which no earlier C_FindObjectsInit of the session was refused because of its template: that one leaves a search active.)", "quantifier": "every finite history of API calls starting from a process in which the library has never been initialised", "why_tests_cant": "Every order of calls in all sessions, with handles used again after C_CloseSession.", "anchors": ["src/crypto.c:C_FindObjectsInit", "src/crypto.c:C_FindObjectsFinal", "src/internal.c:WP11_Session_FindInit", "src/internal.c:WP11_Session_FindFinal", "src/internal.c:wp11_Session_Final"]}
{"id": "C118", "title": "A token initialised again tells nothing of what it held", "statement": "Once C_InitToken has succeeded, every answer of every function, in this process and in the processes that use the directory after it, is the answer that would be given had the token never been used and the directory been empty; so two tokens that held different objects and PINs cannot be told apart after the same C_InitToken. (Code violates this: the files of the old objects are not removed, so the former owner's encrypted keys stay in the directory, and an empty certificate of the new owner, which the library accepts but cannot store, is completed by an old certificate's file.)", "quantifier": "every state of the library with any token and directory, every PIN and label, every later sequence of calls and ends of processes", "why_tests_cant": "Compares two runs of any length over any number of process lives; a test sees one former owner and one new one.", "anchors": ["src/internal.c:WP11_Slot_TokenReset", "src/internal.c:wp11_Token_Load", "src/internal.c:wp11_Object_Store_Cert", "src/slot.c:C_InitToken"]}
{"id": "C119", "title": "The handle of a destroyed object never comes to name another object", "statement": "Once C_DestroyObject has succeeded, the handle names no object, and no object made later, by whichever session, gets it; an application that kept the handle gets CKR_OBJECT_HANDLE_INVALID. (Code violates this: a new object's handle is the newest one's plus one, so destroying the newest object gives its handle to the next. Proved as long as a newer object is there in the same place.)", "quantifier": "every history of calls by all sessions, every object and every later object", "why_tests_cant": "A test destroys one object and makes a few; the claim is about every later object in every interleaving of sessions.", "anchors": ["src/internal.c:WP11_Session_AddObject", "src/internal.c:WP11_Session_RemoveObject", "src/internal.c:WP11_Object_Find", "src/crypto.c:C_DestroyObject"]}
{"id": "C120", "title": "Public keys on the token can be used by everybody", "statement": "A public key made on the token can be used in every session whoever is logged in: once it has been made, logins, logouts, wrong PINs and changes of PINs by anybody leave its handle, its key and all its attributes as they are, and searches find it. (Code violates this: after C_Finalize and C_Initialize the keys of public objects are only decoded at the user's login; until then a session without login finds the key but its value reads as empty. A value set with C_SetAttributeValue in a session without login is taken back by the user's next login.)", "quantifier": "every history before and after the key is made, every session of any user, every order of logins, logouts and PIN changes", "why_tests_cant": "Every interleaving of logins and logouts of several users with other calls.", "anchors": ["src/internal.c:WP11_Slot_UserLogin", "src/internal.c:WP11_Slot_Logout", "src/internal.c:wp11_Object_Encode", "src/internal.c:wp11_Object_Decode", "src/internal.c:wp11_Token_Load", "src/crypto.c:C_GetAttributeValue"]}
{"id": "C121", "title": "The counters of failed logins never overflow", "statement": "However often logins fail, over any number of processes using the token's directory one after the other, the count of failed logins of an account stays between 0 and its limit of 3, and the count, the time of the last failure, the timeout and the sums of times that C_Login and C_GetTokenInfo compute fit the C types they have, so that no wrap-around lifts or prolongs a lockout and what is written to the token's file is read back as it was.", "quantifier": "every sequence of up to 2^49 calls and ends of processes, every clock reading from 1970 to 2^62 seconds later, damaged or lost files of objects included", "why_tests_cant": "A wrap-around needs many million failed logins; tests do not get there.", "anchors": ["src/internal.c:WP11_Slot_SOLogin", "src/internal.c:WP11_Slot_UserLogin", "src/internal.c:wp11_Token_Store", "src/internal.c:wp11_Token_Load"]}
{"id": "C122", "title": "A call that waits for a lock gets it", "statement": "When several threads call the library without end and the system schedules them fairly, a call that waits for one of the library's locks gets it: one that only reads always does, also the part of a call that gives a lock back. One that changes something does too if again and again there is a moment in which no other call reads. The code does not promise it otherwise: with two threads that keep calling C_GetSessionInfo so that one call is always in progress, a C_Logout (or C_Login, C_OpenSession) of a third thread waits for ever, although every call of the other two returns.", "quantifier": "every number of threads, every execution without end of the steps of the lock functions, fair to every thread that waits or writes; for the overtaking: every number of calls", "why_tests_cant": "Starvation is a property of executions that never end; every test ends.", "anchors": ["src/internal.c:WP11_Lock_LockRW", "src/internal.c:WP11_Lock_LockRO", "src/internal.c:WP11_Lock_UnlockRO", "src/slot.c:C_GetSessionInfo", "src/slot.c:C_Logout"]}
{"id": "C123", "title": "A template is answered attribute by attribute", "statement": "C_GetAttributeValue answers each attribute of a template as it would answer it alone, whatever else is asked for and in whatever order; the call succeeds exactly if each attribute alone would, and an attribute that cannot be had does not keep the others from being answered. (Code violates the last part: the loop ends at the first attribute that is refused, the attributes after it are left as they were; and one attribute of unknown type or with a buffer of the wrong size keeps all from being answered.)", "quantifier": "every state, session, object and template", "why_tests_cant": "All templates and their orders.", "anchors": ["src/crypto.c:C_GetAttributeValue", "src/crypto.c:CheckAttributes", "src/internal.c:WP11_Object_GetAttr"]}
{"id": "C124", "title": "Sessions, logins and PINs follow a small reference machine", "statement": "There is a small machine whose state is only: the number of initialisations, which session handles are open and whether they may write, who is logged in, whether the token is initialised, and for each account which PINs it accepts and how many wrong tries it has counted. Every history of API calls with its answers is a history of that machine, so the status of each call about sessions, logins and PINs is determined by it; objects, searches, operations and files never matter, except that the login of the user may be refused when a stored key cannot be decoded and a PIN call may report that writing failed. Where the library deviates from the standard (C_CloseAllSessions does not log out and leaves the lowest session) the machine says so.", "quantifier": "every history of calls from an uninitialised process, every stored token", "why_tests_cant": "every finite history of API calls starting from a process in which the library has never been initialised", "anchors": ["src/slot.c:C_OpenSession", "src/slot.c:C_CloseSession", "src/slot.c:C_CloseAllSessions", "src/slot.c:C_Login", "src/slot.c:C_Logout", "src/slot.c:C_InitPIN", "src/slot.c:C_SetPIN", "src/slot.c:C_InitToken", "src/slot.c:C_GetTokenInfo", "src/slot.c:C_GetSessionInfo", "src/internal.c:WP11_Slot_SOLogin", "src/internal.c:WP11_Slot_UserLogin"]}
{"id": "C125", "title": "An application that follows a few rules never loses a key of the token", "statement": "Take an application that puts only keys other than DH keys on the token (AES and generic secret keys of at most 512 bytes, RSA and EC keys), imports, generates, unwraps or derives them while the user is logged in (but imports no EC public keys and makes no copies on the token), changes attributes of session objects only, initialises the token and lets the security officer or a public session change the user's PIN only while the token is empty, and logs the user out before the last C_Finalize. From the first call on an empty store such an application never loses a key: whatever it calls, over any number of logins, PIN changes, sessions and restarts, a key on the token that it does not destroy is there at the next login of the user, under the same handle, with the same value and the same attributes. The rules on logging out, on initialising the token, on PINs, on login and on certificates are needed: a single call that breaks one of them can lose a key.", "quantifier": "every history of calls that obeys the rules (about calls and login state only, not about memory or files), every key, every point of the history, every session of the user afterwards", "why_tests_cant": "a test follows one path; the rules must exclude every way in which the library loses keys (C39, C92, C97, C107), in every combination and over any number of restarts", "anchors": ["src/internal.c:WP11_Slot_Logout", "src/internal.c:WP11_Slot_UserLogin", "src/internal.c:wp11_Object_Encode", "src/internal.c:wp11_Object_Decode", "src/internal.c:wp11_Object_Store", "src/internal.c:wp11_Object_Load", "src/internal.c:wp11_Token_Store", "src/internal.c:WP11_Session_AddObject", "src/crypto.c:C_CreateObject", "src/crypto.c:C_GenerateKey", "src/crypto.c:C_GenerateKeyPair", "src/crypto.c:C_UnwrapKey", "src/crypto.c:C_DeriveKey", "src/slot.c:C_Finalize"]}
{"id": "C126", "title": "Threads that create objects at the same time each get their object", "statement": "Several threads create objects at the same time, in the same or in different sessions, while others make any other calls. Every creation behaves as if it were made in one go: the objects, handles and answers are those of the same calls made one after the other in some order that agrees with the course of time. Each object that was answered with success is there, with a handle of its own. (The code guarantees this for objects of the token; for objects of one session only if one thread at a time uses the session, because the list of a session is changed without a lock; and only if a new object is not destroyed before its maker has been told the handle.)", "quantifier": "every reachable state, every number of threads, every interleaving of the parts of C_CreateObject with one another and with whole calls", "why_tests_cant": "the windows between reading and writing the list and between linking the object and reading its handle are a few instructions wide; a test does not hit them, and cannot try all interleavings", "anchors": ["src/crypto.c:C_CreateObject", "src/crypto.c:AddObject", "src/internal.c:WP11_Session_AddObject", "src/internal.c:WP11_Object_GetHandle"]}
{"id": "C127", "title": "An application can tell from the answers alone which objects exist", "statement": "An application that enters the handles returned by successful calls that create, copy, generate, unwrap or derive objects, and strikes out the handles it destroys, those of the sessions it closes and those of the token when it initialises it, knows at every time exactly which handles name objects in each open session. No other call, and no refused call, makes an object appear or vanish. (The code violates this after C_CloseAllSessions, which answers success but leaves the session with the lowest handle open with its objects.)", "quantifier": "every sequence of calls of any number of sessions, every session and every handle", "why_tests_cant": "the books must agree with the library after every history, with calls refused at any point; a test compares them after a few histories only", "anchors": ["src/crypto.c:C_CreateObject", "src/crypto.c:C_CopyObject", "src/crypto.c:C_DestroyObject", "src/internal.c:WP11_Session_AddObject", "src/internal.c:WP11_Session_RemoveObject", "src/internal.c:WP11_Slot_CloseSessions"]}
{"id": "C128", "title": "A search lists every key the application has on the token", "statement": "While the user is logged in, a search for the objects of the token (CKA_TOKEN = CK_TRUE) hands out exactly the handles the application has in its books (C127): every key it made and did not destroy, and nothing else, also after logouts, PIN changes and restarts. A search with an empty template hands out the objects of the session, the newest first, and then those of the token. (The code violates this for more than ten objects: the search ends after ten without any sign.)", "quantifier": "every sequence of calls that obeys the rules of C125, with any number of restarts; every way of dividing the result over calls of C_FindObjects and every call made in between", "why_tests_cant": "a test lists the keys after a few histories only; the claim relates the search to everything the application ever did", "anchors": ["src/crypto.c:C_FindObjectsInit", "src/crypto.c:C_FindObjects", "src/internal.c:WP11_Session_Find", "src/internal.c:wp11_Session_FindNext", "src/internal.c:wp11_Token_Load"]}
{"id": "C129", "title": "An imported secret key works, whatever happened before", "statement": "In any read/write session and after any history, C_CreateObject with a secret key of at most 512 bytes succeeds when there is room for it. As long as the key is not changed, destroyed or (on the token) logged out, every encryption and decryption in one part with AES-GCM and AES-CBC and every HMAC made or checked with its handle can be begun, and answers with exactly what the algorithm gives for the imported value: nothing that an abandoned, refused or finished operation left in the session plays a part.", "quantifier": "every history of calls, every session, token and session objects, every key value, every nonce, message, tag size and buffer size that fits, every sequence of calls that leaves the key alone between import and use and between the Init and the data call", "why_tests_cant": "a test uses a fresh session and key; the claim is that no earlier history whatever can spoil a new key", "anchors": ["src/crypto.c:C_CreateObject", "src/crypto.c:C_EncryptInit", "src/crypto.c:C_Encrypt", "src/crypto.c:C_DecryptInit", "src/crypto.c:C_Decrypt", "src/crypto.c:C_SignInit", "src/crypto.c:C_Sign", "src/crypto.c:C_VerifyInit", "src/crypto.c:C_Verify", "src/internal.c:WP11_Object_SetSecretKey", "src/internal.c:WP11_Session_AddObject"]}
{"id": "C130", "title": "Imported RSA and EC keys work, whatever happened before", "statement": "In any read/write session and after any history, C_CreateObject with the numbers of an RSA public or private key, or with the curve and the point or private value of an EC key, succeeds when wolfCrypt takes the parts and there is room. As long as the key is not touched, every operation keys of the type are for can be begun with its handle. RSA signing, encryption and decryption answer exactly what RSA gives under the imported numbers, and nothing when RSA gives nothing. A signature made with an imported private key (RSA or EC) is accepted with the imported public key, and what was encrypted with an imported RSA public key is decrypted with the imported private key, even when the halves were imported by different processes with different histories.", "quantifier": "every history of calls on either side, every session, token and session objects, every key, every mechanism and parameter, every message, every sequence of calls that leaves the key alone between import and use and between the Init and the data call", "why_tests_cant": "a test imports one fixed key into a fresh session; the claim is about all keys and all earlier histories on both sides", "anchors": ["src/crypto.c:C_CreateObject", "src/crypto.c:C_EncryptInit", "src/crypto.c:C_Encrypt", "src/crypto.c:C_DecryptInit", "src/crypto.c:C_Decrypt", "src/crypto.c:C_SignInit", "src/crypto.c:C_Sign", "src/crypto.c:C_VerifyInit", "src/crypto.c:C_Verify", "src/internal.c:WP11_Object_SetRsaKey", "src/internal.c:WP11_Object_SetEcKey", "src/internal.c:WP11_Session_AddObject"]}
{"id": "C131", "title": "C_InitToken is one step for the other threads", "statement": "Threads that use the library while one of them re-initialises the token see the old token or the new one: every call answers as if the calls had been made one after the other. In particular an initialised token is wiped only by somebody who gives the PIN of its security officer and only while no session is open, and of two threads that initialise a new token with different PINs one is refused.", "quantifier": "every number of threads, every schedule of the parts of C_InitToken (the test for an initialised token, for sessions, for a PIN, the two hashes, the wipe, the new seed, the new PIN) with every other call, every PIN and label, every state of the library", "why_tests_cant": "the window between the tests and the wipe is a matter of the schedule; a test cannot put another thread into each of them", "anchors": ["src/slot.c:C_InitToken", "src/internal.c:WP11_Slot_IsTokenInitialized", "src/internal.c:WP11_Slot_HasSession", "src/internal.c:WP11_Slot_CheckSOPin", "src/internal.c:WP11_Slot_TokenReset", "src/internal.c:WP11_Slot_SetSOPin"]}
{"id": "C132", "title": "A login does not outlive the sessions, with any threads", "statement": "When no session is open nobody is logged in, however many threads open and close sessions and log in and out: a session opened then is public, and the private objects are out of reach until somebody gives a PIN again.", "quantifier": "every number of threads, every schedule of the parts of C_Login with every other call (closing the last session in the middle of a login among them), every PIN, every state of the library", "why_tests_cant": "whether the last session is closed between two parts of a login is a matter of the schedule", "anchors": ["src/slot.c:C_Login", "src/slot.c:C_CloseSession", "src/internal.c:WP11_Slot_UserLogin", "src/internal.c:WP11_Slot_SOLogin", "src/internal.c:WP11_Slot_CloseSession", "src/internal.c:WP11_Slot_Logout"]}
{"id": "C133", "title": "A protected key tells nothing until it is used", "statement": "As long as nothing uses a sensitive or unextractable key of a session, nothing an application is told depends on its secret part: reading and searching, copying, destroying, opening and closing sessions, logging in and everything done with other keys get the same replies whatever the value is.", "quantifier": "every history before, every session key of any type that is sensitive or not extractable and not in use, every two values of its secret part, every sequence of calls after that does not use the key or set its attributes; also from the creation of the key on, for every two values of one length", "why_tests_cant": "two runs with different secrets have to be compared, for every sequence of calls", "anchors": ["src/crypto.c:C_CreateObject", "src/crypto.c:C_GetAttributeValue", "src/crypto.c:C_FindObjectsInit", "src/crypto.c:C_CopyObject", "src/crypto.c:C_DestroyObject", "src/internal.c:WP11_Object_GetAttr", "src/internal.c:WP11_Object_MatchAttr"]}
{"id": "C134", "title": "An attribute change is seen whole", "statement": "When one call of C_SetAttributeValue changes several attributes of a token object, no other thread sees some of the changes without the others: a value set together with the marks that protect it is never readable, and of two changes made at once one comes first. (Code violates this: the key data is put in place first and every attribute then on its own, so that another thread reads the new value before it is protected, and two changes made at once mix. Proved: when no other thread changes the object in the meantime, the change returns and leaves what it would in one go, whatever else other threads do; and in between the object reads as before, or as after a change made with the key data and the first attributes of the template.)", "quantifier": "every history before, every number of threads and every interleaving of the critical sections of C_SetAttributeValue and C_GetAttributeValue with other calls", "why_tests_cant": "A schedule property.", "anchors": ["src/crypto.c:C_SetAttributeValue", "src/crypto.c:SetAttributeValue", "src/crypto.c:C_GetAttributeValue", "src/internal.c:WP11_Object_SetAttr", "src/internal.c:WP11_Object_SetSecretKey", "src/internal.c:WP11_Object_GetAttr"]}
{"id": "C135", "title": "A protected key of the token does not show until it is used", "statement": "What applications are told in any session does not depend on the secret part of a private or secret key of the token that is sensitive or not extractable, as long as no call uses that key or sets its attributes: searches, attribute reads, copies, the creation and destruction of other objects, PIN changes, logging out and what follows it all get the same replies, whatever the secret and whatever the store holds. This ends when the user logs in anew or the library is shut down, for the keys are then read back from their stored form. In particular a secret key created on the token with one value or with another of the same length cannot be told apart.", "quantifier": "every finite history of API calls starting from a process in which the library has never been initialised, every such key, every other secret part for it, every contents of the store and every later sequence of calls in any number of sessions", "why_tests_cant": "Ranges over pairs of histories and all secrets.", "anchors": ["src/crypto.c:C_CreateObject", "src/crypto.c:C_GetAttributeValue", "src/crypto.c:C_FindObjectsInit", "src/crypto.c:C_CopyObject", "src/internal.c:WP11_Object_GetAttr", "src/internal.c:WP11_Object_MatchAttr", "src/internal.c:wp11_Object_Store", "src/internal.c:WP11_Slot_Logout"]}
{"id": "C136", "title": "What describes an object stays as it was last set", "statement": "The value a successful C_CreateObject, C_GenerateKeyPair or C_SetAttributeValue gives to CKA_LABEL, CKA_ID, CKA_CLASS, a date or a usage flag of an object (the last entry for the attribute counts) is what every later read of it returns, until a call sets that attribute again or ends the object, its session or the library. Logging in and out, PIN changes, the use of the object and changes to its other attributes, successful or not, never show in it. (Code violates this for CKA_WRAP, which is changed by setting CKA_UNWRAP, and for CKA_TRUSTED, which is changed by setting CKA_ENCRYPT; the rest is proved.)", "quantifier": "every finite history of API calls starting from a process in which the library has never been initialised, every object, template and value, and every later sequence of calls in any number of sessions", "why_tests_cant": "Ranges over all values and all histories between the write and the read.", "anchors": ["src/crypto.c:C_SetAttributeValue", "src/crypto.c:C_CreateObject", "src/crypto.c:C_GetAttributeValue", "src/internal.c:WP11_Object_SetAttr", "src/internal.c:WP11_Object_GetAttr", "src/internal.c:WP11_Slot_UserLogin", "src/internal.c:WP11_Slot_Logout"]}
{"id": "C137", "title": "A key of the token is found by the attributes it was given", "statement": "Once C_CreateObject, C_GenerateKey or C_GenerateKeyPair has put a key on the token with a label, an identifier, dates or usage flags, an application that keeps to the rules of C125 finds it again by any of them: whenever the user is logged in, after any number of restarts and in whatever session has no search in progress, a search for some of these attributes is accepted and returns the handle of the key, unless it returns ten others, and every handle it returns is of an object that reads as asked for.", "quantifier": "every finite history of API calls starting from a process in which the library has never been initialised, every template, every part of it that is searched for, and every later history with restarts", "why_tests_cant": "Ranges over all keys, all templates and all histories between creation and search, including storage and reload.", "anchors": ["src/crypto.c:C_CreateObject", "src/crypto.c:C_GenerateKey", "src/crypto.c:C_GenerateKeyPair", "src/crypto.c:C_FindObjectsInit", "src/crypto.c:C_FindObjects", "src/internal.c:WP11_Session_Find", "src/internal.c:WP11_Object_MatchAttr", "src/internal.c:wp11_Token_Load"]}
{"id": "C138", "title": "An orderly application gets back what it protected with a key of the token", "statement": "An application that keeps to the rules of C125 (keys made on the token by the logged-in user, a logout before the library ends, no change of the attributes of token keys) and encrypts a message under a secret key of the token (AES-CBC and AES-CBC-PAD in parts or in one part, AES-GCM in one part) or computes an HMAC with it, gets the message back by decrypting, in parts or at once, with the same handle, and has exactly that HMAC accepted, and gets an RSA private key wrapped under an AES key of the token back with the same numbers by unwrapping it, at any later time at which the user is logged in and the key has not been destroyed: after any number of logouts, PIN changes and restarts, in any session.", "quantifier": "every finite history of API calls starting from a process in which the library has never been initialised that obeys the rules, every message, IV and division into parts, and every later history that obeys the rules", "why_tests_cant": "Ranges over all histories with storage, reload and re-encryption of keys between the two operations.", "anchors": ["src/crypto.c:C_EncryptInit", "src/crypto.c:C_Encrypt", "src/crypto.c:C_WrapKey", "src/crypto.c:C_UnwrapKey", "src/crypto.c:C_DecryptInit", "src/crypto.c:C_DecryptFinal", "src/crypto.c:C_Sign", "src/crypto.c:C_Verify", "src/internal.c:wp11_Object_Encode", "src/internal.c:wp11_Object_Decode", "src/internal.c:wp11_Token_Load"]}
{"id": "C139", "title": "A secret key that an orderly application imports onto the token works at any later time", "statement": "An application that keeps to the rules of C125 and is logged in as the user in a read/write session can import an AES or generic secret key onto the token as long as it has room; and whenever the user is logged in later and the key has not been destroyed, after any number of logouts, PIN changes and restarts and in any session, every job the key is fit for (AES-GCM and AES-CBC encryption and decryption, making and checking an HMAC) can be begun with the handle the import returned and answers with the result of the algorithm under exactly the value that was imported.", "quantifier": "every finite history of API calls starting from a process in which the library has never been initialised that obeys the rules, every key value of up to 512 bytes, every later history that obeys the rules, every job and message", "why_tests_cant": "Ranges over all histories with storage, reload and re-encryption of keys between import and use.", "anchors": ["src/crypto.c:C_CreateObject", "src/crypto.c:C_EncryptInit", "src/crypto.c:C_Encrypt", "src/crypto.c:C_Decrypt", "src/crypto.c:C_Sign", "src/crypto.c:C_Verify", "src/internal.c:wp11_Object_Encode", "src/internal.c:wp11_Object_Decode", "src/internal.c:wp11_Token_Load"]}
{"id": "C140", "title": "A key pair that an orderly application makes on the token fits together for good", "statement": "An application that keeps to the rules of C125 and makes an RSA or EC pair on the token with C_GenerateKeyPair can use the two halves at different times: a signature made with the private key is accepted with the public key, and what was encrypted with the public key of an RSA pair is decrypted with the private key, at any later time at which the user is logged in and the keys have not been destroyed, after any number of logouts, PIN changes and restarts and in any sessions. (The code violates this for RSA public exponents that read differently backwards, C59, and for plain RSA signatures of data shorter than the key, C51; the rest is proved.)", "quantifier": "every finite history of API calls starting from a process in which the library has never been initialised that obeys the rules, every pair, message, mechanism and parameter, every later history that obeys the rules between generation, first and second use", "why_tests_cant": "Ranges over all histories with storage, reload and re-encryption of both keys between the operations.", "anchors": ["src/crypto.c:C_GenerateKeyPair", "src/crypto.c:C_SignInit", "src/crypto.c:C_Sign", "src/crypto.c:C_VerifyInit", "src/crypto.c:C_Verify", "src/crypto.c:C_EncryptInit", "src/crypto.c:C_Encrypt", "src/crypto.c:C_DecryptInit", "src/crypto.c:C_Decrypt", "src/internal.c:wp11_Object_Encode", "src/internal.c:wp11_Object_Decode", "src/internal.c:wp11_Token_Load"]}
{"id": "C141", "title": "An RSA or EC key that an orderly application imports onto the token works at any later time", "statement": "An application that keeps to the rules of C125 and is logged in as the user in a read/write session can import an RSA key or an EC private key onto the token as long as it has room and wolfCrypt can serialise the key. Whenever the user is logged in later and the key has not been destroyed, after any number of logouts, PIN changes and restarts and in any session, every operation the type of key is for can be begun with the handle the import returned; RSA signing, encryption and decryption answer exactly what RSA gives under the imported numbers; a signature made then is accepted by everybody who imports the public key, and what anybody encrypted with the public key is decrypted. (Code violates this only for plain RSA signatures of data shorter than the key, C51.)", "quantifier": "every finite history of API calls starting from a process in which the library has never been initialised that obeys the rules, every key, mechanism, parameter and message, every later history that obeys the rules, and on the other side every history of calls of another process", "why_tests_cant": "Ranges over all keys and all histories with storage, reload and re-encryption of the key between import and use.", "anchors": ["src/crypto.c:C_CreateObject", "src/crypto.c:C_SignInit", "src/crypto.c:C_Sign", "src/crypto.c:C_Verify", "src/crypto.c:C_Encrypt", "src/crypto.c:C_Decrypt", "src/internal.c:WP11_Object_SetRsaKey", "src/internal.c:WP11_Object_SetEcKey", "src/internal.c:wp11_Object_Encode", "src/internal.c:wp11_Object_Decode", "src/internal.c:wp11_Token_Load"]}
{"id": "C142", "title": "Two orderly applications agree on a key with EC keys of their tokens at any later time", "statement": "Two applications that keep to the rules of C125 each make an EC pair on the same curve with the private key on the token and publish its point. Whenever each derives a key by ECDH with the other's point, in any session of the user and after any number of logouts, PIN changes and restarts on either side, both get keys with the same value, as long as the private keys have not been destroyed. The same holds if one of the two has its key in a session.", "quantifier": "every finite history of API calls starting from a process in which the library has never been initialised of both processes that obeys the rules, every curve, pair of points and templates, and every later history that obeys the rules", "why_tests_cant": "Ranges over all pairs of histories with storage, reload and re-encryption of the private keys between generation and derivation.", "anchors": ["src/crypto.c:C_GenerateKeyPair", "src/crypto.c:C_DeriveKey", "src/internal.c:WP11_EC_Derive", "src/internal.c:WP11_Ec_GenerateKeyPair", "src/internal.c:wp11_Object_Encode", "src/internal.c:wp11_Object_Decode", "src/internal.c:wp11_Token_Load"]}
{"id": "C143", "title": "Data calls of RSA, ECDSA, HMAC and AES-GCM respect the output buffer", "statement": "Whatever calls were made before, in this session or any other, a data call (Encrypt, Decrypt, Sign, SignRecover, VerifyRecover, Verify, and the Update and Final calls) of an operation with an RSA, ECDSA, HMAC or AES-GCM mechanism never writes more bytes than the buffer has, writes nothing when it fails or when only the length is asked for, and after CKR_OK reports the number of bytes written.", "quantifier": "every finite history of API calls starting from a process in which the library has never been initialised, every session and operation, every data, and every length of the buffer", "why_tests_cant": "Ranges over all histories, data and buffer lengths; a test sees only the overflows it asks for.", "anchors": ["src/crypto.c:C_Encrypt", "src/crypto.c:C_EncryptFinal", "src/crypto.c:C_Decrypt", "src/crypto.c:C_DecryptFinal", "src/crypto.c:C_Sign", "src/crypto.c:C_SignFinal", "src/crypto.c:C_SignRecover", "src/crypto.c:C_VerifyRecover", "src/internal.c:WP11_AesGcm_Encrypt", "src/internal.c:WP11_AesGcm_DecryptFinal", "src/internal.c:WP11_Hmac_SigLen"]}
{"id": "C144", "title": "C_Verify accepts exactly the correct signatures, whatever happened before", "statement": "After a successful C_VerifyInit with any of the signature mechanisms, and whatever calls follow that leave the key and that operation alone (in the same session and in others, including further C_Verify calls), C_Verify returns CKR_OK exactly when the signature is a correct signature of the data with the key named in C_VerifyInit and the parameters given there.", "quantifier": "every finite history of API calls starting from a process in which the library has never been initialised, every key, mechanism and parameter, every further history that leaves key and operation alone, and all data and signatures", "why_tests_cant": "Accepting one wrong signature in one history breaks it; tests try a handful of wrong signatures in a handful of histories.", "anchors": ["src/crypto.c:C_VerifyInit", "src/crypto.c:C_Verify", "src/internal.c:WP11_Rsa_Verify", "src/internal.c:WP11_RsaPkcs15_Verify", "src/internal.c:WP11_RsaPKCSPSS_Verify", "src/internal.c:WP11_Ec_Verify", "src/internal.c:WP11_Hmac_Verify"]}
{"id": "C145", "title": "C_Encrypt and C_Decrypt give the result of the mechanism, whatever happened before", "statement": "After a successful C_EncryptInit or C_DecryptInit, and whatever calls follow that leave the key and that operation alone, a successful C_Encrypt writes the ciphertext of the data, and a successful C_Decrypt its plaintext, for the key and the parameters named in the Init; with AES-GCM a plaintext is written only if the tag at the end of the data is right. The calls succeed when the mechanism accepts the data and the buffer is large enough.", "quantifier": "every finite history of API calls starting from a process in which the library has never been initialised, every key, mechanism and parameter, every further history that leaves key and operation alone, all data and buffer lengths", "why_tests_cant": "Ranges over all histories before and between the calls: a state left over from any of them could show in the result.", "anchors": ["src/crypto.c:C_EncryptInit", "src/crypto.c:C_Encrypt", "src/crypto.c:C_DecryptInit", "src/crypto.c:C_Decrypt", "src/internal.c:WP11_Rsa_PrivateDecrypt", "src/internal.c:WP11_RsaPkcs15_PublicEncrypt", "src/internal.c:WP11_RsaOaep_PrivateDecrypt", "src/internal.c:WP11_AesGcm_Encrypt", "src/internal.c:WP11_AesGcm_Decrypt"]}
{"id": "C146", "title": "C_Sign gives the signature of the data with the named key, whatever happened before", "statement": "After a successful C_SignInit, and whatever calls follow that leave the key and that operation alone (further C_Sign calls included unless the mechanism is an HMAC), a successful C_Sign writes the signature of the data made with the key and the parameters named in the Init: for raw RSA of the data padded with zeros to the length of the modulus, for ECDSA the two numbers in the fixed length of the curve, for an HMAC the MAC. It succeeds when the mechanism accepts the data and the buffer is large enough.", "quantifier": "every finite history of API calls starting from a process in which the library has never been initialised, every key, mechanism and parameter, every further history that leaves key and operation alone, all data and buffer lengths", "why_tests_cant": "Ranges over all histories before and between the calls: a key or parameter left over from any of them could show in the signature.", "anchors": ["src/crypto.c:C_SignInit", "src/crypto.c:C_Sign", "src/internal.c:WP11_Rsa_Sign", "src/internal.c:WP11_RsaPkcs15_Sign", "src/internal.c:WP11_RsaPKCSPSS_Sign", "src/internal.c:WP11_Ec_Sign", "src/internal.c:WP11_Hmac_Sign"]}
