{
 "claims": [
  {
   "property": "C41",
   "status": "proved",
   "theorems": [
    "Verif.Lock.c41_writer_excludes",
    "Verif.Lock.c41_readers_share"
   ],
   "note": "Small-step model of WP11_Lock_*; any number of threads, any interleaving."
  },
  {
   "property": "C42",
   "status": "proved",
   "theorems": [
    "Verif.Lock.c42_no_deadlock",
    "Verif.Lock.c42_nested_read_not_blocked"
   ],
   "note": "Progress of the lock protocol itself."
  },
  {
   "property": "C43",
   "status": "proved",
   "theorems": [
    "Verif.c43_encrypt_split",
    "Verif.c43_decrypt_split",
    "Verif.c43_update_accepted",
    "Verif.c43_single_part",
    "Verif.c43_fresh_after_final",
    "Verif.c43_encrypt_history",
    "Verif.c43_decrypt_history",
    "Verif.c43_emptied_start",
    "Verif.c43_emptied_encrypted",
    "Verif.c43_emptied_decrypted"
   ],
   "note": "Block cipher is a parameter; any list of parts. The _history theorems are about whole API histories with any other calls in between."
  },
  {
   "property": "C44",
   "status": "proved",
   "theorems": [
    "Verif.c44_encrypt_split",
    "Verif.c44_decrypt_split",
    "Verif.c44_round_trip",
    "Verif.c44_single_part",
    "Verif.c44_encrypt_history",
    "Verif.c44_decrypt_history",
    "Verif.c44_round_trip_history"
   ],
   "note": "Any list of parts; buffers large enough. The _history theorems are about whole API histories."
  },
  {
   "property": "C45",
   "status": "partial",
   "theorems": [
    "Verif.c45_history_partial",
    "Verif.c45_cbc_buffers_partial",
    "Verif.c45_violated_pad_encrypt",
    "Verif.c45_violated_pad_decrypt",
    "Verif.c45_violated_pad_final",
    "Verif.c45_violated_pad_decrypt_final",
    "Verif.c45_violated_unaligned"
   ],
   "note": "Proved for aligned AES-CBC and the Update calls, after every history of the whole interface (c45_history_partial; AES is assumed to be a block cipher); violated by the code for CBC-PAD and unaligned single-part data."
  },
  {
   "property": "C46",
   "status": "partial",
   "theorems": [
    "Verif.c46_violated",
    "Verif.c46_accepts_iff"
   ],
   "note": "Violated; c46_accepts_iff says exactly what is accepted."
  },
  {
   "property": "C47",
   "status": "partial",
   "theorems": [
    "Verif.c47_decrypt_split",
    "Verif.c47_decrypt_history",
    "Verif.c47_final_clears",
    "Verif.c47_round_trip",
    "Verif.c47_only_authenticated",
    "Verif.c47_encrypt_violated",
    "Verif.c47_encrypt_parts",
    "Verif.c47_encrypt_one_update"
   ],
   "note": "Decryption proved; encryption proved for a message given to one C_EncryptUpdate and violated for more; c47_encrypt_parts says what it computes."
  },
  {
   "property": "C48",
   "status": "partial",
   "theorems": [
    "Verif.c48_history_partial",
    "Verif.c48_one_message_partial",
    "Verif.c48_violated_gcm",
    "Verif.c48_violated_sign",
    "Verif.c48_violated_ecdsa",
    "Verif.c48_oaep_label",
    "Verif.c48_oaep_label_decrypt"
   ],
   "note": "Proved for AES-CBC, AES-CBC-PAD and HMAC, in a session by itself and after every history of the whole interface (c48_history_partial; there except sessions in which C_WrapKey answered the length or that the buffer is too small, C53); for RSA-OAEP with a label the second message fails, with CKR_FUNCTION_FAILED; violated for AES-GCM, RSA, ECDSA."
  },
  {
   "property": "C49",
   "status": "proved",
   "theorems": [
    "Verif.c49_sign_split",
    "Verif.c49_verify_exact",
    "Verif.c49_sign_history",
    "Verif.c49_verify_history"
   ],
   "note": "MAC is a parameter assumed streaming."
  },
  {
   "property": "C50",
   "status": "proved",
   "theorems": [
    "Verif.c50_pkcs_verify_exact"
   ],
   "note": "RSA primitive is a parameter."
  },
  {
   "property": "C51",
   "status": "partial",
   "theorems": [
    "Verif.c51_x509_verify_partial",
    "Verif.c51_violated_long",
    "Verif.c51_violated_short",
    "Verif.c51_violated_refused"
   ],
   "note": "Violated by the code; the partial theorem is exact for data of the key's length."
  },
  {
   "property": "C52",
   "status": "proved",
   "theorems": [
    "Verif.c52_encode",
    "Verif.c52_decode",
    "Verif.c52_round_trip",
    "Verif.c52_sign",
    "Verif.c52_verify"
   ],
   "note": "DER specification in Spec/Der.lean."
  },
  {
   "property": "C53",
   "status": "partial",
   "theorems": [
    "Verif.c53_matching_init",
    "Verif.c53_history_partial",
    "Verif.c53_violated",
    "Verif.Demo.c53_violated_query"
   ],
   "note": "c53_matching_init: any history of cryptographic calls on a session. c53_history_partial: any history of the whole interface, except a C_WrapKey in that session that only asks for the length or whose buffer is too small; C_UnwrapKey never leaves an operation behind, whatever it answers, because the AES-CBC state of every session is in order in every history (AllFit). AES is assumed to be a block cipher. Violated after such a C_WrapKey, which leaves an encryption active."
  },
  {
   "property": "C63",
   "status": "partial",
   "theorems": [
    "Verif.c63_violated",
    "Verif.c63_fresh_start_partial",
    "Verif.c80_fresh"
   ],
   "note": "Violated by the code after an abandoned AES-CBC operation. c80_fresh: for every other mechanism the answers are those of a session in which nothing was done."
  },
  {
   "property": "C66",
   "status": "partial",
   "theorems": [
    "Verif.c66_parts_partial",
    "Verif.c66_single_partial",
    "Verif.c66_violated"
   ],
   "note": "Proved for multi-part decryption and for single-part decryption of at least one byte (in a session with nothing buffered); violated by C_Decrypt of no data."
  },
  {
   "property": "C67",
   "status": "proved",
   "theorems": [
    "Verif.c67_pss_verify_exact"
   ],
   "note": "RSA primitive and PSS check are parameters."
  },
  {
   "property": "C68",
   "status": "proved",
   "theorems": [
    "Verif.c68_history",
    "Verif.c68_size_query"
   ],
   "note": "Every data call, mechanism and state of a session; c68_history: after every history of the whole interface, nothing in the library changes."
  },
  {
   "property": "C33",
   "status": "proved",
   "theorems": [
    "Verif.c33_scalars",
    "Verif.c33_object",
    "Verif.c33_token"
   ],
   "note": "Codec of the storage files; also a truncated file is refused."
  },
  {
   "property": "C36",
   "status": "partial",
   "theorems": [
    "Verif.c36_names_distinct_partial",
    "Verif.c36_violated"
   ],
   "note": "Proved for directory paths of at most 68 characters; violated for 69 to 73."
  },
  {
   "property": "C57",
   "status": "proved",
   "theorems": [
    "Verif.c57_length",
    "Verif.c57_dh_params",
    "Verif.c57_unique",
    "Verif.c57_violated_zero"
   ],
   "note": "p and g non-zero and the encoding below 2^24 bytes; for zero the encoder violates DER."
  },
  {
   "property": "C24",
   "status": "partial",
   "theorems": [
    "Verif.c24_in_bounds_partial",
    "Verif.c24_two_calls_partial",
    "Verif.c24_violated_ec_point",
    "Verif.c24_violated_value_len"
   ],
   "note": "Proved except for CKA_EC_POINT of EC keys and over-long secret values, where the code violates it."
  },
  {
   "property": "C25",
   "status": "partial",
   "theorems": [
    "Verif.c25_secret_not_returned",
    "Verif.c25_violated_dh_class"
   ],
   "note": "Non-interference of secret key material for every template; a DH key whose class is not private leaks."
  },
  {
   "property": "C26",
   "status": "partial",
   "theorems": [
    "Verif.c26_stays_protected_partial",
    "Verif.c26_violated"
   ],
   "note": "Violated: C_SetAttributeValue flips both flags; the flags change only when named."
  },
  {
   "property": "C28",
   "status": "partial",
   "theorems": [
    "Verif.c28_usage_partial",
    "Verif.c28_violated_protection",
    "Verif.c28_violated_unwrap",
    "Verif.c28_violated_trusted"
   ],
   "note": "Proved for eight usage attributes; violated for CKA_UNWRAP, CKA_TRUSTED and the protection attributes."
  },
  {
   "property": "C29",
   "status": "partial",
   "theorems": [
    "Verif.c29_label_id",
    "Verif.c29_dates_partial",
    "Verif.c29_class",
    "Verif.c29_rsa",
    "Verif.c29_rsa_bits",
    "Verif.c29_secret",
    "Verif.c29_dh",
    "Verif.c29_cert",
    "Verif.c29_ec_value",
    "Verif.c58_params",
    "Verif.c29_violated_date"
   ],
   "note": "Proved for all values except dates that begin with a zero byte, which the code does not return. EC values given together with a point are left to the import function of wolfCrypt."
  },
  {
   "property": "C30",
   "status": "partial",
   "theorems": [
    "Verif.c30_in_arrays_partial",
    "Verif.c30_violated"
   ],
   "note": "Violated for secret keys longer than 512 bytes."
  },
  {
   "property": "C31",
   "status": "partial",
   "theorems": [
    "Verif.c31_unnamed_partial",
    "Verif.c31_violated_wiped",
    "Verif.c31_violated_not_atomic"
   ],
   "note": "Violated: the key is cleared and a failing call is not undone."
  },
  {
   "property": "C58",
   "status": "partial",
   "theorems": [
    "Verif.c58_params",
    "Verif.c58_point_partial",
    "Verif.c58_reimport",
    "Verif.c58_violated_ber"
   ],
   "note": "Completeness of the encoding proved; the shortest length form is not demanded by the code."
  },
  {
   "property": "C59",
   "status": "partial",
   "theorems": [
    "Verif.c59_exponent_partial",
    "Verif.c59_violated"
   ],
   "note": "Violated by the code unless the exponent's bytes are a palindrome."
  },
  {
   "property": "C60",
   "status": "partial",
   "theorems": [
    "Verif.c60_partial",
    "Verif.c60_key_partial",
    "Verif.c60_violated_short",
    "Verif.c60_violated_long",
    "Verif.c60_violated_none"
   ],
   "note": "After every history a successful derivation that returns a handle makes a new AES or generic key whose value is the whole shared secret; c60_key_partial: on the function, for the lengths asked for. The length asked for is not honoured (violated)."
  },
  {
   "property": "C61",
   "status": "partial",
   "theorems": [
    "Verif.c61_mechanism_list",
    "Verif.c61_slot_list_partial",
    "Verif.c61_violated_slot_list",
    "Verif.c24_two_calls_partial",
    "Verif.c24_violated_ec_point"
   ],
   "note": "Proved except for slot list counts of 2^31 or more (violated) and CKA_EC_POINT (violated)."
  },
  {
   "property": "C73",
   "status": "proved",
   "theorems": [
    "Verif.c73_list_and_info_agree",
    "Verif.c73_not_advertised",
    "Verif.c73_advertised"
   ],
   "note": "Encrypt, decrypt, sign and verify flags; every mechanism number."
  },
  {
   "property": "C01",
   "status": "proved",
   "theorems": [
    "Verif.c01_initialised_iff",
    "Verif.c01_refused"
   ],
   "note": "For every history from a process that never initialised the library, arbitrary storage contents. Histories that ran into undefined behaviour (bad) excluded."
  },
  {
   "property": "C02",
   "status": "partial",
   "theorems": [
    "Verif.c02_partial",
    "Verif.c02_violated"
   ],
   "note": "The property fails; c02_violated is the counterexample for every environment, c02_partial the part for histories without surplus C_Finalize."
  },
  {
   "property": "C03",
   "status": "proved",
   "theorems": [
    "Verif.c03_handles_distinct",
    "Verif.c03_open",
    "Verif.c03_stays_open"
   ],
   "note": "All histories, arbitrary storage contents."
  },
  {
   "property": "C04",
   "status": "proved",
   "theorems": [
    "Verif.c04_at_most_70",
    "Verif.c04_refused_iff"
   ],
   "note": ""
  },
  {
   "property": "C05",
   "status": "proved",
   "theorems": [
    "Verif.c05_close_only_that"
   ],
   "note": "Other sessions equal in every field of the session record."
  },
  {
   "property": "C06",
   "status": "partial",
   "theorems": [
    "Verif.c06_partial",
    "Verif.c06_violated"
   ],
   "note": "The property fails (the lowest handle stays open, login kept)."
  },
  {
   "property": "C07",
   "status": "proved",
   "theorems": [
    "Verif.c07_last_close_logs_out"
   ],
   "note": ""
  },
  {
   "property": "C08",
   "status": "proved",
   "theorems": [
    "Verif.c08_exclusion",
    "Verif.c08_open_refused",
    "Verif.c08_login_refused",
    "Verif.c08_login_status"
   ],
   "note": "Sequential histories; the concurrent case is C09."
  },
  {
   "property": "C13",
   "status": "proved",
   "theorems": [
    "Verif.c13_one_state",
    "Verif.c13_login",
    "Verif.c13_logout",
    "Verif.c13_kept"
   ],
   "note": ""
  },
  {
   "property": "C54",
   "status": "proved",
   "theorems": [
    "Verif.c54_other_sessions"
   ],
   "note": ""
  },
  {
   "property": "C10",
   "status": "proved",
   "theorems": [
    "Verif.c10_only",
    "Verif.c10_exactly",
    "Verif.c10_login",
    "Verif.c10_from",
    "Verif.readable_final"
   ],
   "note": "Histories of any number of processes on one directory, finalised or killed between calls, from an empty directory: soundness always (c10_only), exact characterisation if the files could be read at each C_Initialize (c10_exactly; readable_final gives a sufficient condition, C75 the case in which it fails). Hash of 32 bytes and no second preimage assumed."
  },
  {
   "property": "C11",
   "status": "proved",
   "theorems": [
    "Verif.c11_locked_refused",
    "Verif.c11_stays_locked",
    "Verif.c11_at_most_three",
    "Verif.c11_third_locks",
    "Verif.c11_timeout_grows",
    "Verif.c11_success_forgets"
   ],
   "note": "Sequential histories interleaved with arbitrary other calls; counters that the library can produce (Sane)."
  },
  {
   "property": "C14",
   "status": "proved",
   "theorems": [
    "Verif.c14_guarded",
    "Verif.c14_success"
   ],
   "note": ""
  },
  {
   "property": "C15",
   "status": "partial",
   "theorems": [
    "Verif.c15_partial",
    "Verif.c15_violated"
   ],
   "note": "Violated: C_SetPIN evaluates any number of guesses without counting. The partial theorem is for C_Login."
  },
  {
   "property": "C16",
   "status": "proved",
   "theorems": [
    "Verif.c16_so",
    "Verif.c16_user"
   ],
   "note": "Calls between initialisation and finalisation."
  },
  {
   "property": "C62",
   "status": "proved",
   "theorems": [
    "Verif.c62_flags",
    "Verif.c62_pins",
    "Verif.c62_lives",
    "Verif.c62_tries"
   ],
   "note": ""
  },
  {
   "property": "C17",
   "status": "proved",
   "theorems": [
    "Verif.c17_caps",
    "Verif.c17_handles",
    "Verif.c17_room",
    "Verif.c17_refused"
   ],
   "note": "Every history from an empty directory (c17_caps counts objects, c17_handles counts handles a session can name); creation succeeds below the cap whenever it succeeds for some population, and is refused at it with nothing changed."
  },
  {
   "property": "C18",
   "status": "proved",
   "theorems": [
    "Verif.c18_distinct",
    "Verif.c18_new",
    "Verif.c18_others"
   ],
   "note": "For histories of fewer than 2^27 calls in which CKA_TOKEN is 0 or 1 (another byte breaks the lists)."
  },
  {
   "property": "C19",
   "status": "partial",
   "theorems": [
    "Verif.c19_partial",
    "Verif.c19_violated"
   ],
   "note": "Violated after 2^28 - 1 creations in one session."
  },
  {
   "property": "C32",
   "status": "partial",
   "theorems": [
    "Verif.c32_partial",
    "Verif.c32_violated"
   ],
   "note": "Proved for five of the six calls, in every state; C_GenerateKeyPair violates it."
  },
  {
   "property": "C20",
   "status": "proved",
   "theorems": [
    "Verif.c20_unreachable",
    "Verif.c20_new_session"
   ],
   "note": "Non-interference: the answers of every sequence of calls not made on session h (any call once h has been closed) are the same whatever objects h has."
  },
  {
   "property": "C22",
   "status": "proved",
   "theorems": [
    "Verif.c22_search",
    "Verif.c22_one_search"
   ],
   "note": "Every history of fewer than 2^27 calls with CKA_TOKEN 0 or 1; any template with values shorter than 2^64-1 bytes; any interleaved calls that do not close the session or end the search; starting another is refused and changes nothing. Visible means what the code shows (Shown); that it is not what PKCS #11 asks for is C23."
  },
  {
   "property": "C21",
   "status": "proved",
   "theorems": [
    "Verif.c21_read_only"
   ],
   "note": "For every reachable state, every read-only session and every call on it."
  },
  {
   "property": "C55",
   "status": "partial",
   "theorems": [
    "Verif.c55_partial",
    "Verif.keyAlive_iff",
    "Verif.Demo.c55_violated",
    "Verif.Demo.c55_violated_other",
    "Verif.Demo.c55_violated_wrap"
   ],
   "note": "Violated when a key in use is destroyed; proved for histories that do not."
  },
  {
   "property": "C56",
   "status": "partial",
   "theorems": [
    "Verif.c56_partial",
    "Verif.Demo.c56_violated"
   ],
   "note": "Violated: the usage attributes are not looked at. The partial theorem: type of key and kind of mechanism are checked."
  },
  {
   "property": "C27",
   "status": "partial",
   "theorems": [
    "Verif.c27_partial",
    "Verif.Demo.c27_violated"
   ],
   "note": "Violated: CKA_EXTRACTABLE is not looked at. The partial theorem bounds what C_WrapKey exports."
  },
  {
   "property": "C23",
   "status": "partial",
   "theorems": [
    "Verif.c23_partial",
    "Verif.Demo.c23_violated"
   ],
   "note": "Violated for session objects and for the attributes of token objects; the partial theorem: after a logout the secret keys of the token are erased from memory and not found."
  },
  {
   "property": "C64",
   "status": "partial",
   "theorems": [
    "Verif.c64_partial",
    "Verif.Demo.c64_violated",
    "Verif.Demo.c64_violated_new_session"
   ],
   "note": "Violated: results of an ended search are delivered. Proved if no search has been started."
  },
  {
   "property": "C77",
   "status": "partial",
   "theorems": [
    "Verif.c77_partial",
    "Verif.c77_history_partial",
    "Verif.c77_x509_block",
    "Verif.c51_violated_refused"
   ],
   "note": "Proved for RSA PKCS#1, PSS, ECDSA, HMAC and for raw RSA with data of the key's length; violated for shorter data and keys that are not a multiple of 256 bytes (c51_violated_refused)."
  },
  {
   "property": "C78",
   "status": "proved",
   "theorems": [
    "Verif.c78_rsa_round_trip",
    "Verif.c78_history"
   ],
   "note": "Given that wolfCrypt's decryption inverts its encryption for the key pair (RsaPair)."
  },
  {
   "property": "C34",
   "status": "partial",
   "theorems": [
    "Verif.c34_stored_partial",
    "Verif.c34_usable_partial",
    "Verif.c34_logout_partial",
    "Verif.Demo.c34_violated_certificate",
    "Verif.Demo.c34_violated_setAttr"
   ],
   "note": "For every history and every token of keys that fit their C types: the record and the objects come back as stored; the keys are usable after login if their encoded form is current, in particular after a logout. Violated by certificates and by C_SetAttributeValue without a logout."
  },
  {
   "property": "C39",
   "status": "partial",
   "theorems": [
    "Verif.c39_partial",
    "Verif.Demo.c39_violated_so",
    "Verif.Demo.c39_violated_public",
    "Verif.Demo.c39_violated_finalize"
   ],
   "note": "Proved for a user who is logged in and logs out before the process ends; violated otherwise."
  },
  {
   "property": "C40",
   "status": "partial",
   "theorems": [
    "Verif.c40_partial",
    "Verif.c40_wrong_key",
    "Verif.Demo.c40_violated_wrong_key",
    "Verif.Demo.c40_violated_overwritten"
   ],
   "note": "First half proved for every history; second half: no other key material is yielded, but the login succeeds."
  },
  {
   "property": "C74",
   "status": "partial",
   "theorems": [
    "Verif.c74_partial",
    "Verif.c74_violated"
   ],
   "note": "Violated for every environment by one C_Initialize, C_Finalize on an empty directory."
  },
  {
   "property": "C75",
   "status": "partial",
   "theorems": [
    "Verif.c34_stored_partial",
    "Verif.Demo.c75_violated"
   ],
   "note": "Proved for tokens of keys."
  },
  {
   "property": "C76",
   "status": "partial",
   "theorems": [
    "Verif.c34_stored_partial",
    "Verif.Demo.c76_violated"
   ],
   "note": "The counters are part of the record that c34_stored_partial preserves over C_Finalize and C_Initialize; without C_Finalize violated."
  },
  {
   "property": "C35",
   "status": "partial",
   "theorems": [
    "Verif.c35_partial",
    "Verif.c35_objects_on_disk",
    "Verif.c35_violated_inside",
    "Verif.Demo.c35_violated_between"
   ],
   "note": "Violated: a crash inside any file loses the whole token (for every token); a crash between the files of a creation likewise. Proved for updates that leave the objects' files as they are and a crash between files."
  },
  {
   "property": "C69",
   "status": "proved",
   "theorems": [
    "Verif.c69_cut_file"
   ],
   "note": "For every token of storable keys, every file, every proper prefix."
  },
  {
   "property": "C70",
   "status": "partial",
   "theorems": [
    "Verif.c70_partial",
    "Verif.c70_partial_later",
    "Verif.c70_class_kept_partial",
    "Verif.Demo.c70_violated_zero",
    "Verif.Demo.c70_violated_dh"
   ],
   "note": "Histories without certificates; RSA, EC, AES and generic keys of any history, and DH keys in histories that do not change CKA_CLASS. Violated: all-zero storage key before the first user login; DH keys whose class is changed."
  },
  {
   "property": "C37",
   "status": "partial",
   "theorems": [
    "Verif.c37_partial",
    "Verif.c37_newest_partial",
    "Verif.c37_create_partial",
    "Verif.Demo.c37_violated"
   ],
   "note": "From a tidy directory the destruction of any object leaves no copy; it stays tidy if the newest is destroyed and when objects are made. Violated after destroying an older object."
  },
  {
   "property": "C38",
   "status": "partial",
   "theorems": [
    "Verif.c38_zero_nonce",
    "Verif.c38_violated"
   ],
   "note": "Violated in every environment and state: all secret keys made by C_CreateObject on the token are encrypted with the nonce zero under the storage key of the moment."
  },
  {
   "property": "C79",
   "status": "partial",
   "theorems": [
    "Verif.c79_partial",
    "Verif.c59_violated",
    "Verif.c79_violated_class"
   ],
   "note": "For every history and every successful C_GenerateKeyPair, given that wolfCrypt generates pairs (GenLawful); RSA with a plain exponent, classes if the templates name none. Violated by other exponents, and by a CKA_CLASS in the template, which replaces the class."
  },
  {
   "property": "C80",
   "status": "proved",
   "theorems": [
    "Verif.c80_isolated",
    "Verif.c80_fresh"
   ],
   "note": "Every history and interleaving of calls that do not concern the operation (Spec/Isolated.lean says which do)."
  },
  {
   "property": "C81",
   "status": "proved",
   "theorems": [
    "Verif.c81_kept"
   ],
   "note": "Histories of less than 2^27 calls in which CKA_TOKEN is given as 0 or 1."
  },
  {
   "property": "C82",
   "status": "partial",
   "theorems": [
    "Verif.c82_generated_signs_partial",
    "Verif.c82_generated_decrypts_partial",
    "Verif.c59_violated"
   ],
   "note": "Given that wolfCrypt generates pairs (GenLawful); RSA with a plain exponent, raw RSA with data of the key's length. Any sessions; keys on the token also over logouts, logins, PIN changes and restarts, as far as c107_partial goes."
  },
  {
   "property": "C71",
   "status": "partial",
   "theorems": [
    "Verif.c71_partial",
    "Verif.Demo.c71_violated",
    "Verif.Demo.c71_violated_nonce",
    "Verif.Demo.c71_violated_ub",
    "Verif.Demo.c71_violated_key"
   ],
   "note": "Every history and every mechanism; missing are the refusals that come after the first write, told by their answer: RSA-OAEP and RSA-PSS with CKR_MECHANISM_PARAM_INVALID, HMAC and AES-CBC with CKR_FUNCTION_FAILED. Violated by these: they replace the AES-GCM nonce or break the key schedule of the operation in progress."
  },
  {
   "property": "C83",
   "status": "partial",
   "theorems": [
    "Verif.c83_partial",
    "Verif.c83_violated"
   ],
   "note": "Salt lengths and tag bits below 2^31; violated above for every session and key."
  },
  {
   "property": "C09",
   "status": "partial",
   "theorems": [
    "Verif.c09_partial",
    "Verif.c09_violated",
    "Verif.login_alone"
   ],
   "note": "Any number of threads, C_Login split at its critical sections. Violated by opening a read-only session during a login as security officer; proved for all other schedules. login_alone ties the split login to the call of the sequential model."
  },
  {
   "property": "C12",
   "status": "partial",
   "theorems": [
    "Verif.c12_partial",
    "Verif.c12_violated",
    "Verif.login_alone"
   ],
   "note": "Violated: two threads can try any list of PINs without a lock. Proved when no two threads are inside a login to the same account."
  },
  {
   "property": "C84",
   "status": "partial",
   "theorems": [
    "Verif.c84_partial",
    "Verif.c84_violated",
    "Verif.c84_unwraps_rsa"
   ],
   "note": "Sessions that hold no part of a block of an earlier operation, given that wolfCrypt reads the PKCS#8 form it writes (Pkcs8Lawful). Violated after an unfinished AES-CBC operation."
  },
  {
   "property": "C85",
   "status": "partial",
   "theorems": [
    "Verif.c85_partial",
    "Verif.c85_violated"
   ],
   "note": "Other sessions, and the session itself when the arguments are refused. Violated in the session itself otherwise."
  },
  {
   "property": "C86",
   "status": "partial",
   "theorems": [
    "Verif.c86_partial",
    "Verif.c86_violated",
    "Verif.setPin_alone"
   ],
   "note": "All schedules in which two threads are never inside a change of the PIN of one account. Violated otherwise: both changes succeed, no PIN works."
  },
  {
   "property": "C87",
   "status": "proved",
   "theorems": [
    "Verif.Threads.c87_every_call_returns"
   ],
   "note": "All calls but C_Initialize, C_Finalize, C_InitToken, which create and destroy the locks. Branches on data are free choices."
  },
  {
   "property": "C88",
   "status": "partial",
   "theorems": [
    "Verif.Threads.c88_partial",
    "Verif.Threads.c88_violated"
   ],
   "note": "For each kind of data: no race as long as no thread makes one of the calls listed in Spec/Threads.lean (unguarded); for the random generator that list is empty. Violated for all other data, each by a schedule of two calls."
  },
  {
   "property": "C89",
   "status": "partial",
   "theorems": [
    "Verif.c89_partial",
    "Verif.c89_violated"
   ],
   "note": "In every reachable state the value of every object is of the kind its class and type say, and operations and derivations succeed only with keys of the right type. Violated: five calls on objects of another kind are not refused."
  },
  {
   "property": "C90",
   "status": "partial",
   "theorems": [
    "Verif.c90_dh_partial",
    "Verif.c90_ecdh_partial",
    "Verif.c90_same_value"
   ],
   "note": "Both parties any histories, public values exchanged as read with C_GetAttributeValue; assumes that wolfCrypt's agreement functions compute other^own mod p, and commute for ECDH. A private key on the token may be used after logouts, logins, PIN changes and restarts; missing is what c107_partial leaves out."
  },
  {
   "property": "C91",
   "status": "proved",
   "theorems": [
    "Verif.c91_refused",
    "Verif.c91_asks",
    "Verif.c91_uninitialised",
    "Verif.c91_histories",
    "Verif.c91_unnoticed",
    "Verif.c91_slots"
   ],
   "note": "All functions of the table but C_GetFunctionList. C_SeedRandom counts as a draw from the generator."
  },
  {
   "property": "C92",
   "status": "partial",
   "theorems": [
    "Verif.c92_length_partial",
    "Verif.c92_delivers",
    "Verif.c92_fresh",
    "Verif.c92_violated"
   ],
   "note": "Lengths below 2^32; freshness for every history of less than 2^27 calls, assuming that the generator's own outputs of that length differ. Violated for longer ones."
  },
  {
   "property": "C93",
   "status": "partial",
   "theorems": [
    "Verif.c93_partial",
    "Verif.c93_violated"
   ],
   "note": "Templates with CKA_VALUE_LEN and without CKA_VALUE. Violated by the empty template."
  },
  {
   "property": "C94",
   "status": "partial",
   "theorems": [
    "Verif.c94_partial",
    "Verif.c94_violated",
    "Verif.c94_violated_certificate"
   ],
   "note": "What is copied: key type, named class, label, identifier, usages, value of AES and generic secret keys; everything else stays. Violated: the rest is not copied and the template's values are lost."
  },
  {
   "property": "C95",
   "status": "proved",
   "theorems": [
    "Verif.c95_new_session"
   ],
   "note": "What an earlier search found is left behind all the same: see c64_violated_new_session."
  },
  {
   "property": "C96",
   "status": "partial",
   "theorems": [
    "Verif.c96_pins_partial",
    "Verif.c96_durable_partial",
    "Verif.Demo.c96_violated_create",
    "Verif.Demo.c96_violated_destroy",
    "Verif.Demo.c96_violated_unseen",
    "Verif.Demo.c96_violated_generate",
    "Verif.Demo.c96_violated_all"
   ],
   "note": "Proved for the calls that set PINs and failures that a write or open reports, on tokens whose objects can be stored. Violated for the calls that make objects and C_DestroyObject, and for failures reported only by flushing. c96_violated_all: one file that cannot be opened during C_GenerateKeyPair, success is reported, and the next process finds no token, no PIN and no older key."
  },
  {
   "property": "C97",
   "status": "partial",
   "theorems": [
    "Verif.c97_partial",
    "Verif.Demo.c97_violated",
    "Verif.Demo.c97_violated_file"
   ],
   "note": "Proved: when the token's file cannot be opened the call fails and no file changes. Violated in the running process, and after the file was opened."
  },
  {
   "property": "C98",
   "status": "proved",
   "theorems": [
    "Verif.c98_inside"
   ],
   "note": "All calls that make objects (C_CreateObject, C_CopyObject, C_GenerateKey, C_GenerateKeyPair, C_UnwrapKey, C_DeriveKey) and C_DestroyObject, in any state, with any failures."
  },
  {
   "property": "C99",
   "status": "proved",
   "theorems": [
    "Verif.c99_authority",
    "Verif.initPin_alone",
    "Verif.setPin_alone"
   ],
   "note": "Any start state, any number of threads. The _alone theorems tie the calls in parts to the sequential model."
  },
  {
   "property": "C100",
   "status": "proved",
   "theorems": [
    "Verif.c100_authority",
    "Verif.login_alone"
   ],
   "note": "Any start state, any number of threads; logins are made in parts, a login in one go is one of these (login_alone)."
  },
  {
   "property": "C101",
   "status": "partial",
   "theorems": [
    "Verif.c101_partial",
    "Verif.c101_violated"
   ],
   "note": "Proved for schedules in which no two threads are inside C_Login. Violated by a login as user and one as security officer at the same time."
  },
  {
   "property": "C102",
   "status": "partial",
   "theorems": [
    "Verif.c102_partial",
    "Verif.c102_read",
    "Verif.destroy_alone",
    "Verif.getAttr_alone",
    "Verif.Demo.c102_violated",
    "Verif.Demo.c102_freed",
    "Verif.Demo.c102_torn"
   ],
   "note": "Proved for schedules in which no thread takes away what another one is using. Violated otherwise: two threads that destroy the same object free it twice, a read goes on with freed memory, and attributes read while they are set may be old and new ones mixed."
  },
  {
   "property": "C103",
   "status": "partial",
   "theorems": [
    "Verif.c103_partial",
    "Verif.Demo.careful_safe",
    "Verif.Demo.c103_violated",
    "Verif.Demo.c103_violated_kind",
    "Verif.Demo.c103_violated_destroyed"
   ],
   "note": "Proved for every history whose calls meet the conditions of Spec/Safe.lean, below 2^27 calls, booleans in CKA_TOKEN. Violated by calls that do not."
  },
  {
   "property": "C104",
   "status": "proved",
   "theorems": [
    "Verif.c104",
    "Verif.Demo.twice_malformed"
   ],
   "note": "Every history and template. Calls that run into undefined behaviour (C103) are not claimed to change nothing."
  },
  {
   "property": "C105",
   "status": "partial",
   "theorems": [
    "Verif.c105_partial",
    "Verif.c105_history",
    "Verif.c105_handle",
    "Verif.c105_violated"
   ],
   "note": "Missing: keys made by C_GenerateKey say that they were not generated on the token, and C_SetAttributeValue replaces the value of a generated key, which goes on saying that it was (c105_violated)."
  },
  {
   "property": "C106",
   "status": "partial",
   "theorems": [
    "Verif.c106_sessions",
    "Verif.c106_stays_open",
    "Verif.c106_apart",
    "Verif.c106_logged_out",
    "Verif.c106_violated"
   ],
   "note": "Missing: the login of a session opened while another thread closes the last one may be undone by that thread; two threads that close the same session may use freed memory, or close a session opened in between (c106_violated). c106_apart is for schedules in which no two threads close one session; C_CloseAllSessions and the other calls are whole calls here."
  },
  {
   "property": "C107",
   "status": "partial",
   "theorems": [
    "Verif.c107_partial",
    "Verif.Demo.c39_violated_so",
    "Verif.Demo.c39_violated_public",
    "Verif.Demo.c39_violated_finalize"
   ],
   "note": "Any number of logouts, logins, PIN changes and restarts, in any order with any other calls. The conditions on each call are in Spec/KeyKept.lean; without them violated (c39_violated_*)."
  },
  {
   "property": "C108",
   "status": "partial",
   "theorems": [
    "Verif.c108_cbc_pad_partial",
    "Verif.c108_cbc_pad_single_partial",
    "Verif.c108_cbc_partial",
    "Verif.c108_gcm_partial",
    "Verif.c108_gcm_parts_partial",
    "Verif.c108_cbc_single_partial",
    "Verif.c108_hmac_partial",
    "Verif.c108_hmac_single_partial"
   ],
   "note": "For all histories; missing is what c107_partial leaves out. Encryption with AES-GCM in parts is wrong by itself (C47)."
  },
  {
   "property": "C109",
   "status": "partial",
   "theorems": [
    "Verif.c109_partial",
    "Verif.c109_settled",
    "Verif.Demo.c109_violated_setAttr",
    "Verif.Demo.c39_violated_finalize"
   ],
   "note": "Any calls and any number of process ends between calls; c109_settled: after a call that made a token object the files hold the token. Not covered: ends inside a call (C35), changes of the user's PIN, attributes of token objects (violated, c109_violated_setAttr)."
  },
  {
   "property": "C110",
   "status": "partial",
   "theorems": [
    "Verif.c110_partial",
    "Verif.c110_pair_partial",
    "Verif.c110_login_partial",
    "Verif.c110_set_partial",
    "Verif.c110_set_one_partial",
    "Verif.Demo.c110_violated_pair",
    "Verif.Demo.c110_violated_set",
    "Verif.Demo.c110_violated_login",
    "Verif.c110_data_partial",
    "Verif.c110_unwrap_partial",
    "Verif.c110_init_partial",
    "Verif.Demo.c110_violated_init"
   ],
   "note": "C_CreateObject, C_CopyObject, C_GenerateKey, C_DeriveKey, and C_GenerateKeyPair with the private key in the session, the data calls, C_WrapKey, C_UnwrapKey and the Init calls without an operation in progress: any failing allocations. Violated for pairs with a token private key, C_SetAttributeValue, C_Login and the Init calls while an operation is in progress. Allocations inside wolfCrypt and while files are written succeed in the model."
  },
  {
   "property": "C111",
   "status": "partial",
   "theorems": [
    "Verif.c111_partial",
    "Verif.c111_find_partial",
    "Verif.c111_open_partial",
    "Verif.c111_logout_partial",
    "Verif.c111_close_partial",
    "Verif.stepM_enough",
    "Verif.Demo.c111_violated_open",
    "Verif.Demo.c111_violated_find",
    "Verif.Demo.c111_violated_logout"
   ],
   "note": "Holds for all calls that make or change objects, C_Login, the calls of cryptographic operations, C_WrapKey and C_UnwrapKey; stepM_enough: without failures every call is the usual one. Violated for C_OpenSession, C_FindObjectsInit and C_Logout, for which the partial theorems say what still holds."
  },
  {
   "property": "C112",
   "status": "partial",
   "theorems": [
    "Verif.c112_partial",
    "Verif.Demo.c112_violated"
   ],
   "note": "Every history and every call; Call.MayChange (Spec/Trace.lean) lists for each call what an error may leave. Violated by C_FindObjectsInit with a malformed CKA_TOKEN, which leaves a search active; also by C_SetAttributeValue (C31), C_GenerateKeyPair (C32), C_SetPIN (C97)."
  },
  {
   "property": "C113",
   "status": "partial",
   "theorems": [
    "Verif.c113_partial",
    "Verif.Demo.c113_violated_pin",
    "Verif.Demo.c113_violated_template",
    "Verif.Demo.c113_violated_key",
    "Verif.Demo.c113_violated_wrap",
    "Verif.Demo.c113_violated_derive",
    "Verif.Demo.c113_violated_decrypt",
    "Verif.Demo.c113_violated_data"
   ],
   "note": "For every state and call the code is one of the standard's (AnyCall.codes) or one of those in AnyCall.otherCodes (Spec/Codes.lean); for functions without other codes this is the whole property. The _violated theorems show that every code in otherCodes does occur."
  },
  {
   "property": "C114",
   "status": "partial",
   "theorems": [
    "Verif.c114_partial",
    "Verif.c114_create_partial",
    "Verif.Demo.c114_violated"
   ],
   "note": "Two-run theorem: c114_partial for any two libraries that differ in the secret parts of token keys and in the files; c114_create_partial for the creation of a secret key with two values of the same length, then C_Logout, then any calls. Hypotheses: every key on the token can be encoded (AllEncodable), no right user PIN and no C_Finalize afterwards. Violated otherwise: renaming an RSA key with C_SetAttributeValue empties it, clearing at C_Logout stops at it without an error, and older keys stay readable by anybody (Demo.c114_violated). Missing: C_Finalize followed by C_Initialize."
  },
  {
   "property": "C115",
   "status": "proved",
   "theorems": [
    "Verif.c115",
    "Verif.c115_lost"
   ],
   "note": "c115: exactly, if the files can be read at each C_Initialize; c115_lost: in any case the last label or blanks. Labels are 32 bytes long as the standard says; one that begins with a zero byte is reported as blanks."
  },
  {
   "property": "C116",
   "status": "partial",
   "theorems": [
    "Verif.c116_partial",
    "Verif.Demo.c116_violated",
    "Verif.Demo.c116_violated_final"
   ],
   "note": "Proved while no call overlaps the first C_Initialize and no C_Initialize, C_Finalize or other call overlaps the last C_Finalize; violated without that, the count is tested without the lock and the library is freed after giving it back."
  },
  {
   "property": "C117",
   "status": "partial",
   "theorems": [
    "Verif.c117_partial",
    "Verif.c117_exact",
    "Verif.Demo.c112_violated"
   ],
   "note": "Every history of the whole interface; missing: sessions in which an earlier C_FindObjectsInit was refused because of a malformed CKA_TOKEN (Demo.c112_violated). c117_exact says for every history what the code does, those sessions included."
  },
  {
   "property": "C118",
   "status": "partial",
   "theorems": [
    "Verif.c118_partial",
    "Verif.c118_two_partial",
    "Verif.c118_process",
    "Verif.c118_restart",
    "Verif.Demo.c118_violated",
    "Verif.Demo.c118_violated_files"
   ],
   "note": "Two runs compared, any state, any later events; missing: restarts after which the new owner's own files cannot be read (Demo.c118_violated), and the old files are not removed (Demo.c118_violated_files). Without a restart, or with one right after C_InitToken, nothing is assumed of files."
  },
  {
   "property": "C119",
   "status": "partial",
   "theorems": [
    "Verif.c119_gone",
    "Verif.c119_partial",
    "Verif.Demo.c119_violated"
   ],
   "note": "c119_gone: the destroyed object's handle names nothing right after the call. c119_partial: it stays so, through any calls of any sessions, while an object with a higher handle in the same place is there. Missing, and violated: the newest object, whose handle goes to the next one made (c119_violated)."
  },
  {
   "property": "C120",
   "status": "partial",
   "theorems": [
    "Verif.c120_partial",
    "Verif.Demo.c120_violated",
    "Verif.Demo.c120_violated_set"
   ],
   "note": "For C_CreateObject, C_CopyObject, C_GenerateKeyPair and every other call that makes an RSA, EC or DH public key on the token; within one process, any later calls of anybody that do not change or destroy the key or initialise the token. Violated over a restart (c120_violated) and for changed values (c120_violated_set)."
  },
  {
   "property": "C121",
   "status": "proved",
   "theorems": [
    "Verif.c121",
    "Verif.c121_record"
   ],
   "note": "Sequential calls (concurrent logins can pass the limit, see C12). c121_record: the whole record of the token fits its file format in every state reached by calls; this discharges the assumption made of the record in C34, C107 and C109."
  },
  {
   "property": "C122",
   "status": "partial",
   "theorems": [
    "Verif.Lock.c122_reader",
    "Verif.Lock.c122_give_back",
    "Verif.Lock.c122_writer_partial",
    "Verif.Lock.c122_writer_violated",
    "Verif.Threads.c122_overtaken_violated"
   ],
   "note": "Liveness over executions without end, strong fairness of scheduler and mutexes. Readers always get in and out. A writer gets in if readers leave a moment; the code violates it otherwise: a fair execution in which a writer waits for ever, and for every k a C_Logout overtaken by k calls of C_GetSessionInfo of each of two threads."
  },
  {
   "property": "C123",
   "status": "partial",
   "theorems": [
    "Verif.c123_each",
    "Verif.c123_order",
    "Verif.c123_refused_partial",
    "Verif.c123_violated"
   ],
   "note": "Success exactly if each attribute alone succeeds, same answers, any order. When an attribute is refused the ones before it are answered as alone and the rest is untouched; the standard wants the rest answered too (c123_violated)."
  },
  {
   "property": "C124",
   "status": "proved",
   "theorems": [
    "Verif.c124_machine",
    "Verif.c124_seen",
    "Verif.c124_foreseen",
    "Verif.c124_rest"
   ],
   "note": "Refinement, call by call, against Spec/Access.lean, for histories that do not run into undefined behaviour. Assumes 32-byte hashes, no injectivity: a PIN is accepted only if its hash for some seed is that of the PIN set. The first C_Initialize may find any token (C34, C109 say which)."
  },
  {
   "property": "C125",
   "status": "proved",
   "theorems": [
    "Verif.c125_kept",
    "Verif.c125_kept_safe",
    "Verif.Demo.c125_needed_logout",
    "Verif.Demo.c125_needed_wipe",
    "Verif.Demo.c125_needed_so",
    "Verif.Demo.c125_needed_public",
    "Verif.Demo.c125_needed_login",
    "Verif.Demo.c125_needed_kind"
   ],
   "note": "The rules are in Spec/Orderly.lean. c125_kept assumes that no call ran into undefined behaviour; c125_kept_safe derives it from the conditions of C103. They allow secret keys, RSA and EC private keys, RSA public keys and generated RSA and EC pairs, made by import, generation, unwrapping or derivation; not DH keys, imported EC public keys, certificates and copies on the token. Assumes the laws of the sealing and serialising functions (StoreLaws, SealLen), 32-byte hashes, full random output, files that are written, and that no two PINs pass for the user's when the user logs in (OnePin). The theorems c125_needed_... show that six of the rules are needed: one call that breaks the rule, and the key is lost."
  },
  {
   "property": "C126",
   "status": "partial",
   "theorems": [
    "Verif.c126_partial",
    "Verif.c126_told",
    "Verif.create_alone",
    "Verif.Demo.c126_violated",
    "Verif.Demo.c126_freed"
   ],
   "note": "Holds when no two threads make objects of the same session at once, no other call uses that session meanwhile, and nobody closes the session of a maker or destroys an object whose handle its maker has not been told; objects of the token may be made in any interleaving. Otherwise the code violates it: c126_violated (two threads told the same handle, one key lost), c126_freed (handle read from freed memory). C_CreateObject only: key generation, unwrapping and derivation are made in one go."
  },
  {
   "property": "C127",
   "status": "partial",
   "theorems": [
    "Verif.c127_partial",
    "Verif.c127_restart",
    "Verif.Demo.c127_violated"
   ],
   "note": "Holds for every history without C_Finalize in which C_CloseAllSessions is not used while the session with the lowest handle (65537) is open; otherwise the code violates it (c127_violated). CKA_TOKEN is given as CK_TRUE or CK_FALSE and there are fewer than 2^27 calls. Over C_Finalize and C_Initialize c127_restart shows it for applications that obey the rules of C125; missing: the handles after a restart for other applications."
  },
  {
   "property": "C128",
   "status": "partial",
   "theorems": [
    "Verif.c128_partial",
    "Verif.c128_all_partial",
    "Verif.Demo.c128_violated"
   ],
   "note": "For the objects of the token, and for the search without conditions (objects of the session and of the token). Up to ten objects, for applications that obey the rules of C125. With more objects the code violates it: the search ends after ten (c128_violated)."
  },
  {
   "property": "C129",
   "status": "proved",
   "theorems": [
    "Verif.c129_import"
   ],
   "note": "Token and session objects; AES-GCM, AES-CBC (whole blocks) and HMAC in one part. AES-CBC-PAD is left out: there the rest of an abandoned operation does play a part (see the finding on CBC Init)."
  },
  {
   "property": "C130",
   "status": "partial",
   "theorems": [
    "Verif.c130_import",
    "Verif.c130_rsa",
    "Verif.c130_sign_partial",
    "Verif.c130_decrypt"
   ],
   "note": "Only the part on signatures is partial: plain RSA with data shorter than the key, which the code signs and then refuses (C51)."
  },
  {
   "property": "C131",
   "status": "partial",
   "theorems": [
    "Verif.c131_partial",
    "Verif.Demo.c131_violated",
    "Verif.Demo.c131_violated_session",
    "Verif.Demo.c131_violated_new"
   ],
   "note": "False of the code: C_InitToken tests and acts in separate critical sections. Violated when two threads are inside it (a wrong PIN is compared with a PIN of length 0 and accepted) and when a session is opened during it. Proved for schedules without these."
  },
  {
   "property": "C132",
   "status": "partial",
   "theorems": [
    "Verif.c132_partial",
    "Verif.Demo.c132_violated"
   ],
   "note": "False of the code: C_Login looks its session up once and sets the login state later without looking again, so a close of the last session in between logs out first and the login comes after. Proved for schedules in which a session is open while a thread is inside C_Login, without C_CloseAllSessions (C06)."
  },
  {
   "property": "C133",
   "status": "proved",
   "theorems": [
    "Verif.c133_silent",
    "Verif.c133_created"
   ],
   "note": "For session objects; for keys on the token see C114. A call uses the key if an operation is started with it, it wraps, unwraps, is wrapped or is a base key, or its attributes are set (Employs in Spec/Silent.lean)."
  },
  {
   "property": "C134",
   "status": "partial",
   "theorems": [
    "Verif.c134_change_partial",
    "Verif.c134_seen_partial",
    "Verif.Demo.c134_violated",
    "Verif.Demo.c134_mixed"
   ],
   "note": "Proved for a change during which no other thread changes or destroys the object, logs in or out, initialises the token or closes the session (LetsBe in Spec/ConcSet.lean); others may read the object and change other ones in parts. Violated without that, and for what is seen in between."
  },
  {
   "property": "C135",
   "status": "proved",
   "theorems": [
    "Verif.c135_silent",
    "Verif.c135_created"
   ],
   "note": "For the model of one thread at a time; the two libraries may hold different stores. Keys that wolfCrypt can encode in one library and not in the other are left out (AlikeKeys in Spec/SilentTok.lean), for the writing of the store would stop at them; secret and DH keys can always be encoded."
  },
  {
   "property": "C136",
   "status": "partial",
   "theorems": [
    "Verif.c136_kept_partial",
    "Verif.c136_set",
    "Verif.c136_created",
    "Verif.c136_restart",
    "Verif.c136_generated",
    "Verif.c136_pair",
    "Verif.c136_pair_restart",
    "Verif.c136_violated"
   ],
   "note": "For one thread at a time and between two shutdowns of the library; c136_restart covers token objects across restarts for applications that obey the rules of C125. c136_kept_partial covers every attribute that is not key material, c136_set and c136_created those that the library gives back at all (reading in Spec/LastSet.lean, C28 and C29); c136_violated shows CKA_WRAP and CKA_TRUSTED changing without being set."
  },
  {
   "property": "C137",
   "status": "proved",
   "theorems": [
    "Verif.c137_found",
    "Verif.c137_generated",
    "Verif.c137_pair",
    "Verif.search_accepted",
    "Verif.c137_ten"
   ],
   "note": "Keys that the rules of C125 (Ordered) allow, made by C_CreateObject, C_GenerateKey or C_GenerateKeyPair; attributes that the library gives back as they were set (GivenIn in Spec/Sought.lean); a session in which no search is in progress. c137_ten shows that the limit of ten, which the statement allows for, is there: of eleven keys with one label the first is not found."
  },
  {
   "property": "C138",
   "status": "proved",
   "theorems": [
    "Verif.c138_cbc_pad",
    "Verif.c138_cbc_pad_single",
    "Verif.c138_cbc",
    "Verif.c138_cbc_single",
    "Verif.c138_gcm",
    "Verif.c138_gcm_parts",
    "Verif.c138_hmac",
    "Verif.c138_hmac_single",
    "Verif.c138_wrap"
   ],
   "note": "The rules are Ordered in Spec/Orderly.lean. As C108, with rules for the application in place of the conditions of c107_partial on each call. Buffers large enough, no partial block left over from an earlier AES-CBC operation (Emptied; C63), AES-GCM messages below 2 GB. Assumes of wolfCrypt that decryption inverts encryption, that HMACs in parts equal those at once and that it reads the PKCS#8 form it writes."
  },
  {
   "property": "C139",
   "status": "proved",
   "theorems": [
    "Verif.c139_imported"
   ],
   "note": "C129 over restarts, under the rules of C125 (Ordered in Spec/Orderly.lean). What a job is and what it should answer is in Spec/Import.lean; the algorithms are parameters of the model. That no call runs into undefined behaviour is assumed (C103)."
  },
  {
   "property": "C140",
   "status": "partial",
   "theorems": [
    "Verif.c140_signs_partial",
    "Verif.c140_decrypts_partial",
    "Verif.c59_violated"
   ],
   "note": "Missing: RSA pairs with an exponent that is not the same read backwards (the code generates a key with another exponent, c59_violated) and plain RSA signatures of short data (C51). The rules are those of C125; that generated halves fit together mathematically is assumed of wolfCrypt (GenLawful)."
  },
  {
   "property": "C141",
   "status": "partial",
   "theorems": [
    "Verif.c141_imported",
    "Verif.c141_sign_partial",
    "Verif.c141_decrypt"
   ],
   "note": "C130 over restarts, under the rules of C125 (Endured in Spec/Endured.lean). Only the part on signatures is partial: plain RSA with data shorter than the key, which the code signs and then refuses (C51). That no call runs into undefined behaviour is assumed (C103)."
  },
  {
   "property": "C142",
   "status": "proved",
   "theorems": [
    "Verif.c142_agree",
    "Verif.c142_agree_any",
    "Verif.c142_same_value"
   ],
   "note": "C90 for ECDH over restarts, under the rules of C125 (Party.Orders in Spec/OrderlyAgree.lean; the rules allow no DH keys on the token). What is assumed of wolfCrypt is EcdhLawful and GenLawful. That no call runs into undefined behaviour follows from the derivation having succeeded."
  },
  {
   "property": "C143",
   "status": "partial",
   "theorems": [
    "Verif.c143_buffers_partial",
    "Verif.c143_violated_gcm_long"
   ],
   "note": "C45 for the other mechanisms. AES-GCM data of 4 GB and more is left out, and c143_violated_gcm_long shows why: the length is computed in 32 bits and wraps. The lengths of what wolfCrypt computes are assumed (OutLens in Spec/BufHist.lean)."
  },
  {
   "property": "C144",
   "status": "partial",
   "theorems": [
    "Verif.c144_verify_partial"
   ],
   "note": "All five kinds of mechanism; correctness is stated by RightSig (Spec/VerifyHist.lean) in terms of what wolfCrypt computes. Missing: raw RSA with data of another length than the key's, where the code is wrong (C51)."
  },
  {
   "property": "C145",
   "status": "partial",
   "theorems": [
    "Verif.c145_encrypt_partial",
    "Verif.c145_decrypt_partial",
    "Verif.c145_cbc_partial",
    "Verif.c145_cbc_pad_partial"
   ],
   "note": "RSA (raw, PKCS#1 v1.5, OAEP) and AES-GCM with tags of at most 128 bits; the results are stated by enciphered and deciphered (Spec/Single.lean) in terms of what wolfCrypt computes. AES-CBC for whole blocks, whatever an abandoned operation left; AES-CBC-PAD when nothing was left over. Missing: AES-CBC-PAD after an abandoned operation, where what was left shows (c63_violated, c66_violated), AES-CBC encryption of data that is not whole blocks, GCM tags of more than 128 bits (c83_violated)."
  },
  {
   "property": "C146",
   "status": "proved",
   "theorems": [
    "Verif.c146_sign"
   ],
   "note": "All signature mechanisms of the code; the signature is stated by SignedWith (Spec/SignHist.lean) in terms of what wolfCrypt computes. Assumes of wolfCrypt that MACs have their size and that ECDSA signatures are the DER encoding of two numbers that fit the curve (EcSigns)."
  }
 ]
}