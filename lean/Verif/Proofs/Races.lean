import Verif.Proofs.Threads

/-! # Which functions access which data without its lock -/

namespace Verif.Threads

/-- The lock that protects the data. -/
def guard : Loc → LockId
  | .rng => .rng
  | .sessions => .slot
  | .login => .slot
  | .fails => .slot
  | .pin _ => .slot
  | .tokenKey => .slot
  | .objects => .token
  | .obj _ => .token
  | .store => .token

/-- `x` is read only with its lock held and written only with its lock held for
writing. -/
def onlyGuarded (x : Loc) (h : Held) (y : Loc) (w : Bool) : Prop :=
  y = x → if w then h.get (guard x) = .rw else h.get (guard x) ≠ .ro 0

/-- The functions that do not keep to that. -/
def bare : Loc → List Fn
  | .rng => []
  | .sessions => [.closeSessions]
  | .login => [.find]
  | .fails => [.soLogin, .failedLogin, .failedExpire, .addObject, .removeObject]
  | .pin true => [.checkSoPin, .soLogin, .setSoPin, .addObject, .removeObject]
  | .pin false => [.checkUserPin, .userLogin, .setUserPin, .isUserPinInitialized, .addObject,
      .removeObject]
  | .tokenKey => [.userLogin, .setUserPin, .addObject, .removeObject]
  | .objects => [.userLogin, .logout, .closeSession, .setSoPin, .setUserPin]
  | .obj _ => [.userLogin, .logout, .closeSession, .setSoPin, .setUserPin, .objectFree, .rsaKeyLen,
      .rsaSerialize, .rsaSign, .ecSigLen, .ecDerive]
  | .store => [.setSoPin, .setUserPin]

set_option maxHeartbeats 1600000 in
theorem keeps_guarded (x : Loc) (f : Fn) (hf : f ∉ bare x) : f.Keeps (onlyGuarded x) := by
  rcases x with _ | _ | _ | _ | (_ | _) | _ | _ | o | _ <;> cases f <;>
    first
    | (refine absurd ?_ hf; simp [bare]; done)
    | simp [Fn.Keeps, Fn.prog, wp, seqs, ro, rw, roObj, rwObj, move, Held.get, Held.set, Held.none,
      Held.clear, rank, onlyGuarded, guard,
      isInitialized, getTokenLabel, isTokenInitialized, isUserPinInitialized,
      failedLogin, failedExpire, openSession, closeSession, closeSessions, checkSoPin, checkUserPin,
      soLogin, userLogin, setSoPin, setUserPin, logout, sessionGet, getState, setCbcParams,
      addObject, removeObject, Threads.find, objectFree, setRsaKey, setEcKey, setDhKey,
      setSecretKey, setCert, setClass, objectFind, getAttr, setAttr, rsaGenerate, rsaKeyLen,
      rsaSerialize, rsaPublicEncrypt, rsaPrivateDecrypt, pkcs15PublicEncrypt,
      pkcs15PrivateDecrypt, oaepPublicEncrypt, oaepPrivateDecrypt, rsaSign, rsaVerify,
      pkcs15Sign, pkcs15Verify, pssSign, pssVerify, ecGenerate, ecSigLen, ecSign, ecVerify,
      ecDerive, dhGenerate, dhDerive, aesGenerate, gcmEncrypt, gcmEncryptUpdate, gcmDecrypt,
      gcmDecryptFinal, hmacInit, seedRandom, generateRandom, rngNew, rsaRo, rsaRw, tokenStore]

set_option maxHeartbeats 1600000 in
theorem uses_guarded (x : Loc) (c : Api) (hc : c ∉ unguarded x) : ∀ f ∈ c.uses, f ∉ bare x := by
  rcases x with _ | _ | _ | _ | (_ | _) | _ | _ | o | _ <;> cases c <;>
    first
    | (refine absurd ?_ hc; simp [unguarded, unguarded.storing]; done)
    | simp [Api.uses, bare]

end Verif.Threads
