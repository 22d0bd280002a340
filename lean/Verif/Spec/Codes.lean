import Verif.Spec.Rest

/-!
# The status codes PKCS #11 gives each function

The lists are those of the standard (PKCS #11 v2.40, section 5: "Return values" of each
function), as far as the codes are among those of wolfPKCS11 at all (`RV`).
-/

namespace Verif

/-- Codes that every function may answer: success, failures of the library, bad arguments, a
library not initialised; and `CKR_FUNCTION_NOT_SUPPORTED`, which a function answers that is
there only as an entry of the table. -/
def codesAll : List RV :=
  [.ok, .generalError, .obHostMemory, .functionFailed, .argumentsBad, .cryptokiNotInitialized, .functionNotSupported]

/-- Codes of functions that use a token. -/
def codesToken : List RV := codesAll ++ [.deviceError, .deviceMemory]

/-- Codes of functions that have a slot as argument. -/
def codesSlot : List RV := codesToken ++ [.slotIdInvalid]

/-- Codes of functions that have a session as argument. -/
def codesSess : List RV := codesToken ++ [.sessionHandleInvalid]

/-- Codes of functions that make an object from a template. -/
def codesTemplate : List RV :=
  codesSess ++ [.attributeTypeInvalid, .attributeValueInvalid, .sessionReadOnly, .templateIncomplete,
    .templateInconsistent, .userNotLoggedIn]

/-- Codes of functions that begin an operation with a key. -/
def codesInit : List RV :=
  codesSess ++ [.keyHandleInvalid, .keySizeRange, .keyTypeInconsistent, .mechanismInvalid, .mechanismParamInvalid,
    .operationActive, .userNotLoggedIn]

/-- Codes of the functions that process data. -/
def DataCall.codes : DataCall → List RV
  | .encrypt .. | .encryptUpdate .. | .encryptFinal .. => codesSess ++ [.bufferTooSmall, .dataLenRange, .operationNotInitialized]
  | .decrypt .. | .decryptUpdate .. | .decryptFinal .. =>
    codesSess ++ [.bufferTooSmall, .encryptedDataInvalid, .operationNotInitialized, .userNotLoggedIn]
  | .sign .. | .signFinal .. => codesSess ++ [.bufferTooSmall, .dataLenRange, .operationNotInitialized, .userNotLoggedIn]
  | .signUpdate .. => codesSess ++ [.dataLenRange, .operationNotInitialized, .userNotLoggedIn]
  | .verify .. | .verifyFinal .. =>
    codesSess ++ [.dataLenRange, .operationNotInitialized, .signatureInvalid, .signatureLenRange]
  | .verifyUpdate .. => codesSess ++ [.dataLenRange, .operationNotInitialized]

/-- Codes of the functions with a session as argument. -/
def SessCall.codes : SessCall → List RV
  | .close | .info _ => codesSess
  | .size .. => codesSess ++ [.objectHandleInvalid]
  | .login .. =>
    codesSess ++ [.operationNotInitialized, .pinIncorrect, .pinLocked, .sessionReadOnlyExists, .userAlreadyLoggedIn,
      .userAnotherAlreadyLoggedIn, .userPinNotInitialized, .userTypeInvalid]
  | .logout => codesSess ++ [.userNotLoggedIn]
  | .initPin _ => codesSess ++ [.pinInvalid, .pinLenRange, .sessionReadOnly, .userNotLoggedIn]
  | .setPin .. => codesSess ++ [.mechanismInvalid, .pinIncorrect, .pinInvalid, .pinLenRange, .pinLocked, .sessionReadOnly]
  | .create .. => codesTemplate
  | .copy .. | .setAttr .. =>
    codesSess ++ [.attributeTypeInvalid, .attributeValueInvalid, .objectHandleInvalid, .sessionReadOnly,
      .templateInconsistent, .userNotLoggedIn]
  | .destroy _ => codesSess ++ [.objectHandleInvalid, .sessionReadOnly]
  | .getAttr .. => codesSess ++ [.attributeSensitive, .attributeTypeInvalid, .bufferTooSmall, .objectHandleInvalid]
  | .findInit _ => codesSess ++ [.attributeTypeInvalid, .attributeValueInvalid, .operationActive]
  | .findNext .. | .findFinal => codesSess ++ [.operationNotInitialized]
  | .cryptInit .. => codesInit
  | .crypt c => c.codes
  | .genKey .. | .genPair .. => codesTemplate ++ [.mechanismInvalid, .mechanismParamInvalid, .operationActive]
  | .wrap .. =>
    codesSess ++ [.bufferTooSmall, .keyHandleInvalid, .keyNotWrappable, .keySizeRange, .mechanismInvalid,
      .mechanismParamInvalid, .operationActive, .userNotLoggedIn, .wrappingKeyHandleInvalid, .wrappingKeyTypeInconsistent]
  | .unwrap .. =>
    codesTemplate ++ [.bufferTooSmall, .mechanismInvalid, .mechanismParamInvalid, .operationActive,
      .unwrappingKeyHandleInvalid, .unwrappingKeyTypeInconsistent, .wrappedKeyInvalid, .wrappedKeyLenRange]
  | .derive .. =>
    codesTemplate ++ [.keyHandleInvalid, .keySizeRange, .keyTypeInconsistent, .mechanismInvalid, .mechanismParamInvalid,
      .operationActive]
  | .random .. => codesSess ++ [.operationActive, .randomNoRng, .userNotLoggedIn]

/-- Codes of the functions with a slot as argument. -/
def SlotCall.codes : SlotCall → List RV
  | .tokenInfo .. => codesSlot ++ [.tokenNotRecognized]
  | .initToken .. => codesSlot ++ [.pinIncorrect, .pinLocked, .sessionExists, .tokenNotRecognized]
  | .openSession .. =>
    codesSlot ++ [.sessionCount, .sessionParallelNotSupported, .sessionReadWriteSoExists, .tokenNotRecognized]
  | .closeAll => codesSlot

/-- Codes of the functions. -/
def Call.codes : Call → List RV
  | .cInit => codesAll ++ [.cryptokiAlreadyInitialized]
  | .cFinal => codesAll
  | .slot _ c => c.codes
  | .sess _ c => c.codes

/-- Codes of the functions the library offers without doing anything. -/
def RestSess.codes : RestSess → List RV
  | .getOpState _ => codesSess ++ [.bufferTooSmall, .operationNotInitialized, .stateUnsaveable]
  | .setOpState _ => codesSess ++ [.keyNeeded, .saveStateInvalid]
  | .functionStatus | .cancel => codesSess ++ [.functionNotParallel]
  | .digestInit _ => codesSess ++ [.mechanismInvalid, .mechanismParamInvalid, .operationActive, .userNotLoggedIn]
  | .digest .. | .digestFinal _ => codesSess ++ [.bufferTooSmall, .operationNotInitialized]
  | .digestUpdate _ => codesSess ++ [.operationNotInitialized]
  | .digestKey _ => codesSess ++ [.keyHandleInvalid, .keySizeRange, .operationNotInitialized]
  | .signRecoverInit .. | .verifyRecoverInit .. => codesInit
  | .signRecover .. => codesSess ++ [.bufferTooSmall, .dataLenRange, .operationNotInitialized, .userNotLoggedIn]
  | .verifyRecover .. =>
    codesSess ++ [.bufferTooSmall, .dataLenRange, .operationNotInitialized, .signatureInvalid, .signatureLenRange]
  | .both .. => codesSess ++ [.bufferTooSmall, .dataLenRange, .encryptedDataInvalid, .operationNotInitialized]
  | .seed _ => codesSess ++ [.operationActive, .randomSeedNotSupported, .randomNoRng, .userNotLoggedIn]

/-- Codes of the functions that ask, and of those the library offers without doing anything. -/
def RestCall.codes : RestCall → List RV
  | .info _ => codesAll
  | .slotList .. => codesAll ++ [.bufferTooSmall]
  | .slotInfo .. => codesSlot
  | .mechList .. => codesSlot ++ [.bufferTooSmall, .tokenNotRecognized]
  | .mechInfo .. => codesSlot ++ [.mechanismInvalid, .tokenNotRecognized]
  | .waitEvent => codesAll ++ [.noEvent]
  | .sess _ c => c.codes

/-- Codes of a function of the table. -/
def AnyCall.codes : AnyCall → List RV
  | .main c => c.codes
  | .rest c => c.codes

/-- The codes wolfPKCS11 answers although the standard does not give them to the function. -/
def AnyCall.otherCodes : AnyCall → List RV
  -- a PIN too short or too long counts as a wrong one
  | .main (.sess _ (.initPin _)) => [.pinIncorrect]
  -- there is no PIN that could be changed
  | .main (.sess _ (.setPin ..)) => [.userPinNotInitialized]
  -- a value of the wrong length
  | .main (.sess _ (.create ..)) | .main (.sess _ (.setAttr ..)) | .main (.sess _ (.genKey ..))
  | .main (.sess _ (.genPair ..)) => [.bufferTooSmall]
  -- an attribute the object does not have: the answer is not a status code at all
  | .main (.sess _ (.getAttr ..)) => [.unavailable]
  | .main (.sess _ (.copy ..)) => [.bufferTooSmall, .unavailable]
  -- a key that does not exist
  | .main (.sess _ (.cryptInit ..)) => [.objectHandleInvalid]
  | .rest (.sess _ (.digestKey _)) | .rest (.sess _ (.signRecoverInit ..))
  | .rest (.sess _ (.verifyRecoverInit ..)) => [.objectHandleInvalid]
  | .main (.sess _ (.derive ..)) => [.objectHandleInvalid, .bufferTooSmall]
  | .main (.sess _ (.wrap ..)) => [.objectHandleInvalid, .sessionReadOnly]
  -- a key that cannot be wrapped
  | .main (.sess _ (.unwrap ..)) => [.keyNotWrappable]
  -- data left over
  | .main (.sess _ (.crypt (.decryptFinal _))) => [.mechanismInvalid, .dataLenRange]
  -- the operation begun is of another kind
  | .main (.sess _ (.crypt _)) => [.mechanismInvalid]
  | _ => []

end Verif
