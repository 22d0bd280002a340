import Verif.Spec.Usage
import Verif.Spec.StreamHist
import Verif.Spec.Isolated

/-!
# Wrapping and unwrapping keys
-/

namespace Verif

/-- `C_WrapKey` with CKM_AES_CBC_PAD: the key `key` under the key `wk`, into a buffer of `n` bytes. -/
def wrapCall (h wk key : Nat) (iv : Bytes) (n : Nat) : Call :=
  .sess h (.wrap (some (.aesCbcPad, .raw iv)) wk key (.buf n))

/-- `C_UnwrapKey` with CKM_AES_CBC_PAD of the bytes `d` under the key `wk`. -/
def unwrapCall (h wk : Nat) (iv d : Bytes) (t : List Entry) : Call :=
  .sess h (.unwrap (some (.aesCbcPad, .raw iv)) wk (some d) (some t) true)

/-- What is assumed of wolfCrypt: `wc_RsaPrivateKeyDecode` reads the key that was written
with `wc_RsaKeyToDer` and `wc_CreatePKCS8Key`. -/
def Pkcs8Lawful (e : Env) : Prop := ∀ k d, e.pkcs8 k = some d → e.parsePriv d = some k

/-- The operation that session `h` is in the middle of (none if there is no such session). -/
def operation (l : Lib) (h : Nat) : Option OpSt :=
  (l.sessions.find? (fun s => s.handle == h)).map (·.op)

/-- `C_WrapKey` or `C_UnwrapKey`, with any arguments. -/
def SessCall.Wraps : SessCall → Prop
  | .wrap .. | .unwrap .. => True
  | _ => False

/-- The arguments were refused. -/
def RefusesArguments (rv : RV) : Prop :=
  rv ∈ [RV.cryptokiNotInitialized, .sessionHandleInvalid, .sessionReadOnly, .argumentsBad, .objectHandleInvalid,
    .wrappingKeyHandleInvalid, .wrappingKeyTypeInconsistent, .unwrappingKeyHandleInvalid,
    .unwrappingKeyTypeInconsistent, .keyNotWrappable, .mechanismInvalid, .mechanismParamInvalid, .templateIncomplete]

end Verif
