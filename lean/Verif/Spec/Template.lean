import Verif.Model.Api

/-!
# Templates that make no sense
-/

namespace Verif

/-- Attributes whose value is a `CK_ULONG`. -/
def numberAttrs : List CKA := [.cls, .keyType, .modulusBits, .primeBits, .valueBits, .valueLen, .keyGenMech,
  .hwFeatureType, .certificateType, .certificateCategory, .nameHashAlg]

/-- Attributes whose value is a `CK_BBOOL`; `CKA_TOKEN` is not checked as one. -/
def boolAttrs : List CKA := [.priv, .trusted, .sensitive, .encrypt, .decrypt, .wrap, .unwrap, .sign, .signRecover,
  .verify, .verifyRecover, .derive, .extractable, .local', .neverExtractable, .alwaysSensitive, .modifiable,
  .copyable, .destroyable, .alwaysAuth, .wrapWithTrusted, .resetOnInit, .hasReset]

/-- Attributes whose value is a `CK_DATE`. -/
def dateAttrs : List CKA := [.startDate, .endDate]

/-- Attributes the library does not know. -/
def unknownAttrs : List CKA := [.acIssuer, .attrTypes, .javaMidp, .checkValue, .unknown]

/-- An entry that cannot set its attribute: an unknown one, a number that does not have the
size of a `CK_ULONG`, a boolean that is not one byte or neither true nor false, a date that
does not have the size of a `CK_DATE`, a value of unavailable length. -/
inductive Malformed (en : Entry) : Prop
  | unknown (h : en.typ ∈ unknownAttrs)
  | number (h : en.typ ∈ numberAttrs) (hv : en.mem = none ∨ en.len ≠ 8)
  | boolSize (h : en.typ ∈ boolAttrs) (hv : en.mem = none ∨ en.len ≠ 1)
  | boolValue (h : en.typ ∈ boolAttrs) (b : UInt8) (hv : en.val = [b]) (h0 : b ≠ 0) (h1 : b ≠ 1)
  | date (h : en.typ ∈ dateAttrs) (hv : en.mem = none ∨ en.len ≠ 8)
  | data (h : en.typ ∉ unknownAttrs ++ numberAttrs ++ boolAttrs ++ dateAttrs) (hv : en.len = unavailableInfo)

/-- The templates of a call that sets attributes. -/
def SessCall.templates : SessCall → List (List Entry)
  | .create (some t) _ | .setAttr _ (some t) | .genKey _ (some t) _ | .unwrap _ _ _ (some t) _ | .derive _ _ (some t) _ => [t]
  | .genPair _ (some tp) (some tq) _ => [tp, tq]
  | _ => []

/-- The call has a template with an entry that makes no sense. -/
def SessCall.Misformed (c : SessCall) : Prop := ∃ t ∈ c.templates, ∃ en ∈ t, Malformed en

end Verif
