import Verif.Model.Attr

/-!
# Attributes as a caller sees them
-/

namespace Verif

/-- The caller kept their side of the bargain: `pValue` points to at least
`ulValueLen` bytes. -/
def Entry.Fits (e : Entry) : Prop := ∀ m, e.mem = some m → e.len ≤ m.length

/-- Nothing was written outside the `ulValueLen` bytes the caller offered: the memory
has the same size and is the same from position `ulValueLen` on. -/
def InBounds (e e' : Entry) : Prop :=
  e'.typ = e.typ ∧
  match e.mem, e'.mem with
  | none, none => True
  | some m, some m' => m'.length = m.length ∧ m'.drop e.len = m.drop e.len
  | _, _ => False

/-- Two lists of the same length, related element by element. -/
inductive AllPairs {α β : Type} (R : α → β → Prop) : List α → List β → Prop where
  | nil : AllPairs R [] []
  | cons {a b l l'} : R a b → AllPairs R l l' → AllPairs R (a :: l) (b :: l')

/-- The buffer sizes `C_GetAttributeValue` admits for an attribute: booleans take 1
byte, numbers and dates 8 bytes, everything else any number. -/
def SizeFor (a : CKA) (n : Nat) : Prop :=
  match a.kind with
  | some .bool => n = 1
  | some .ulong => n = 8
  | some .date => n = 8
  | some .data => True
  | none => False

/-- What the object keeps in its fixed-size arrays fits them. -/
def Obj.InArrays (o : Obj) : Prop :=
  match o.data with
  | .symm k => k.length ≤ 512
  | .dh k => k.key.length ≤ 512
  | .cert v _ => v.length ≤ 4096
  | _ => True

instance (o : Obj) : Decidable o.InArrays := by unfold Obj.InArrays; cases o.data <;> infer_instance

instance (a : CKA) (n : Nat) : Decidable (SizeFor a n) := by
  unfold SizeFor; split <;> infer_instance

/-- `CKA_SENSITIVE` was last set to true. -/
def Obj.Sensitive (o : Obj) : Prop := o.flag.getLsbD 1 = true

/-- `CKA_EXTRACTABLE` was last set to true. -/
def Obj.Extractable (o : Obj) : Prop := o.flag.getLsbD 2 = true

instance (o : Obj) : Decidable o.Sensitive := by unfold Obj.Sensitive; infer_instance
instance (o : Obj) : Decidable o.Extractable := by unfold Obj.Extractable; infer_instance

/-- Two key data agree in everything public: RSA modulus and exponent, EC curve and
point, DH parameters, length of a secret key.  Private exponent, primes, private
scalar, private value and key bytes may differ. -/
def KeyData.SamePublic : KeyData → KeyData → Prop
  | .none, .none => True
  | .rsa k, .rsa k' => k'.n = k.n ∧ k'.e = k.e
  | .ec k, .ec k' => k'.dp = k.dp ∧ k'.x = k.x ∧ k'.y = k.y ∧ k'.typ = k.typ
  | .dh k, .dh k' => k'.p = k.p ∧ k'.g = k.g
  | .symm k, .symm k' => k'.length = k.length
  | _, _ => False

/-- Two objects that differ at most in the secret part of their key. -/
def SameButSecret (o o' : Obj) : Prop :=
  (∃ d, o' = { o with data := d }) ∧ o.data.SamePublic o'.data

/-- A private or secret key object: RSA or EC private key, DH private key, AES or
generic secret key. -/
def Obj.IsSecretKey (o : Obj) : Prop :=
  (o.cls = CKO_PRIVATE_KEY ∧ (o.typ = CKK_RSA ∨ o.typ = CKK_EC ∨ o.typ = CKK_DH)) ∨
  (o.cls = CKO_SECRET_KEY ∧ (o.typ = CKK_AES ∨ o.typ = CKK_GENERIC_SECRET))

/-- What the theorems assume of wolfCrypt's EC functions: an exported point has
`2 * size + 1` bytes and does not depend on the private scalar; a curve found by its
object identifier has that identifier, of fewer than 128 bytes; importing a point keeps the curve, leaves a key
with a public part, and an uncompressed point of the right length is exported as it was
imported. -/
structure KeyExt.Lawful (x : KeyExt) : Prop where
  export_len : ∀ k c p, k.dp = some c → x.exportX963 k = some p → p.length = 2 * c.size + 1
  export_pub : ∀ k n, x.exportX963 { k with k := n } = x.exportX963 k
  curve_oid : ∀ o c, x.curve o = some c → c.oid = o
  curve_len : ∀ o c, x.curve o = some c → o.length < 128
  import_dp : ∀ k p k', x.importX963 k p = some k' → k'.dp = k.dp
  import_typ : ∀ k p k', x.importX963 k p = some k' → k'.typ ≠ .privOnly
  import_export : ∀ k c p k', k.dp = some c → p.length = 2 * c.size + 1 → p.headD 0 = 4 →
    x.importX963 k p = some k' → x.exportX963 k' = some p

/-- The boolean attributes. -/
def CKA.IsBool (a : CKA) : Prop := a.kind = some .bool

instance (a : CKA) : Decidable a.IsBool := by unfold CKA.IsBool; infer_instance

/-- Read one attribute into a buffer of `n` bytes: return value and the bytes
obtained. -/
def readAttr (x : KeyExt) (o : Obj) (a : CKA) (n : Nat) : RV × Bytes :=
  match getAttributeValue x o [{ typ := a, mem := some (List.replicate n 0), len := n }] with
  | (rv, [e]) => (rv, e.val)
  | (rv, _) => (rv, [])

/-- `v` is the value of the first entry for `a` in the template. -/
def FirstIn (t : List Entry) (a : CKA) (v : Bytes) : Prop :=
  ∃ t1 t2, t = t1 ++ Entry.of a v :: t2 ∧ ∀ e ∈ t1, e.typ ≠ a

/-- `v` is the value of the last entry for `a` in the template. -/
def LastIn (t : List Entry) (a : CKA) (v : Bytes) : Prop :=
  ∃ t1 t2, t = t1 ++ Entry.of a v :: t2 ∧ ∀ e ∈ t2, e.typ ≠ a

/-- The template has no entry for `a`. -/
def NotIn (t : List Entry) (a : CKA) : Prop := ∀ e ∈ t, e.typ ≠ a

/-- A big-endian number without its leading zero bytes. -/
def noLeadingZeros (v : Bytes) : Bytes := v.dropWhile (· == 0)

end Verif
