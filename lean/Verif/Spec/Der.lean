/-!
# Numbers as bytes and DER integers (X.690), independent of the code
-/

namespace Verif.Spec

/-- Big-endian value of a byte string. -/
def fromBE (b : List UInt8) : Nat := b.foldl (fun a x => a * 256 + x.toNat) 0

/-- The `w` low bytes of `n`, most significant first. -/
def toBE : (w : Nat) → (n : Nat) → List UInt8
  | 0, _ => []
  | w + 1, n => toBE w (n / 256) ++ [UInt8.ofNat n]

/-- `c` is the DER contents of the non-negative INTEGER `n` (X.690, 8.3): at least one
byte, two's complement, so the first bit is 0, and the first nine bits not all 0. -/
structure IsDerInt (n : Nat) (c : List UInt8) : Prop where
  value : fromBE c = n
  nonempty : c ≠ []
  sign : (c.getD 0 0).toNat < 128
  minimal : 1 < c.length → c.getD 0 0 = 0 → 128 ≤ (c.getD 1 0).toNat

/-- DER length octets for lengths below 256 (X.690, 8.1.3). -/
def derLen (n : Nat) : List UInt8 :=
  if n < 128 then [UInt8.ofNat n] else [0x81, UInt8.ofNat n]

/-- `der` is the DER encoding of SEQUENCE { INTEGER r, INTEGER s }. -/
def IsDerSig (r s : Nat) (der : List UInt8) : Prop :=
  ∃ cr cs, IsDerInt r cr ∧ IsDerInt s cs ∧ cr.length < 128 ∧ cs.length < 128 ∧
    let body := 0x02 :: (derLen cr.length ++ cr) ++ 0x02 :: (derLen cs.length ++ cs)
    body.length < 256 ∧ der = 0x30 :: (derLen body.length ++ body)

/-- `l` are the DER length octets of `n` (X.690, 8.1.3 and 10.1): the short form below
128, otherwise the long form with the fewest bytes. -/
def IsDerLen (n : Nat) (l : List UInt8) : Prop :=
  (n < 128 ∧ l = [UInt8.ofNat n]) ∨
  (128 ≤ n ∧ ∃ d ds, l = UInt8.ofNat (128 + (d :: ds).length) :: d :: ds ∧
    (d :: ds).length < 127 ∧ d ≠ 0 ∧ fromBE (d :: ds) = n)

/-- `w` is tag `t`, the length of `c`, and `c`. -/
def IsTlv (t : UInt8) (c w : List UInt8) : Prop := ∃ l, IsDerLen c.length l ∧ w = t :: (l ++ c)

/-- `w` is the DER encoding of SEQUENCE { INTEGER p, INTEGER g }. -/
def IsDerSeq2 (p g : Nat) (w : List UInt8) : Prop :=
  ∃ cp cg wp wg, IsDerInt p cp ∧ IsDerInt g cg ∧ IsTlv 0x02 cp wp ∧ IsTlv 0x02 cg wg ∧
    IsTlv 0x30 (wp ++ wg) w

end Verif.Spec
