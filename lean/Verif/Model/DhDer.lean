import Verif.Model.Object

/-!
# DER encoding of the Diffie-Hellman parameters (src/internal.c:2231-2362)
-/

namespace Verif

/-- `wp11_BytePrecision` (src/internal.c:2237-2245): the loop over `i = 4, 3, 2, 1`. -/
def bytePrecision (v : Nat) : Nat :=
  if v / 2 ^ 24 ≠ 0 then 4
  else if v / 2 ^ 16 ≠ 0 then 3
  else if v / 2 ^ 8 ≠ 0 then 2
  else if v ≠ 0 then 1
  else 0

/-- The loop writing the length's bytes, most significant first
(src/internal.c:2277-2284). -/
def lengthBytes (v : Nat) : Nat → Bytes
  | 0 => []
  | j + 1 => UInt8.ofNat (v / 256 ^ j) :: lengthBytes v j

/-- `wp11_SetLength` with a buffer (src/internal.c:2253-2289); `length` is a `word32`. -/
def setLength (v : Nat) : Bytes :=
  if v < 0x80 then [UInt8.ofNat v]
  else UInt8.ofNat (bytePrecision v ||| 0x80) :: lengthBytes v (bytePrecision v)

/-- `wp11_SetLength` with a NULL buffer (src/internal.c:2253-2289): the count only. -/
def setLengthSize (v : Nat) : Nat :=
  if v < 0x80 then 1 else 1 + bytePrecision v

/-- `mp_leading_bit`: the top bit of the most significant byte is set. -/
def mpLeadingBit (n : Nat) : Bool := n != 0 && (Nat.log2 n + 1) % 8 == 0

/-- The size reported by `wp11_DhParamsToDer` with a NULL buffer
(src/internal.c:2313-2319): an upper bound. -/
def dhDerBound (p g : Nat) : Nat :=
  5 + (1 + 4) + (if mpLeadingBit p then 1 else 0) + mpSize p +
  (1 + 4) + (if mpLeadingBit g then 1 else 0) + mpSize g

/-- Writing `b` in front of what has been written so far, having moved the index back by
`sz` in a buffer of `cap` bytes.  `none` when the index would become negative or when
the bytes written are not as many as the index was moved (undefined behaviour or bytes
left uninitialised). -/
def putFront (cap sz : Nat) (b : Bytes) (acc : Bytes) : Option Bytes :=
  if sz = b.length ∧ sz + acc.length ≤ cap then some (b ++ acc) else none

/-- One INTEGER written back to front (src/internal.c:2326-2339, 2341-2354): the bytes of
the number, a zero byte if the leading bit is set, the length, the tag. -/
def putInt (cap n : Nat) (acc : Bytes) : Option Bytes :=
  let len2 := mpSize n + (if mpLeadingBit n then 1 else 0)
  (putFront cap (mpSize n) (mpBytes n) acc).bind fun a1 =>
  (if mpLeadingBit n then putFront cap 1 [0] a1 else some a1).bind fun a2 =>
  (putFront cap (setLengthSize len2) (setLength len2) a2).bind fun a3 =>
  putFront cap 1 [0x02] a3

/-- `wp11_DhParamsToDer` with a buffer of the size it reported
(src/internal.c:2308-2362). -/
def dhParamsToDer (p g : Nat) : Option Bytes :=
  let cap := dhDerBound p g
  (putInt cap g []).bind fun a1 =>
  (putInt cap p a1).bind fun a2 =>
  (putFront cap (setLengthSize a2.length) (setLength a2.length) a2).bind fun a3 =>
  putFront cap 1 [0x30] a3

end Verif
