import Verif.Model.Ext

/-!
# ECDSA signature conversion (src/internal.c:7185-7420)

PKCS #11 signatures are the two integers r and s, each in a fixed number of bytes;
wolfCrypt uses the DER encoding of the sequence of two integers.
-/

namespace Verif

/-- Drop leading zero bytes but keep at least one byte: the loops at
src/internal.c:7196-7199. -/
def stripZeros : Bytes → Bytes
  | [] => []
  | [b] => [b]
  | b :: bs => if b = 0 then stripZeros bs else b :: bs

/-- One INTEGER as written by `Pkcs11ECDSASig_Encode` (src/internal.c:7201-7212,
7224-7233): tag, length byte, a zero byte if the top bit is set, the bytes. -/
def derIntBytes (v : Bytes) : Bytes :=
  let v' := stripZeros v
  let high : Bytes := if v'.headD 0 ≥ 0x80 then [0] else []
  0x02 :: UInt8.ofNat (high.length + v'.length) :: (high ++ v')

/-- `Pkcs11ECDSASig_Encode` (src/internal.c:7185-7237).  `sig` is split in the middle.
Length bytes are C bytes, hence `UInt8.ofNat`. -/
def sigEncode (sig : Bytes) : Bytes :=
  let sz := sig.length / 2
  let body := derIntBytes (sig.take sz) ++ derIntBytes ((sig.drop sz).take sz)
  if body.length ≥ 0x80 then 0x30 :: 0x81 :: UInt8.ofNat body.length :: body
  else 0x30 :: UInt8.ofNat body.length :: body

/-- Result of decoding: a value, `ASN_PARSE_E`, or undefined behaviour (a read past
the end of the input or a write in front of the field). -/
inductive DecRes (α : Type) where
  | ok (a : α) | parse | ub
  deriving DecidableEq, Repr

/-- One INTEGER as read by `Pkcs11ECDSASig_Decode` (src/internal.c:7274-7290 and
7296-7314) at index `i` into a zeroed field of `sz` bytes: the field and the next
index.  Simplification: a value longer than the field is `ub` although for the
second integer it would overwrite a byte of the first one. -/
def decodeInt (inp : Bytes) (i sz : Nat) : DecRes (Bytes × Nat) :=
  match inp[i]?, inp[i + 1]? with
  | some t, some l =>
    if t ≠ 0x02 then .parse
    else if l.toNat > sz + 1 then .parse
    else if i + 2 + l.toNat > inp.length then .parse
    else
      match inp[i + 2]? with
      | none => .ub
      | some z =>
        if z = 0 ∧ l.toNat = 0 then .ub
        else
          let i' := if z = 0 then i + 3 else i + 2
          let len := if z = 0 then l.toNat - 1 else l.toNat
          if len > sz then .ub
          else .ok (List.replicate (sz - len) 0 ++ (inp.drop i').take len, i' + len)
  | _, _ => .ub

/-- `Pkcs11ECDSASig_Decode` (src/internal.c:7249-7317). -/
def sigDecode (inp : Bytes) (sz : Nat) : DecRes Bytes :=
  if inp.length < 5 then .parse
  else if inp.getD 0 0 ≠ 0x30 then .parse
  else if inp.getD 1 0 ≥ 0x80 ∧ inp.getD 1 0 ≠ 0x81 then .parse
  else
    let seqLen := if inp.getD 1 0 ≥ 0x80 then 3 else 2
    if (inp.getD (seqLen - 1) 0).toNat ≠ inp.length - seqLen then .parse
    else
      match decodeInt inp seqLen sz with
      | .parse => .parse
      | .ub => .ub
      | .ok (r, i) =>
        if i + 2 > inp.length then .parse
        else
          match decodeInt inp i sz with
          | .parse => .parse
          | .ub => .ub
          | .ok (s, _) => .ok (r ++ s)

/-- `WP11_Ec_Sign` (src/internal.c:7345-7384), the buffer being large enough. -/
def ecSign (x : Ecdsa) (k : EcKey) (sz : Nat) (hash : Bytes) (rnd : Nat) : DecRes Bytes :=
  match x.sign k hash rnd with
  | none => .parse
  | some der => sigDecode der sz

/-- `WP11_Ec_Verify` (src/internal.c:7399-7420), for a curve of ordinate size `sz`. -/
def ecVerify (x : Ecdsa) (k : EcKey) (sz : Nat) (sig hash : Bytes) : Option Bool :=
  if sig.length ≠ 2 * sz then none
  else x.verify k (sigEncode sig) hash

end Verif
