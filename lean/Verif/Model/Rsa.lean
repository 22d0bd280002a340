import Verif.Model.Ext

/-!
# RSA signing and verification (src/internal.c:6859-7113)
-/

namespace Verif

/-- `WP11_Rsa_Sign` (src/internal.c:6859-6891): short data is padded with zero bytes
in front, longer data goes to `wc_RsaDirect` as it is.  Simplification: the local
buffer of RSA_MAX_SIZE/8 bytes is as large as any key. -/
def rsaSign (x : Rsa) (k : RsaKey) (d : Bytes) (rnd : Nat) : Option Bytes :=
  let inp := if d.length < k.keyLen then List.replicate (k.keyLen - d.length) 0 ++ d else d
  x.raw .privateEncrypt k inp rnd

/-- First loop of `WP11_Rsa_Verify` (src/internal.c:6930-6934): `n` iterations at most,
each or-ing the low byte of the *length* into `bits`. -/
def rsaVerifyPad (decSigLen : Nat) : Nat → UInt8 → UInt8
  | 0, bits => bits
  | n + 1, bits => if bits = 0 then rsaVerifyPad decSigLen n (bits ||| UInt8.ofNat decSigLen) else bits

/-- Second loop of `WP11_Rsa_Verify` (src/internal.c:6935-6937), with `fuel` the
number of positions between `i` and the end. -/
def rsaVerifyCmp (dec inp : Bytes) : (fuel i j : Nat) → UInt8 → UInt8
  | 0, _, _, bits => bits
  | fuel + 1, i, j, bits =>
    if bits = 0 then rsaVerifyCmp dec inp fuel (i + 1) (j + 1) (bits ||| (inp.getD j 0 ^^^ dec.getD i 0))
    else bits

/-- The comparison in `WP11_Rsa_Verify` (src/internal.c:6927-6939) of the recovered
block `dec` with the caller's data.  The start index is a `word32` difference. -/
def rsaVerifyCheck (dec inp : Bytes) : Bool :=
  let n := dec.length
  let bits1 := if inp.length < n then rsaVerifyPad n (n - inp.length) 0 else 0
  let start := w32sub n inp.length
  rsaVerifyCmp dec inp (n - start) start 0 bits1 = 0

/-- `WP11_Rsa_Verify` (src/internal.c:6905-6942): `none` when `wc_RsaDirect` fails. -/
def rsaVerify (x : Rsa) (k : RsaKey) (sig inp : Bytes) : Option Bool :=
  (x.raw .publicDecrypt k sig 0).map fun dec => rsaVerifyCheck dec inp

/-- `WP11_RsaPkcs15_Verify` (src/internal.c:6994-7023). -/
def rsaPkcsVerify (x : Rsa) (k : RsaKey) (sig inp : Bytes) : Option Bool :=
  (x.verifyPkcs k sig).map fun dec =>
    decide (inp.length = dec.length) && decide (inp.take dec.length = dec)

/-- `WP11_RsaPKCSPSS_Verify` (src/internal.c:7077-7113): `stat` starts as 1 and is
cleared by `BAD_PADDING_E` of either step; the second step runs also after a bad
padding in the first (with a negative size, `none` here). -/
def rsaPssVerify (x : Rsa) (k : RsaKey) (h mgf : HashAlg) (salt : Int) (sig hash : Bytes) :
    Option Bool :=
  match x.verifyPss k h mgf salt sig with
  | .error => none
  | .badPadding =>
    match x.checkPss h salt hash none with
    | .error => none
    | .badPadding => some false
    | .msg _ => some false
  | .msg m =>
    match x.checkPss h salt hash (some m) with
    | .error => none
    | .badPadding => some false
    | .msg _ => some true

end Verif
