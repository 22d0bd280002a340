import Verif.Model.Attr

/-!
# Generation of an RSA key pair
-/

namespace Verif

/-- The bytes `eData[0..8)` after `mp_to_unsigned_bin` into a zeroed array
(src/internal.c:6510-6517). -/
def eData (e : Nat) : Bytes := mpBytes e ++ List.replicate (8 - (mpBytes e).length) 0

/-- A 64-bit pattern as a `long`. -/
def toCLong (n : Nat) : Int :=
  let m : Nat := n % 2 ^ 64
  if m < 2 ^ 63 then m else (m : Int) - 2 ^ 64

/-- The loop `for (i = 7; i >= 0; i--) { e <<= 8; e |= eData[i]; }`
(src/internal.c:6518-6524): the last byte of the array becomes the most significant. -/
def assembleE (b : Bytes) : Nat := b.reverse.foldl (fun e x => e * 256 + x.toNat) 0

/-- `WP11_Rsa_GenerateKeyPair` (src/internal.c:6501-6562).  `mk bits e` is
`wc_MakeRsaKey`, `none` for failure.  The random number generator is inside `mk`;
`none` covers its failures as well. -/
def rsaGenerate (mk : Nat → Int → Option RsaKey) (pub priv : Obj) : IRet × Obj × Obj :=
  let step (e : Int) (pub : Obj) : IRet × Obj × Obj :=
    match mk pub.size e with
    | none => (.other, pub, { priv with data := .rsa {} })
    | some k =>
      (.ok, { pub with data := .rsa { pub.rsa with n := k.n }, local' := true, keyGenMech := 0 },
        { priv with data := .rsa k, local' := true, keyGenMech := 0 })
  if pub.rsa.e ≠ 0 then
    if (mpBytes pub.rsa.e).length > 8 then (.badArg, pub, priv)
    else step (toCLong (assembleE (eData pub.rsa.e))) pub
  else step 65537 { pub with data := .rsa { pub.rsa with e := 65537 } }

end Verif
