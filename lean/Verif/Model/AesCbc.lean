import Verif.Model.Ext

/-!
# AES-CBC and AES-CBC-PAD streaming (src/internal.c:7569-8009)

The state is `WP11_CbcParams` (src/internal.c:236-242) together with the part of
`session->init` these functions write.
-/

namespace Verif

open Spec

/-- `WP11_CbcParams` (src/internal.c:236-242).  `key` and `reg` stand for the
`Aes` object: the key set by `wc_AesSetKey` and the chaining register.  The field
`iv` of the C structure is never used.  `part` is the whole 16-byte array
`partial` (bytes beyond `partSz` are left-overs and can be read by the code),
`partSz` is `partialSz`. -/
structure Cbc where
  key : Bytes
  reg : Bytes
  part : Bytes
  partSz : Nat
  deriving DecidableEq, Repr

/-- A zeroed `WP11_CbcParams` (`XMEMSET` in `wp11_Session_New`,
src/internal.c:535). -/
def Cbc.zero : Cbc := ⟨[], List.replicate 16 0, List.replicate 16 0, 0⟩

namespace Cbc

/-- `WP11_Session_SetCbcParams` (src/internal.c:4562-4582): a new key and IV; the
partial block is not touched.  `none` when `wc_AesSetKey` refuses the key length.
Simplification: a refused key leaves the `Aes` object as it was. -/
def setParams (c : Cbc) (key iv : Bytes) : Option Cbc :=
  if key.length = 16 ∨ key.length = 24 ∨ key.length = 32 then
    some { c with key := key, reg := iv }
  else none

/-- `wc_AesCbcEncrypt(&cbc->aes, out, in, sz)`: the whole blocks of the input
(assumption: a trailing partial block is ignored, as wolfCrypt does unless built
with WOLFSSL_AES_CBC_LENGTH_CHECKS). -/
def rawEnc (a : Aes) (c : Cbc) (d : Bytes) : Bytes × Cbc :=
  let r := cbcEnc (a.enc c.key) c.reg d
  (r.1, { c with reg := r.2 })

/-- `wc_AesCbcDecrypt`: refuses (`none`) an input that is not a whole number of
blocks (assumption about wolfCrypt). -/
def rawDec (a : Aes) (c : Cbc) (d : Bytes) : Option (Bytes × Cbc) :=
  if d.length % 16 = 0 then
    let r := cbcDec (a.dec c.key) c.reg d
    some (r.1, { c with reg := r.2 })
  else none

/-- `WP11_AesCbc_Encrypt` (src/internal.c:7590-7605): output bytes, reported length.
Resetting `session->init` is done by the caller of this function in the model. -/
def encrypt (a : Aes) (c : Cbc) (d : Bytes) : Bytes × Nat × Cbc :=
  let r := c.rawEnc a d
  (r.1, d.length, r.2)

/-- First stage of `WP11_AesCbc_EncryptUpdate` (src/internal.c:7629-7645): fill the
partial block and encrypt it when full.  Returns output, rest of the input, state. -/
def encFill (a : Aes) (c : Cbc) (d : Bytes) : Bytes × Bytes × Cbc :=
  if c.partSz > 0 then
    let sz := min (16 - c.partSz) d.length
    let c1 := { c with part := Bytes.write c.part c.partSz (d.take sz), partSz := c.partSz + sz }
    if c1.partSz = 16 then
      let r := c1.rawEnc a c1.part
      (r.1, d.drop sz, { r.2 with partSz := 0, part := List.replicate 16 0 })
    else ([], d.drop sz, c1)
  else ([], d, c)

/-- Second and third stage of `WP11_AesCbc_EncryptUpdate`
(src/internal.c:7646-7660): encrypt the whole blocks, keep the rest. -/
def encBulk (a : Aes) (c : Cbc) (d : Bytes) : Bytes × Cbc :=
  let sz := d.length / 16 * 16
  let r := if sz > 0 then c.rawEnc a (d.take sz) else ([], c)
  let rest := d.drop sz
  if rest.length > 0 then
    (r.1, { r.2 with part := Bytes.write r.2.part 0 rest, partSz := rest.length })
  else r

/-- `WP11_AesCbc_EncryptUpdate` (src/internal.c:7620-7663); also
`WP11_AesCbcPad_EncryptUpdate` (7836-7841).  The reported length is the length of
the output. -/
def encUpdate (a : Aes) (c : Cbc) (d : Bytes) : Bytes × Cbc :=
  let r1 := c.encFill a d
  let r2 := r1.2.2.encBulk a r1.2.1
  (r1.1 ++ r2.1, r2.2)

/-- `WP11_AesCbc_EncryptFinal`, `WP11_AesCbc_DecryptFinal`
(src/internal.c:7672-7682, 7778-7788): drop the partial block. -/
def final (c : Cbc) : Cbc := { c with partSz := 0 }

/-- `WP11_AesCbc_Decrypt` (src/internal.c:7698-7712). -/
def decrypt (a : Aes) (c : Cbc) (d : Bytes) : Option (Bytes × Nat × Cbc) :=
  (c.rawDec a d).map fun r => (r.1, d.length, r.2)

/-- First stage of `WP11_AesCbc_DecryptUpdate` (src/internal.c:7736-7751). -/
def decFill (a : Aes) (c : Cbc) (d : Bytes) : Option (Bytes × Bytes × Cbc) :=
  if c.partSz > 0 then
    let sz := min (16 - c.partSz) d.length
    let c1 := { c with part := Bytes.write c.part c.partSz (d.take sz), partSz := c.partSz + sz }
    if c1.partSz = 16 then
      (c1.rawDec a c1.part).map fun r => (r.1, d.drop sz, { r.2 with partSz := 0 })
    else some ([], d.drop sz, c1)
  else some ([], d, c)

/-- Later stages of `WP11_AesCbc_DecryptUpdate` (src/internal.c:7752-7766). -/
def decBulk (a : Aes) (c : Cbc) (d : Bytes) : Option (Bytes × Cbc) :=
  let sz := d.length / 16 * 16
  (if sz > 0 then c.rawDec a (d.take sz) else some ([], c)).map fun r =>
    let rest := d.drop sz
    if rest.length > 0 then
      (r.1, { r.2 with part := Bytes.write r.2.part 0 rest, partSz := rest.length })
    else r

/-- `WP11_AesCbc_DecryptUpdate` (src/internal.c:7727-7769). -/
def decUpdate (a : Aes) (c : Cbc) (d : Bytes) : Option (Bytes × Cbc) :=
  (c.decFill a d).bind fun r1 =>
    (r1.2.2.decBulk a r1.2.1).map fun r2 => (r1.1 ++ r2.1, r2.2)

/-- `WP11_AesCbcPad_EncryptFinal` (src/internal.c:7853-7875): overwrite the partial
block from position `partialSz` on with the pad count and encrypt it. -/
def padEncFinal (a : Aes) (c : Cbc) : Bytes × Cbc :=
  let padCnt := 16 - c.partSz
  let c1 := { c with part := c.part.take c.partSz ++ List.replicate padCnt (UInt8.ofNat padCnt) }
  let r := c1.rawEnc a c1.part
  (r.1, { r.2 with partSz := 0 })

/-- `WP11_AesCbcPad_Encrypt` (src/internal.c:7803-7821). -/
def padEncrypt (a : Aes) (c : Cbc) (d : Bytes) : Bytes × Cbc :=
  let r1 := c.encUpdate a d
  let r2 := r1.2.padEncFinal a
  (r1.1 ++ r2.1, r2.2)

/-- First stage of `WP11_AesCbcPad_DecryptUpdate` (src/internal.c:7932-7947): the
block is decrypted only when more input follows. -/
def padDecFill (a : Aes) (c : Cbc) (d : Bytes) : Option (Bytes × Bytes × Cbc) :=
  if c.partSz > 0 then
    let sz := min (16 - c.partSz) d.length
    let c1 := { c with part := Bytes.write c.part c.partSz (d.take sz), partSz := c.partSz + sz }
    if c1.partSz = 16 ∧ (d.drop sz).length > 0 then
      (c1.rawDec a c1.part).map fun r => (r.1, d.drop sz, { r.2 with partSz := 0 })
    else some ([], d.drop sz, c1)
  else some ([], d, c)

/-- Later stages of `WP11_AesCbcPad_DecryptUpdate` (src/internal.c:7948-7960): the
last block is kept. -/
def padDecBulk (a : Aes) (c : Cbc) (d : Bytes) : Option (Bytes × Cbc) :=
  let sz0 := d.length - d.length % 16
  let sz := if d.length > 16 then (if sz0 = d.length then sz0 - 16 else sz0) else 0
  (if d.length > 16 then c.rawDec a (d.take sz) else some ([], c)).map fun r =>
    let rest := d.drop sz
    if rest.length > 0 then
      (r.1, { r.2 with part := Bytes.write r.2.part 0 rest, partSz := rest.length })
    else r

/-- `WP11_AesCbcPad_DecryptUpdate` (src/internal.c:7923-7965). -/
def padDecUpdate (a : Aes) (c : Cbc) (d : Bytes) : Option (Bytes × Cbc) :=
  (c.padDecFill a d).bind fun r1 =>
    (r1.2.2.padDecBulk a r1.2.1).map fun r2 => (r1.1 ++ r2.1, r2.2)

/-- `WP11_AesCbcPad_DecryptFinal` (src/internal.c:7977-8009): decrypt the first
`partialSz` bytes of the partial block in place, take the pad count from byte 15 of
the array whatever `partialSz` is, output the bytes in front of the padding.  The
state is finalised even when decryption fails (second component). -/
def padDecFinal (a : Aes) (c : Cbc) : Option Bytes × Cbc :=
  match c.rawDec a (c.part.take c.partSz) with
  | none => (none, { c with partSz := 0 })
  | some r =>
    let part := Bytes.write r.2.part 0 r.1
    let padCnt := (part.getD 15 0).toNat
    let outSz := 16 - (if padCnt ≤ 16 then padCnt else 0)
    (some (part.take outSz), { r.2 with part := part, partSz := 0 })

/-- `WP11_AesCbcPad_Decrypt` (src/internal.c:7891-7908).  When the update fails the
operation is not finalised (flag `false`). -/
def padDecrypt (a : Aes) (c : Cbc) (d : Bytes) : Option Bytes × Cbc × Bool :=
  match c.padDecUpdate a d with
  | none => (none, c, false)
  | some r1 =>
    let r2 := r1.2.padDecFinal a
    (r2.1.map (r1.1 ++ ·), r2.2, true)

end Cbc
end Verif
