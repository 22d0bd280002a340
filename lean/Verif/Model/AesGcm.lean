import Verif.Model.Ext

/-!
# AES-GCM (src/internal.c:4599-4627, 8019-8303)
-/

namespace Verif

/-- `WP11_GcmParams` (src/internal.c:246-258).  `enc` is the cached ciphertext; its
length is `encSz` (the two agree in every state these functions produce, since
`encSz` is set to 0 when `enc` is freed, src/internal.c:8298-8300).  `aad = none` is
the NULL pointer; `aadSz` is a separate field because the code frees `aad` without
resetting it. -/
structure GcmSt where
  iv : Bytes := []
  aad : Option Bytes := none
  aadSz : Nat := 0
  tagBits : Int := 0
  authTag : Bytes := List.replicate 16 0
  enc : Bytes := []
  deriving DecidableEq, Repr

namespace GcmSt

/-- Size of the tag in bytes: `tagBits / 8` as a `word32`
(e.g. src/internal.c:8062). -/
def tagSz (g : GcmSt) : Nat := (Int.tdiv g.tagBits 8 % 2 ^ 32).toNat

/-- `WP11_Session_SetGcmParams` (src/internal.c:4599-4627): a negative number of bits
is accepted. -/
def setParams (iv : Bytes) (aad : Option Bytes) (tagBits : Int) : Option GcmSt :=
  if tagBits > 128 ∨ iv.length > 16 then none
  else some { iv := iv, aad := aad, aadSz := (aad.getD []).length, tagBits := tagBits }

/-- `WP11_AesGcm_Encrypt` (src/internal.c:8054-8090): ciphertext followed by tag; the
AAD is freed whether or not encryption succeeded. -/
def encrypt (x : Gcm) (g : GcmSt) (key d : Bytes) : Option Bytes × GcmSt :=
  ((x.enc key g.iv g.aad g.aadSz d g.tagSz).map fun r => r.1 ++ r.2, { g with aad := none })

/-- `WP11_AesGcm_EncryptUpdate` (src/internal.c:8106-8142): a complete GCM encryption
of the part; its tag replaces the stored one. -/
def encUpdate (x : Gcm) (g : GcmSt) (key d : Bytes) : Option Bytes × GcmSt :=
  match x.enc key g.iv g.aad g.aadSz d g.tagSz with
  | none => (none, { g with aad := none })
  | some (ct, tag) => (some ct, { g with aad := none, authTag := Bytes.write g.authTag 0 tag })

/-- `WP11_AesGcm_EncryptFinal` (src/internal.c:8155-8170); the caller has checked the
buffer. -/
def encFinal (g : GcmSt) : Bytes := g.authTag.take g.tagSz

/-- `WP11_AesGcm_Decrypt` (src/internal.c:8186-8228): the tag is the end of the data.
Only called here when the data is at least as long as the tag (`C_Decrypt`,
`C_DecryptFinal` below treat the other case). -/
def decrypt (x : Gcm) (g : GcmSt) (key d : Bytes) : Option Bytes × GcmSt :=
  let n := d.length - g.tagSz
  (x.dec key g.iv g.aad g.aadSz (d.take n) (d.drop n), { g with aad := none })

/-- `WP11_AesGcm_DecryptUpdate` (src/internal.c:8242-8275): collect the data. -/
def decUpdate (g : GcmSt) (d : Bytes) : GcmSt := { g with enc := g.enc ++ d }

/-- `WP11_AesGcm_DecryptFinal` (src/internal.c:8289-8303). -/
def decFinal (x : Gcm) (g : GcmSt) (key : Bytes) : Option Bytes × GcmSt :=
  let r := g.decrypt x key g.enc
  (r.1, { r.2 with enc := [] })

end GcmSt
end Verif
