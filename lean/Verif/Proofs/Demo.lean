import Verif.Model.Op

/-!
# A toy instance of the external cryptography

Used to show that hypotheses can be met and to exhibit concrete violations.  The
block cipher is the identity, which satisfies every law assumed of AES.
-/

namespace Verif.Demo

def aes : Aes := { enc := fun _ b => b, dec := fun _ b => b }

theorem aes_lawful : aes.Lawful := by
  intro k _
  exact ⟨fun b h => h, fun b h => h, fun b _ => rfl⟩

/-- Ciphertext = plaintext, tag = the first bytes of iv ++ plaintext ++ aad, padded. -/
def tag (iv : Bytes) (aad : Option Bytes) (pt : Bytes) (n : Nat) : Bytes :=
  (pt ++ aad.getD [] ++ iv ++ List.replicate 16 0).take n

def gcm : Gcm where
  enc _ iv aad _ pt n := some (pt, tag iv aad pt n)
  dec _ iv aad _ ct t := if tag iv aad ct t.length = t then some ct else none

theorem gcm_lawful : gcm.Lawful := by
  intro key iv aad aadSz pt ct t n hn h
  simp only [gcm, Option.some.injEq, Prod.mk.injEq] at h
  obtain ⟨rfl, rfl⟩ := h
  have : (tag iv aad pt n).length = n := by simp [tag]; omega
  exact ⟨rfl, this, by simp [gcm, this]⟩

def mac : Mac where
  mac _ k d := (k ++ d ++ List.replicate 32 0).take 32
  size _ := 32
  keyOk _ _ := true

theorem mac_lawful : mac.Lawful := by
  intro a k d; simp [mac]; omega

def rsa : Rsa where
  raw _ k d _ := some ((d ++ List.replicate k.keyLen 0).take k.keyLen)
  encPkcs k d _ := some ((d ++ List.replicate k.keyLen 0).take k.keyLen)
  decPkcs k d := some (d.take k.keyLen)
  encOaep k _ _ _ _ d _ := some ((d ++ List.replicate k.keyLen 0).take k.keyLen)
  decOaep k _ _ _ _ d := some (d.take k.keyLen)
  signPkcs k d _ := some ((d ++ List.replicate k.keyLen 0).take k.keyLen)
  verifyPkcs _ s := some s
  signPss k _ _ _ d _ := some ((d ++ List.replicate k.keyLen 0).take k.keyLen)
  verifyPss _ _ _ _ s := .msg s
  checkPss _ _ h m := if some h = m then .msg h else .badPadding

theorem rsa_lawful : rsa.Lawful := by
  constructor <;> intros <;> simp_all [rsa] <;> (try subst_vars) <;> simp <;> omega

def ecdsa : Ecdsa where
  sign _ _ _ := some [0x30, 6, 2, 1, 1, 2, 1, 1]
  verify _ der _ := some (der == [0x30, 6, 2, 1, 1, 2, 1, 1])

def x : Crypto := { aes, gcm, mac, rsa, ecdsa }

/-- A 16-byte AES key. -/
def key : Obj := { typ := CKK_AES, cls := CKO_SECRET_KEY, data := .symm (List.replicate 16 7) }

/-- A generic secret. -/
def secret : Obj := { typ := CKK_GENERIC_SECRET, cls := CKO_SECRET_KEY, data := .symm [1, 2, 3] }

def iv : Bytes := List.replicate 16 0

end Verif.Demo
