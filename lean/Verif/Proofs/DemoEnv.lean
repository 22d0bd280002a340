import Verif.Props.AttrGet
import Verif.Proofs.Demo
import Verif.Spec.Api
import Verif.Spec.Der

/-!
# A toy environment, to exhibit concrete histories
-/

namespace Verif.Demo

/-- Take off one tag, length and value. -/
def unTlv (t : UInt8) (b : Bytes) : Option (Bytes × Bytes) :=
  match b with
  | t' :: l :: r =>
    if t' ≠ t then none
    else if l.toNat < 128 then some (r.take l.toNat, r.drop l.toNat)
    else
      let k := l.toNat - 128
      let n := Spec.fromBE (r.take k)
      some ((r.drop k).take n, (r.drop k).drop n)
  | _ => none

/-- Decode a sequence of two integers. -/
def derSeq2 (b : Bytes) : Option (Nat × Nat) :=
  (unTlv 0x30 b).bind fun s =>
  (unTlv 0x02 s.1).bind fun p =>
  (unTlv 0x02 p.2).map fun g => (Spec.fromBE p.1, Spec.fromBE g.1)

/-- Ciphertext = plaintext and the first 16 bytes of the key; the hash of a PIN is its
length, the seed's first byte and the PIN, padded. -/
def store : StoreExt where
  aeadEnc key _ pt := pt ++ (key ++ List.replicate 16 0).take 16
  aeadDec key _ ct :=
    if ct.drop (ct.length - 16) = (key ++ List.replicate 16 0).take 16 then some (ct.take (ct.length - 16))
    else none
  rsaToDer _ := none
  rsaToPubDer _ := none
  rsaOfDer _ := none
  rsaOfPubDer _ := none
  eccToDer _ := none
  eccToPubDer _ := none
  eccOfDer _ := none
  eccOfPubDer _ := none
  dhOfDer := derSeq2
  junk n := List.replicate n 0
  hash pin seed := ([UInt8.ofNat pin.length, seed.headD 0] ++ pin ++ List.replicate 32 0).take 32
  rand n len := List.replicate len (UInt8.ofNat (n + 1))

def env : Env where
  crypto := Demo.x
  key := Demo.kx
  store := Demo.store
  rsaGen _ _ _ := some { n := 15, e := 65537, d := 3 }
  ecGen _ _ := some { typ := .priv, k := 5, x := 1, y := 2 }
  dhGen _ _ _ := some ([1], [2])
  ecdh _ _ n := some (List.replicate n 7)
  dhAgree _ _ := some [1, 2, 3]
  pkcs8 _ := some [1, 2, 3]
  parsePriv _ := some { n := 15, e := 65537, d := 3 }

/-- A process with an empty directory. -/
def fresh : Lib := {}

theorem fresh_start : Start fresh := ⟨rfl, rfl, rfl, rfl⟩

/-- A label. -/
def label : Bytes := List.replicate 32 65

/-- PINs. -/
def soPin : Bytes := [1, 2, 3, 4]
def userPin : Bytes := [5, 6, 7, 8]

/-- The answers of a sequence of calls. -/
def answers (e : Env) (l : Lib) : List Call → List Resp
  | [] => []
  | c :: cs => (step e l c).2 :: answers e (step e l c).1 cs

/-- The status codes of a sequence of calls. -/
def rvs (e : Env) (l : Lib) (cs : List Call) : List RV := (answers e l cs).map (·.rv)

/-- A token with both PINs set and a read/write session open as user. -/
def setup : List Call :=
  [.cInit, .slot 1 (.initToken (some soPin) (some label)), openCall true,
   .sess 65538 (.login .so (some soPin) 0), .sess 65538 (.initPin (some userPin)),
   .sess 65538 .logout, .sess 65538 (.login .user (some userPin) 0)]

example : rvs env fresh setup = [.ok, .ok, .ok, .ok, .ok, .ok, .ok] := by decide

end Verif.Demo
