import Verif.Model.Op

/-!
# Multi-part operations as the caller sees them

A multi-part operation is a sequence of Update calls, each with a part of the data
and an output buffer.  The caller may ask for lengths (`query`) and may offer too
small a buffer and try again; only calls that return `CKR_OK` with a buffer hand
over their part.
-/

namespace Verif

/-- One Update call: the part and the output buffer. -/
abbrev UpdCall := Bytes × OutBuf

/-- Make the calls one after the other and collect the results. -/
def runCalls {σ : Type} (f : σ → UpdCall → σ × Out) : σ → List UpdCall → σ × List Out
  | s, [] => (s, [])
  | s, c :: cs =>
    let r := f s c
    let rs := runCalls f r.1 cs
    (rs.1, r.2 :: rs.2)

/-- The part handed over by one call: the data if a buffer was given and the call
returned `CKR_OK`. -/
def handedOver (c : UpdCall) (o : Out) : Bytes :=
  match c.2, o.rv with
  | .buf _, .ok => c.1
  | _, _ => []

/-- The data handed over by a sequence of calls. -/
def accepted : List UpdCall → List Out → Bytes
  | c :: cs, o :: os => handedOver c o ++ accepted cs os
  | _, _ => []

/-- The bytes written by a sequence of calls. -/
def produced (os : List Out) : Bytes := os.flatMap (·.wr)

/-- Update calls of an encryption with key object `o`. -/
def encCalls (x : Crypto) (o : Obj) (s : OpSt) (c : UpdCall) : OpSt × Out :=
  encryptUpdate x s (some o) (some c.1) c.2

/-- Update calls of a decryption with key object `o`. -/
def decCalls (x : Crypto) (o : Obj) (s : OpSt) (c : UpdCall) : OpSt × Out :=
  decryptUpdate x s (some o) (some c.1) c.2

/-- Nothing is buffered from an earlier CBC operation of the session. True of a new
session and after every completed operation (`c43_fresh_after_final` etc.). -/
def NothingBuffered (s : OpSt) : Prop := s.cbc.part.length = 16 ∧ s.cbc.partSz = 0

end Verif
