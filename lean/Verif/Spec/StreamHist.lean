import Verif.Spec.Isolated
import Verif.Spec.Stream
import Verif.Spec.Api
/-!
# A multi-part operation in the middle of other calls
-/
namespace Verif

/-- The data calls made in session `h` during a history, with their answers. -/
def talk (e : Env) (h : Nat) : Lib → List Call → List (DataCall × Resp)
  | _, [] => []
  | l, c :: cs =>
    (match c with
     | .sess j (.crypt d) => if j = h then [(d, answer e l c)] else []
     | _ => []) ++ talk e h (step e l c).1 cs

/-- The data handed over by a call: the part, if it is an Update call (with an output
buffer where it has one) and it returned `CKR_OK`. -/
def handed : DataCall × Resp → Bytes
  | (.encryptUpdate (some d) (.buf _), r) => if r.rv = .ok then d else []
  | (.decryptUpdate (some d) (.buf _), r) => if r.rv = .ok then d else []
  | (.signUpdate (some d), r) => if r.rv = .ok then d else []
  | (.verifyUpdate (some d), r) => if r.rv = .ok then d else []
  | _ => []

/-- The data handed over by the calls. -/
def handedBy (t : List (DataCall × Resp)) : Bytes := t.flatMap handed

/-- The bytes the calls wrote into their buffers. -/
def writtenBy (t : List (DataCall × Resp)) : Bytes := t.flatMap fun p => (p.2.out.map (·.wr)).getD []

/-- A call made during an encryption: something else, or a `C_EncryptUpdate` with data. -/
def EncryptsOr (h k : Nat) (c : Call) : Prop :=
  Bystander h k c ∨ ∃ d ob, c = .sess h (.crypt (.encryptUpdate (some d) ob))

/-- A call made during a decryption: something else, or a `C_DecryptUpdate` with data. -/
def DecryptsOr (h k : Nat) (c : Call) : Prop :=
  Bystander h k c ∨ ∃ d ob, c = .sess h (.crypt (.decryptUpdate (some d) ob))

/-- A call made during the computation of a signature: something else, or a
`C_SignUpdate` with data. -/
def SignsOr (h k : Nat) (c : Call) : Prop :=
  Bystander h k c ∨ ∃ d, c = .sess h (.crypt (.signUpdate (some d)))

/-- A call made during a verification: something else, or a `C_VerifyUpdate` with data. -/
def VerifiesOr (h k : Nat) (c : Call) : Prop :=
  Bystander h k c ∨ ∃ d, c = .sess h (.crypt (.verifyUpdate (some d)))

/-- The call may leave data in the buffer that AES-CBC uses in session `h`: it starts an
AES-CBC operation, or wraps or unwraps a key, or starts an HMAC, whose state shares the memory
of that of AES-CBC in the code (src/internal.c:268-303; the other members of the union are too
small to reach the buffer). -/
def Buffers (h : Nat) : Call → Prop
  | .sess j c =>
    match c with
    | .cryptInit _ (some (.aesCbc, _)) _ | .cryptInit _ (some (.aesCbcPad, _)) _ | .cryptInit _ (some (.hmac _, _)) _ => j = h
    | .wrap .. | .unwrap .. => j = h
    | _ => False
  | _ => False

/-- An operation's state is not in the middle of AES-CBC and has nothing left of it. -/
def OpSt.Emptied (s : OpSt) : Prop :=
  NothingBuffered s ∧ s.init ≠ .aesCbcEnc ∧ s.init ≠ .aesCbcDec ∧ s.init ≠ .aesCbcPadEnc ∧ s.init ≠ .aesCbcPadDec

/-- Session `h` (if there is such a session) is not in the middle of an AES-CBC operation and
has nothing left of one. -/
def Emptied (l : Lib) (h : Nat) : Prop := ∀ s ∈ l.sessions, s.handle = h → s.op.Emptied

end Verif
