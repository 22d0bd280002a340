import Verif.Spec.Begun

/-!
# The end of a message
-/

namespace Verif

/-- The data call `c` in session `h` ends a message: a single-part call or a Final call that delivers its
result, or the verdict on a signature. -/
def MessageEnds (e : Env) (l : Lib) (h : Nat) (c : DataCall) : Prop :=
  match c with
  | .encryptUpdate .. | .decryptUpdate .. | .signUpdate .. | .verifyUpdate .. => False
  | .verify .. | .verifyFinal .. => (answer e l (.sess h (.crypt c))).rv = .ok ∨
      (answer e l (.sess h (.crypt c))).rv = .signatureInvalid
  | _ => (answer e l (.sess h (.crypt c))).rv = .ok ∧ ∃ n, c.buf = .buf n

/-- A successful Init in session `h`. -/
def InitOk (e : Env) (l : Lib) (h : Nat) (c : Call) : Prop :=
  (answer e l c).rv = .ok ∧ ∃ k m p key, c = .sess h (.cryptInit k (some (m, p)) key)

end Verif
