import Verif.Model.Rest
import Verif.Spec.Usage

/-!
# The whole interface, random numbers and generated keys, as a caller sees them
-/

namespace Verif

/-- The functions of the table that the library does not offer: digests, signatures with
recovery, two operations at once, saved states, functions run in parallel, slot events. -/
def RestCall.NotOffered : RestCall → Prop
  | .waitEvent => True
  | .sess _ (.seed _) => False
  | .sess _ _ => True
  | _ => False

/-- The functions that only ask: about the library, the slots, the mechanisms. -/
def RestCall.Asks : RestCall → Prop
  | .info _ | .slotList .. | .slotInfo .. | .mechList .. | .mechInfo .. => True
  | _ => False

/-- The calls of a history that are neither of these, `C_SeedRandom` as what it is for the
rest of the library: something that makes the generator go on, like asking it for no bytes. -/
def core : List AnyCall → List Call
  | [] => []
  | .main c :: cs => c :: core cs
  | .rest (.sess h (.seed ptr)) :: cs => .sess h (.random ptr 0) :: core cs
  | .rest _ :: cs => core cs

/-- The generator is not seeded in this history. -/
def Unseeded (cs : List AnyCall) : Prop := ∀ h ptr, AnyCall.rest (.sess h (.seed ptr)) ∉ cs

/-- The answers to the calls that change or use something, among the answers to a history. -/
def mainAnswers : List AnyResp → List Resp
  | [] => []
  | .main r :: rs => r :: mainAnswers rs
  | .rest _ :: rs => mainAnswers rs

/-- Asking for `n` random bytes. -/
def randomCall (h n : Nat) : Call := .sess h (.random true n)

/-- Generating a secret key. -/
def genKeyCall (h : Nat) (m : Mech) (p : MechParam) (t : List Entry) : Call :=
  .sess h (.genKey (some (m, p)) (some t) true)

/-- The template asks for a key of `n` bytes, and does not give its value. -/
def AsksLen (t : List Entry) (n : Nat) : Prop :=
  (∃ en ∈ t, en.typ = .valueLen) ∧ (∀ en ∈ t, en.typ = .valueLen → en.val = ulong n) ∧ ∀ en ∈ t, en.typ ≠ .value

/-- The call, made in state `l`, succeeds and hands out the random bytes `b`: in the caller's
buffer, or as the value of a new key. -/
def Emits (e : Env) (l : Lib) (c : Call) (b : Bytes) : Prop :=
  (answer e l c).rv = .ok ∧
  ((∃ h n, c = randomCall h n ∧ (answer e l c).out = some { rv := .ok, wr := b }) ∨
   (∃ h m p t k q, c = genKeyCall h m p t ∧ (answer e l c).handle = some k ∧
      Addressed (step e l c).1 h k q ∧ q.data = .symm b))

/-- Up to now the generator has not given the same `len` bytes twice. -/
def Unrepeated (e : Env) (l : Lib) (len : Nat) : Prop :=
  ∀ i j, i < j → j < l.rng → e.store.rand i len ≠ e.store.rand j len

end Verif
