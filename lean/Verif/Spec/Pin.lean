import Verif.Spec.Api

/-!
# PINs and locking, as a caller understands them
-/

namespace Verif

/-- The two accounts of a token. -/
inductive Who where
  | so | user
  deriving DecidableEq, Repr

/-- The argument of `C_Login`. -/
def Who.type : Who → UserType
  | .so => .so
  | .user => .user

/-- The account in the token. -/
def Who.acct (w : Who) (t : Token) : Account :=
  match w with
  | .so => t.so
  | .user => t.user

/-- Seconds added to the timeout by each lock. -/
def Who.penalty : Who → Int
  | .so => 600
  | .user => 60

/-- `C_Login`. -/
def loginCall (h : Nat) (w : Who) (pin : Bytes) (now : Int) : Call :=
  .sess h (.login w.type (some pin) now)

/-- The state of a session as reported by `C_GetSessionInfo`. -/
def stateOf (e : Env) (l : Lib) (h : Nat) : Option SState := (sessionInfo e l h).state.map (·.1)

/-! ## The PINs in clear -/

/-- The PINs of the token, in clear; `none` is not set. -/
structure Pins where
  so : Option Bytes := none
  user : Option Bytes := none
  deriving DecidableEq, Repr

/-- The PIN of an account. -/
def Pins.of (p : Pins) : Who → Option Bytes
  | .so => p.so
  | .user => p.user

/-- What the answer of one call means for the PINs. `st` is the state of the session
before the call.  `CKR_FUNCTION_FAILED` from a function that sets a PIN means that the
token could not be written; the PIN is set nevertheless. -/
def Pins.next (p : Pins) (st : Option SState) (c : Call) (r : Resp) : Pins :=
  if r.rv = .ok ∨ r.rv = .functionFailed then
    match c with
    | .slot _ (.initToken (some pin) _) => { so := some pin, user := none }
    | .sess _ (.initPin (some pin)) => { p with user := some pin }
    | .sess _ (.setPin _ (some pin)) =>
      if st = some .rwSo then { p with so := some pin } else { p with user := some pin }
    | _ => p
  else p

/-- The session a call works on. -/
def Call.session : Call → Nat
  | .sess h _ => h
  | _ => 0

/-- The PINs after a history. -/
def pinsAfter (e : Env) : Lib → Pins → List Call → Pins
  | _, p, [] => p
  | l, p, c :: cs =>
    pinsAfter e (step e l c).1 (p.next (stateOf e l c.session) c (answer e l c)) cs

/-- The token holds the hashes of these PINs. -/
structure Holds (e : Env) (l : Lib) (p : Pins) : Prop where
  so : l.token.so.pin = (p.so.map fun q => e.store.hash q l.token.so.seed).getD []
  user : l.token.user.pin = (p.user.map fun q => e.store.hash q l.token.user.seed).getD []
  init : p.so ≠ none ∨ p.user ≠ none → l.token.init = true

/-- The hash function: 32 bytes. -/
def HashLen (e : Env) : Prop := ∀ p s, (e.store.hash p s).length = 32

/-- The library stays initialised through the history (it is not finalised and loaded
again, and no call runs into undefined behaviour). -/
def OneLife (e : Env) : Lib → List Call → Prop
  | l, [] => Initialised e l
  | l, c :: cs => Initialised e l ∧ OneLife e (step e l c).1 cs

/-- The directory holds no token. -/
def NoToken (l : Lib) : Prop := ∀ f, l.disk f = none

/-- The offered PIN is not a second preimage of the PIN of the account: if they hash to the
same value they are equal. -/
def NoCollision (e : Env) (p : Pins) (w : Who) (pin : Bytes) : Prop :=
  ∀ q s, p.of w = some q → e.store.hash pin s = e.store.hash q s → pin = q

/-! ## Locking -/

/-- The account refuses logins at this time. -/
def Locked (a : Account) (now : Int) : Prop := a.fails = 3 ∧ now ≤ a.last + a.timeout

instance (a : Account) (now : Int) : Decidable (Locked a now) := by unfold Locked; infer_instance

/-- The PIN is the one whose hash the account holds. -/
def Matches (e : Env) (a : Account) (pin : Bytes) : Prop :=
  a.pin ≠ [] ∧ (e.store.hash pin a.seed).take a.pin.length = a.pin

instance (e : Env) (a : Account) (pin : Bytes) : Decidable (Matches e a pin) := by
  unfold Matches; infer_instance

/-- The call offers `pin` for the account and the PIN is looked at: the library is
initialised, the session open, nobody logged in, the account not locked (for the
security officer: no read-only session), a PIN set, the length allowed. -/
def Evaluates (e : Env) (l : Lib) (w : Who) (c : Call) (pin : Bytes) (now : Int) : Prop :=
  ∃ h, c = loginCall h w pin now ∧ IsOpen e l h ∧ l.token.login = .pub ∧
    ¬ Locked (w.acct l.token) now ∧ (w = .so → ∀ h', ¬ OpenAs e l h' false) ∧
    l.token.init = true ∧ (w.acct l.token).pin ≠ [] ∧ 4 ≤ pin.length ∧ pin.length ≤ 32

/-- A wrong PIN that is looked at. -/
def WrongGuess (e : Env) (l : Lib) (w : Who) (c : Call) : Prop :=
  ∃ pin now, Evaluates e l w c pin now ∧ ¬ Matches e (w.acct l.token) pin

/-- The events that clear the counters: the right PIN, a successful `C_InitToken`, and
(re)loading the token. -/
def Clears (e : Env) (l : Lib) (w : Who) (c : Call) : Prop :=
  c = .cInit ∨ c = .cFinal ∨
  (∃ i p lab, c = .slot i (.initToken p lab) ∧ (answer e l c).rv = .ok) ∨
  (∃ pin now, Evaluates e l w c pin now ∧ Matches e (w.acct l.token) pin)

/-- No call of the history clears the counters. -/
def NoClear (e : Env) (w : Who) : Lib → List Call → Prop
  | _, [] => True
  | l, c :: cs => ¬ Clears e l w c ∧ NoClear e w (step e l c).1 cs

open Classical in
/-- Number of wrong PINs looked at in a history. -/
noncomputable def wrongGuesses (e : Env) (w : Who) : Lib → List Call → Nat
  | _, [] => 0
  | l, c :: cs => (if WrongGuess e l w c then 1 else 0) + wrongGuesses e w (step e l c).1 cs

/-- The clock readings of the history are between `lo` and `hi`. -/
def ClockIn (lo hi : Int) (cs : List Call) : Prop :=
  ∀ h u pin now, Call.sess h (.login u pin now) ∈ cs → lo ≤ now ∧ now ≤ hi

/-- The counters are ones the library can produce (a damaged or edited token file could
hold others). -/
structure Sane (w : Who) (a : Account) : Prop where
  lo : 0 ≤ a.fails
  hi : a.fails ≤ 3
  time : 0 ≤ a.timeout
  locked : a.fails = 3 → w.penalty ≤ a.timeout

end Verif
