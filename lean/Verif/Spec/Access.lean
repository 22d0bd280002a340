import Verif.Spec.Pin

/-!
# A small machine for sessions, logins and PINs (C124)

What a caller has to know about the library to foresee the status of every call about
sessions, logins and PINs: which sessions are open, who is logged in, which PIN each
account accepts, how many wrong tries it has seen.  Nothing of lists, hashes, seeds or
files.  `Ref.Step` says which answers are possible and what they mean; all other calls
change nothing here.

Where the library deviates from the standard the machine says what the library does:
`C_CloseAllSessions` does not log out and leaves the session with the lowest handle open, and a login of the user with the right PIN may
fail when a stored key cannot be decoded.
-/

namespace Verif

/-- One of the two accounts: whether it has a PIN, which PINs it takes for the right one,
the wrong tries, the time of the lock and its length in seconds. -/
structure RefAcct where
  set : Bool
  accepts : Bytes → Prop
  fails : Int
  last : Int
  timeout : Int

/-- The state of the machine. -/
structure Ref where
  /-- `C_Initialize` calls without their `C_Finalize` -/
  inits : Int
  /-- the open sessions: whether they may write -/
  modes : Nat → Option Bool
  /-- who is logged in -/
  who : Login
  /-- the token has been initialised -/
  ready : Bool
  so : RefAcct
  user : RefAcct

/-- An account without PIN. -/
def RefAcct.unset : RefAcct := { set := false, accepts := fun _ => False, fails := 0, last := 0, timeout := 0 }

/-- The library is not initialised. -/
def Ref.down : Ref :=
  { inits := 0, modes := fun _ => none, who := .pub, ready := false, so := .unset, user := .unset }

namespace Ref

/-- The account refuses every PIN at this time. -/
def Locked (a : RefAcct) (now : Int) : Prop := a.fails = 3 ∧ now ≤ a.last + a.timeout

/-- A lock that is over starts the count again. -/
def unlocked (a : RefAcct) : RefAcct := if a.fails = 3 then { a with fails := 0 } else a

/-- A wrong PIN is counted; the third one locks, each time for longer. -/
def wrong (a : RefAcct) (now penalty : Int) : RefAcct :=
  if a.fails + 1 = 3 then { a with fails := 3, last := now, timeout := a.timeout + penalty }
  else { a with fails := a.fails + 1 }

/-- The right PIN clears the count. -/
def right (a : RefAcct) : RefAcct := { a with fails := 0, last := 0, timeout := 0 }

/-- The account has the PIN `pin` now; `same p q` says that the hash function does not tell `p`
from `q`. -/
def NewPin (same : Bytes → Bytes → Prop) (pin : Bytes) (a a' : RefAcct) : Prop :=
  a'.set = true ∧ a'.accepts pin ∧ (∀ p, a'.accepts p → same p pin) ∧
  a'.fails = a.fails ∧ a'.last = a.last ∧ a'.timeout = a.timeout

/-- A PIN has 4 to 32 bytes. -/
def Length (pin : Bytes) : Prop := 4 ≤ pin.length ∧ pin.length ≤ 32

/-- The account of `w` is another one. -/
def put (r : Ref) (w : Who) (a : RefAcct) : Ref :=
  match w with
  | .so => { r with so := a }
  | .user => { r with user := a }

/-- The account of `w`. -/
def acct (r : Ref) : Who → RefAcct
  | .so => r.so
  | .user => r.user

/-- Who is logged in after the login of `w`. -/
def logged : Who → Login
  | .so => .so
  | .user => .user

/-- The lowest handle of a session. -/
def lowest : Nat := 0x10001

/-- The state `C_GetSessionInfo` reports. -/
def state (who : Login) (rw : Bool) : SState :=
  match who, rw with
  | .so, _ => .rwSo
  | .user, true => .rwUser
  | .user, false => .roUser
  | .pub, true => .rwPublic
  | .pub, false => .roPublic

open Classical in
/-- `C_Login` with a PIN of allowed length for the account of `w`. -/
noncomputable def Login (r : Ref) (w : Who) (pin : Bytes) (now : Int) (rv : RV) (r' : Ref) : Prop :=
  if r.who ≠ .pub then rv = .userAlreadyLoggedIn ∧ r' = r
  else if Locked (r.acct w) now then rv = .pinIncorrect ∧ r' = r
  else if w = .so ∧ ∃ h, r.modes h = some false then
    rv = .sessionReadOnlyExists ∧ r' = r.put w (unlocked (r.acct w))
  else if r.ready = false ∨ (r.acct w).set = false then
    rv = .userPinNotInitialized ∧ r' = r.put w (unlocked (r.acct w))
  else if ¬ (r.acct w).accepts pin then
    rv = .pinIncorrect ∧ r' = r.put w (wrong (unlocked (r.acct w)) now w.penalty)
  else
    (rv = .ok ∧ r' = { r.put w (right (r.acct w)) with who := logged w }) ∨
    -- a stored key cannot be decoded
    (w = .user ∧ rv = .pinIncorrect ∧ r' = r.put w (right (r.acct w)))

open Classical in
/-- A new PIN for the account of `w` with the old one given. -/
noncomputable def Change (same : Bytes → Bytes → Prop) (r : Ref) (w : Who) (old new : Bytes) (rv : RV) (r' : Ref) :
    Prop :=
  if r.ready = false ∨ (r.acct w).set = false then rv = .userPinNotInitialized ∧ r' = r
  else if ¬ (r.acct w).accepts old then rv = .pinIncorrect ∧ r' = r
  else (rv = .ok ∨ rv = .functionFailed) ∧ ∃ a, NewPin same new (r.acct w) a ∧ r' = r.put w a

open Classical in
/-- A call on the open session `h`, which may write if `rw`. -/
noncomputable def SessStep (same : Bytes → Bytes → Prop) (r : Ref) (h : Nat) (rw : Bool) (c : SessCall) (a : Resp)
    (r' : Ref) : Prop :=
  match c with
  | .close =>
    a.rv = .ok ∧ r' = { r with
      modes := fun k => if k = h then none else r.modes k
      who := if ∃ k, k ≠ h ∧ r.modes k ≠ none then r.who else .pub }
  | .info ptr =>
    r' = r ∧ if ptr = false then a.rv = .argumentsBad
      else a.rv = .ok ∧ a.state = some (state r.who rw, rw)
  | .login u pin now =>
    match pin with
    | none => a.rv = .argumentsBad ∧ r' = r
    | some pin =>
      if ¬ Length pin then a.rv = .pinIncorrect ∧ r' = r
      else
        match u with
        | .so => Login r .so pin now a.rv r'
        | .user => Login r .user pin now a.rv r'
        | .contextSpecific => a.rv = .operationNotInitialized ∧ r' = r
        | .other => a.rv = .userTypeInvalid ∧ r' = r
  | .logout => a.rv = .ok ∧ r' = { r with who := .pub }
  | .initPin pin =>
    match pin with
    | none => a.rv = .argumentsBad ∧ r' = r
    | some pin =>
      if r.who ≠ .so then a.rv = .userNotLoggedIn ∧ r' = r
      else if ¬ Length pin then a.rv = .pinIncorrect ∧ r' = r
      else (a.rv = .ok ∨ a.rv = .functionFailed) ∧ ∃ u, NewPin same pin r.user u ∧ r' = { r with user := u }
  | .setPin old new =>
    match old, new with
    | some old, some new =>
      if ¬ Length old ∨ ¬ Length new then a.rv = .pinIncorrect ∧ r' = r
      else if r.who = .so then Change same r .so old new a.rv r'
      else if rw = true then Change same r .user old new a.rv r'
      else a.rv = .sessionReadOnly ∧ r' = r
    | _, _ => a.rv = .argumentsBad ∧ r' = r
  | _ => r' = r

open Classical in
/-- A call on the slot. -/
noncomputable def SlotStep (same : Bytes → Bytes → Prop) (r : Ref) (c : SlotCall) (a : Resp) (r' : Ref) : Prop :=
  match c with
  | .openSession rw serial ptr =>
    if serial = false then a.rv = .sessionParallelNotSupported ∧ r' = r
    else if ptr = false then a.rv = .argumentsBad ∧ r' = r
    else if rw = false ∧ r.who = .so then a.rv = .sessionReadWriteSoExists ∧ r' = r
    else if ∃ hs : List Nat, hs.Nodup ∧ hs.length = 70 ∧ ∀ h ∈ hs, r.modes h ≠ none then
      a.rv = .sessionCount ∧ r' = r
    else a.rv = .ok ∧ ∃ h, a.handle = some h ∧ r.modes h = none ∧
      r' = { r with modes := fun k => if k = h then some rw else r.modes k }
  | .closeAll => a.rv = .ok ∧ r' = { r with modes := fun k => if k = lowest then r.modes k else none }
  | .initToken pin label =>
    match pin, label with
    | some pin, some _ =>
      if ¬ Length pin then a.rv = .pinIncorrect ∧ r' = r
      else if r.ready = true ∧ ∃ h, r.modes h ≠ none then a.rv = .sessionExists ∧ r' = r
      else if r.ready = true ∧ ¬ r.so.accepts pin then a.rv = .pinIncorrect ∧ r' = r
      else a.rv = .ok ∧ ∃ s, NewPin same pin .unset s ∧
        r' = { r with who := .pub, ready := true, so := s, user := .unset }
    | _, _ => a.rv = .argumentsBad ∧ r' = r
  | .tokenInfo ptr now =>
    r' = r ∧ if ptr = false then a.rv = .argumentsBad
      else a.rv = .ok ∧ ∃ i, a.info = some i ∧ i.tokenInit = r.ready ∧ i.userPinInit = r.user.set ∧
        (i.soLow = true ↔ 0 < r.so.fails) ∧ (i.soFinal = true ↔ r.so.fails = 2) ∧
        (i.soLocked = true ↔ r.so.fails = 3 ∧ now < r.so.last + r.so.timeout) ∧
        (i.userLow = true ↔ 0 < r.user.fails) ∧ (i.userFinal = true ↔ r.user.fails = 2) ∧
        (i.userLocked = true ↔ r.user.fails = 3 ∧ now < r.user.last + r.user.timeout)

/-- The call `c` can be answered `a` in the state `r`, and the state is `r'` then. -/
noncomputable def Step (same : Bytes → Bytes → Prop) (r : Ref) (c : Call) (a : Resp) (r' : Ref) : Prop :=
  match c with
  | .cInit =>
    -- the first one finds what has been stored; see C34 and C109 for that
    a.rv = .ok ∧ if r.inits = 0 then r'.inits = 1 ∧ r'.modes = (fun _ => none) ∧ r'.who = .pub
      else r' = { r with inits := r.inits + 1 }
  | .cFinal => a.rv = .ok ∧ if r.inits = 1 then r' = down else r' = { r with inits := r.inits - 1 }
  | .slot id c =>
    if r.inits ≤ 0 then a.rv = .cryptokiNotInitialized ∧ r' = r
    else if id ≠ 1 then a.rv = .slotIdInvalid ∧ r' = r
    else SlotStep same r c a r'
  | .sess h c =>
    if r.inits ≤ 0 then a.rv = .cryptokiNotInitialized ∧ r' = r
    else
      match r.modes h with
      | none => a.rv = .sessionHandleInvalid ∧ r' = r
      | some rw => SessStep same r h rw c a r'

/-- A history of calls with their answers is one of the machine. -/
inductive Run (same : Bytes → Bytes → Prop) : Ref → List (Call × Resp) → Ref → Prop
  | nil (r) : Run same r [] r
  | cons {r r₁ r' c a cs} : Step same r c a r₁ → Run same r₁ cs r' → Run same r ((c, a) :: cs) r'

end Ref

/-- The calls whose status the machine foresees exactly. -/
def Foreseen : Call → Prop
  | .sess _ .close | .sess _ (.info _) | .sess _ .logout => True
  | .sess _ (.login u _ _) => u ≠ .user
  | .sess _ _ => False
  | _ => True

/-! ## What the machine sees of the library -/

/-- What the machine sees of an account. -/
def Account.ref (e : Env) (a : Account) : RefAcct :=
  { set := !a.pin.isEmpty, accepts := Matches e a, fails := a.fails, last := a.last, timeout := a.timeout }

/-- What the machine sees of the library. -/
def Lib.ref (e : Env) (l : Lib) : Ref :=
  { inits := l.count
    modes := fun h => (getSession l h).map fun s => s.use == .rw
    who := l.token.login
    ready := l.token.init
    so := l.token.so.ref e
    user := l.token.user.ref e }

/-- The hash function does not tell the two PINs apart, for some seed. -/
def SameHash (e : Env) (p q : Bytes) : Prop := ∃ s, e.store.hash p s = e.store.hash q s

/-- The calls with their answers. -/
def history (e : Env) : Lib → List Call → List (Call × Resp)
  | _, [] => []
  | l, c :: cs => (c, answer e l c) :: history e (step e l c).1 cs

end Verif
