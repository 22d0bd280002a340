import Verif.Model.ConcObj

/-!
# Attributes of token objects changed while other threads look (src/crypto.c:1010-1032, 944-987)

`C_SetAttributeValue` looks the object up holding the lock of the token and goes on with a
pointer to it after giving the lock back: the key data is put in place in one critical section
(src/internal.c:5052-5415), and then each entry of the template in one of its own
(src/internal.c:6217-6399).  `C_GetAttributeValue` reads each attribute in a critical section
of its own.  Here these two calls are split at these places.

Simplifications: all other calls are made in one go, and so are these two for session
objects; what a thread does between taking the lock and giving it back is one step (by C41
the lock excludes).  The look-up, the check of the template and the reading of type and class
are one step: neither the type of an object nor whether it is a certificate ever changes
(`setAttr` takes a class that would do so for undefined behaviour at once), so that nothing
another thread does in between is noticed.
-/

namespace Verif

/-- Where a thread stands in `C_SetAttributeValue` or `C_GetAttributeValue`.  A pointer to an
object is the object's identity `uid`. -/
inductive Sa where
  /-- not in one of them -/
  | idle
  /-- `C_SetAttributeValue`: object found and template checked, before the key setter is called
  (src/crypto.c:390) -/
  | found (h k uid : Nat) (tmpl : List Entry)
  /-- the key data is set; the entries still to be set (src/crypto.c:428-439) -/
  | setting (h k uid : Nat) (rest : List Entry)
  /-- `C_GetAttributeValue`: the attributes read so far and those to come
  (src/crypto.c:971-984) -/
  | reading (h k uid : Nat) (done rest : List Entry)
  deriving DecidableEq

/-- The library and the threads. -/
structure Stc where
  lib : Lib
  sa : Nat → Sa := fun _ => .idle

/-- Something happens. -/
inductive TEv where
  /-- a thread makes a whole call -/
  | call (c : Call)
  /-- thread `t` calls `C_SetAttributeValue` and the object is looked up -/
  | setAttr (t h k : Nat) (tmpl : List Entry)
  /-- thread `t` calls `C_GetAttributeValue` and the object is looked up -/
  | getAttr (t h k : Nat) (tmpl : List Entry)
  /-- thread `t` does the next part of its call -/
  | go (t : Nat)

/-- A call made in one go (an error, or a session object). -/
def wholly (e : Env) (l : Lib) (c : Call) : Lib × Sa × Option Resp :=
  ((step e l c).1, .idle, some (step e l c).2)

/-- `SetAttributeValue` accepts the template for the object: the checks before the key setter is called
(src/crypto.c:332-388). -/
def settable (o : Obj) (t : List Entry) : Bool :=
  decide (checkAttributes true t = .ok) &&
    match keyParams o with
    | none => false
    | some ps => !ps.any fun a => (keyAttr t a).any fun e => e.mem.isNone

/-- `C_SetAttributeValue` up to the call of the key setter (src/crypto.c:1010-1032, 315-388). -/
def beginChange (e : Env) (l : Lib) (h k : Nat) (t : List Entry) : Lib × Sa × Option Resp :=
  match located l h k with
  | some (s, o) =>
    if s.use = .rw ∧ handleOnToken k = true ∧ settable o t = true then (l, .found h k o.uid t, none)
    else wholly e l (.sess h (.setAttr k (some t)))
  | none => wholly e l (.sess h (.setAttr k (some t)))

/-- `C_GetAttributeValue` up to and including the check of the template
(src/crypto.c:955-969). -/
def beginLook (e : Env) (l : Lib) (h k : Nat) (t : List Entry) : Lib × Sa × Option Resp :=
  match located l h k with
  | some (_, o) =>
    if handleOnToken k = true ∧ checkAttributes false t = .ok ∧ t ≠ [] then
      (l, .reading h k o.uid [] t, none)
    else wholly e l (.sess h (.getAttr k (some t)))
  | none => wholly e l (.sess h (.getAttr k (some t)))

/-- What the key setters and `WP11_Object_SetAttr` do through a pointer to a token object
(src/internal.c:5052-5415, 6217-6399): `none` if the object has been freed. -/
def writePart (l : Lib) (uid : Nat) (f : Obj → IRet × Obj) : Option (IRet × Lib) :=
  (l.token.objs.find? fun o => o.uid == uid).map fun o =>
    ((f o).1, { l with token := { l.token with objs := replObj (f o).2 l.token.objs } })

/-- The next part of a thread's call: the library, where the thread stands then, and the
answer if the call returns (src/crypto.c:390-442, 971-986).  Freed memory being used is
undefined behaviour. -/
def onward (e : Env) (l : Lib) : Sa → Lib × Sa × Option Resp
  | .idle => (l, .idle, none)
  | .found h k uid t =>
    match writePart l uid fun o => setKey e.key o (keyVals t) with
    | none => ({ l with bad := true }, .idle, some { rv := .ub })
    | some (.ok, l') => if t = [] then (l', .idle, some { rv := .ok }) else (l', .setting h k uid t, none)
    | some (.ub, l') => ({ l' with bad := true }, .idle, some { rv := .ub })
    | some (_, l') => (l', .idle, some { rv := .functionFailed })
  | .setting _ _ _ [] => (l, .idle, some { rv := .ok })
  | .setting h k uid (en :: rest) =>
    match writePart l uid fun o => setAttr o en with
    | none => ({ l with bad := true }, .idle, some { rv := .ub })
    | some (.ok, l') => if rest = [] then (l', .idle, some { rv := .ok }) else (l', .setting h k uid rest, none)
    | some (.badArg, l') => (l', .idle, some { rv := .attributeValueInvalid })
    | some (.bufferE, l') => (l', .idle, some { rv := .bufferTooSmall })
    | some (.ub, l') => ({ l' with bad := true }, .idle, some { rv := .ub })
    | some (_, l') => (l', .idle, some { rv := .functionFailed })
  | .reading _ _ _ done [] => (l, .idle, some { rv := .ok, tmpl := some done })
  | .reading h k uid done (en :: rest) =>
    match readPart e l [] uid en with
    | none => ({ l with bad := true }, .idle, some { rv := .ub })
    | some (.ok, x) =>
      if rest = [] then (l, .idle, some { rv := .ok, tmpl := some (done ++ [x]) })
      else (l, .reading h k uid (done ++ [x]) rest, none)
    | some (rv, x) =>
      ({ l with bad := l.bad || decide (rv = .ub) }, .idle, some { rv, tmpl := some (done ++ x :: rest) })

/-- Thread `t` stands at `p`. -/
def Stc.at (s : Stc) (t : Nat) (p : Sa) : Stc := { s with sa := fun u => if u = t then p else s.sa u }

/-- One event (`C_SetAttributeValue`, src/crypto.c:1010-1032, and `C_GetAttributeValue`,
src/crypto.c:944-987, in parts; other calls whole), and the answer to a thread, if any.  A
thread inside a call cannot make another one. -/
def Stc.step (e : Env) (s : Stc) : TEv → Stc × Option Resp
  | .call c => ({ s with lib := (Verif.step e s.lib c).1 }, some (Verif.step e s.lib c).2)
  | .setAttr t h k tmpl =>
    if s.lib.bad then (s, some { rv := .ub })
    else if s.sa t = .idle then
      ({ s with lib := (beginChange e s.lib h k tmpl).1 }.at t (beginChange e s.lib h k tmpl).2.1,
        (beginChange e s.lib h k tmpl).2.2)
    else (s, none)
  | .getAttr t h k tmpl =>
    if s.lib.bad then (s, some { rv := .ub })
    else if s.sa t = .idle then
      ({ s with lib := (beginLook e s.lib h k tmpl).1 }.at t (beginLook e s.lib h k tmpl).2.1,
        (beginLook e s.lib h k tmpl).2.2)
    else (s, none)
  | .go t =>
    if s.lib.bad then (s, none)
    else
      ({ s with lib := (onward e s.lib (s.sa t)).1 }.at t (onward e s.lib (s.sa t)).2.1,
        (onward e s.lib (s.sa t)).2.2)

/-- The state after a schedule. -/
def Stc.run (e : Env) (s : Stc) : List TEv → Stc
  | [] => s
  | v :: vs => Stc.run e (s.step e v).1 vs

/-- The answers given in a schedule, in order. -/
def Stc.returns (e : Env) (s : Stc) : List TEv → List Resp
  | [] => []
  | v :: vs => (s.step e v).2.toList ++ Stc.returns e (s.step e v).1 vs

end Verif
