import Verif.Model.ConcObj

/-!
# Objects made by several threads (src/crypto.c:734-758, 499-524; src/internal.c:4639-4697)

`C_CreateObject` makes the object by itself, links it into the list of the token, holding its
lock, or into the list of the session, holding no lock, and then reads the handle from the
object, again without a lock.  Here this call is split at these places.

Simplifications: all other calls are made in one go; a create call that is refused before the object
is linked is made in one go; the number of objects of a session is the length of its list; an
object that a race has dropped from the list without freeing it counts as freed when it is used (here `bad`, there a leak).
-/

namespace Verif

/-- Where a thread stands in `C_CreateObject` in session `h`. -/
inductive Mc where
  /-- not in it -/
  | idle
  /-- the object is made from the template and `CKA_TOKEN` read (src/crypto.c:750, 507-515), before
  `WP11_Session_AddObject` -/
  | built (h on : Nat) (t : List Entry) (o : Obj)
  /-- a session object: the head of the list is read and the handle determined
  (src/internal.c:4680-4690), before the object is made the head (4691-4692) -/
  | chosen (h : Nat) (t : List Entry) (o : Obj) (next : Option Nat)
  /-- linked (src/internal.c:4669-4677 or 4691-4692), before the handle is read
  (src/crypto.c:521) -/
  | linked (h on k uid : Nat)

/-- The library and the threads. -/
structure Mkc where
  lib : Lib
  mc : Nat → Mc := fun _ => .idle

/-- Something happens. -/
inductive MEv where
  /-- a thread makes a whole call -/
  | call (c : Call)
  /-- thread `t` calls `C_CreateObject` and the object is made -/
  | create (t h : Nat) (tmpl : List Entry)
  /-- thread `t` does the next part of its call -/
  | go (t : Nat)

/-- `C_CreateObject` up to `WP11_Session_AddObject` (src/crypto.c:741-750, 507-515). -/
def beginMake (e : Env) (l : Lib) (h : Nat) (t : List Entry) : Lib × Mc × Option Resp :=
  let whole := ((step e l (.sess h (.create (some t) true))).1, Mc.idle, some (step e l (.sess h (.create (some t) true))).2)
  match getSession l h with
  | none => whole
  | some s =>
    if s.use ≠ .rw then whole
    else match createObject e s t, tokenByte t 0 with
      | (.ok, o), .ok on => (l, .built h on t o, none)
      | _, _ => whole

/-- What follows in the list from the object `next` on: nothing if it is NULL; `none` if it is not
on the list any more (it is freed). -/
def tailFrom (os : List Obj) : Option Nat → Option (List Obj)
  | none => some []
  | some u => if os.any (fun o => o.uid == u) then some (os.dropWhile fun o => o.uid != u) else none

/-- The object that was linked is still there. -/
def stillLinked (l : Lib) (h on uid : Nat) : Bool :=
  if on ≠ 0 then l.token.objs.any fun o => o.uid == uid
  else (l.sessions.find? fun s => s.handle == h).any fun s => s.objs.any fun o => o.uid == uid

/-- The next part of a thread's call (`WP11_Session_AddObject`, src/internal.c:4639-4697, and the
end of `AddObject`, src/crypto.c:517-523).  The token's list is changed in one critical section; of a session's
the head is read first and written then. -/
def proceedMake (e : Env) (l : Lib) : Mc → Lib × Mc × Option Resp
  | .idle => (l, .idle, none)
  | .built h on t o =>
    match l.sessions.find? fun s => s.handle == h with
    | none => ({ l with bad := true }, .idle, some { rv := .ub })
    | some s =>
      if on ≠ 0 then
        match sessAddObject e l s on o with
        | (l', none) => (l', .idle, some { rv := .functionFailed })
        | (l', some k) => (l', .linked h on k l.uid, none)
      else if s.objs.length ≥ sessObjMax then (l, .idle, some { rv := .functionFailed })
      else (l, .chosen h t { o with onToken := false, handle := nextHandle s.objs 0 } (s.objs.head?.map (·.uid)), none)
  | .chosen h _ o next =>
    match (l.sessions.find? fun s => s.handle == h).bind fun s => tailFrom s.objs next with
    | none => ({ l with bad := true }, .idle, some { rv := .ub })
    | some os =>
      ({ l with uid := l.uid + 1 }.upd h fun t => { t with objs := { o with uid := l.uid } :: os }, .linked h 0 o.handle l.uid, none)
  | .linked h on k uid =>
    if stillLinked l h on uid then (l, .idle, some { rv := .ok, handle := some k })
    else ({ l with bad := true }, .idle, some { rv := .ub })

/-- Thread `t` stands at `p`. -/
def Mkc.at (s : Mkc) (t : Nat) (p : Mc) : Mkc := { s with mc := fun u => if u = t then p else s.mc u }

/-- One event (`C_CreateObject`, src/crypto.c:734-758, in parts; other calls whole), and the answer to a
thread, if any.  A thread inside a call cannot make another one. -/
def Mkc.step (e : Env) (s : Mkc) : MEv → Mkc × Option Resp
  | .call c => ({ s with lib := (Verif.step e s.lib c).1 }, some (Verif.step e s.lib c).2)
  | .create t h tmpl =>
    match s.lib.bad, s.mc t with
    | true, _ => (s, some { rv := .ub })
    | false, .idle =>
      let r := beginMake e s.lib h tmpl
      ({ s with lib := r.1 }.at t r.2.1, r.2.2)
    | false, _ => (s, none)
  | .go t =>
    if s.lib.bad then (s, none)
    else
      let r := proceedMake e s.lib (s.mc t)
      ({ s with lib := r.1 }.at t r.2.1, r.2.2)

/-- The state after a schedule. -/
def Mkc.run (e : Env) (s : Mkc) : List MEv → Mkc
  | [] => s
  | v :: vs => Mkc.run e (s.step e v).1 vs

/-- The answers given in a schedule, in order. -/
def Mkc.returns (e : Env) (s : Mkc) : List MEv → List Resp
  | [] => []
  | v :: vs => (s.step e v).2.toList ++ Mkc.returns e (s.step e v).1 vs

end Verif
