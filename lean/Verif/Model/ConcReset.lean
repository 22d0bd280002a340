import Verif.Model.ConcPin

/-!
# `C_InitToken` called by several threads (src/slot.c:557-587, src/internal.c:3711-3835, 4073-4102)

`C_InitToken` asks whether the token is initialised, whether a session is open and whether the PIN is that of
the security officer in separate critical sections, then wipes the token in one more and sets the new PIN in two
others; both hashes are computed outside the lock.  Here the call is split at these places; between two parts of it other
threads may do anything.

Simplifications: all other calls are made in one go (their parts are in `Model/Conc.lean`, `Model/ConcPin.lean`,
`Model/ConcObj.lean`, `Model/ConcMake.lean` and `Model/ConcSess.lean`), so no other thread holds the locks of the token that
are freed and made again (src/internal.c:3011-3013, 2984-2986); what a thread does between taking the lock of the slot and giving
it back is one step (by C41 the lock excludes); an unlocked computation of a hash reads the seed at one moment and writes the
hash at one later moment; as everywhere in the model the random generator and the hash do not fail.
-/

namespace Verif

/-- Where a thread stands in `C_InitToken`. -/
inductive Tk where
  /-- not in it -/
  | idle
  /-- arguments checked, before `WP11_Slot_IsTokenInitialized` (src/slot.c:573) -/
  | entered (pin label : Bytes)
  /-- the token is initialised, before `WP11_Slot_HasSession` (src/slot.c:574) -/
  | sees (pin label : Bytes)
  /-- no session is open, before `WP11_Slot_CheckSOPin` (src/slot.c:576) -/
  | check (pin label : Bytes)
  /-- a PIN is set (src/internal.c:3814-3819), before the hash of the PIN given -/
  | hash (pin label : Bytes)
  /-- the hash of the PIN given is computed, before the comparison (src/internal.c:3829) -/
  | cmp (hash pin label : Bytes)
  /-- before the token is wiped (src/internal.c:3784-3789) -/
  | reset (pin label : Bytes)
  /-- before `WP11_Slot_SetSOPin` draws a seed (src/internal.c:4078-4084) -/
  | start (pin label : Bytes)
  /-- before the hash of the new PIN is computed (src/internal.c:4087-4090) -/
  | seeded (pin label : Bytes)
  /-- the hash is computed, before it is written into the token -/
  | hashed (hash pin label : Bytes)
  /-- before the last critical section (src/internal.c:4091-4100) -/
  | storing (pin label : Bytes)
  deriving DecidableEq

/-- The library, its threads, and the array `soPin` of the token, which is written before
`soPinLen` says that it holds something. -/
structure Tkc where
  lib : Lib
  raw : Bytes := List.replicate 32 0
  pc : Nat → Tk := fun _ => .idle

/-- Something happens. -/
inductive TkEv where
  /-- a thread makes a whole call -/
  | call (c : Call)
  /-- thread `t` calls `C_InitToken` -/
  | init (t : Nat) (pin label : Bytes)
  /-- thread `t` does the next part of its `C_InitToken` -/
  | go (t : Nat)

/-- The library and the array change and thread `t` stands at `p`. -/
def Tkc.at (s : Tkc) (l : Lib) (raw : Bytes) (t : Nat) (p : Tk) : Tkc :=
  { lib := l, raw := raw, pc := fun u => if u = t then p else s.pc u }

/-- The checks of the library and of the arguments (src/slot.c:563-571): where the thread stands then, and the status
if the call returns. -/
def beginReset (l : Lib) (pin label : Bytes) : Tk × Option RV :=
  if l.count ≤ 0 then (.idle, some .cryptokiNotInitialized)
  else if !pinLenOk pin then (.idle, some .pinIncorrect)
  else (.entered pin label, none)

/-- `wp11_Token_Final` and `wp11_Token_Init` (src/internal.c:2978-2993, 3001-3015). -/
def wipe (l : Lib) (label : Bytes) : Lib := { l with token := { label := labelOf label, init := true } }

/-- The next part of a `C_InitToken` (src/slot.c:573-586, src/internal.c:3711-3727, 3779-3835, 4073-4102, 4214-4223): the
library, the array, where the thread stands then, and the status if the call returns. -/
def Tk.part (e : Env) (l : Lib) (raw : Bytes) : Tk → Lib × Bytes × Tk × Option RV
  | .idle => (l, raw, .idle, none)
  | .entered p b => if l.token.init then (l, raw, .sees p b, none) else (l, raw, .reset p b, none)
  | .sees p b => if anyInUse l.sessions then (l, raw, .idle, some .sessionExists) else (l, raw, .check p b, none)
  | .check p b =>
    if l.token.init = false ∨ l.token.so.pin = [] then (l, raw, .idle, some .pinIncorrect) else (l, raw, .hash p b, none)
  | .hash p b => (l, raw, .cmp (e.store.hash p l.token.so.seed) p b, none)
  | .cmp h p b =>
    if h.take l.token.so.pin.length = l.token.so.pin then (l, raw, .reset p b, none)
    else (l, raw, .idle, some .pinIncorrect)
  | .reset p b => (wipe l b, List.replicate 32 0, .start p b, none)
  | .start p b => (drawSeeds e l .so, raw, .seeded p b, none)
  | .seeded p b => (l, raw, .hashed (e.store.hash p l.token.so.seed) p b, none)
  | .hashed h p b => (writePin l .so h, h, .storing p b, none)
  | .storing _ _ => ((commitPin e l .so raw).1, raw, .idle, some (commitPin e l .so raw).2)

/-- The call a thread is in (`C_InitToken`, src/slot.c:557). -/
def Tk.call : Tk → Call
  | .idle => .slot 1 (.initToken none none)
  | .entered p b | .sees p b | .check p b | .hash p b | .cmp _ p b | .reset p b | .start p b | .seeded p b | .hashed _ p b
  | .storing p b => .slot 1 (.initToken (some p) (some b))

/-- One event, and the call that has returned with its answer, if any (`C_InitToken`, src/slot.c:557-587, in
parts; other calls whole).  A thread inside a call cannot make another one.  After undefined behaviour a call answers
`ub`, as in `step`. -/
def Tkc.step (e : Env) (s : Tkc) : TkEv → Tkc × Option (Call × Resp)
  | .call c =>
    let r := Verif.step e s.lib c
    ({ s with lib := r.1, raw := if r.1.token.so.pin = [] then s.raw else r.1.token.so.pin }, some (c, r.2))
  | .init t pin label =>
    if s.pc t = .idle then
      if s.lib.bad then (s, some (.slot 1 (.initToken (some pin) (some label)), { rv := .ub }))
      else
        let r := beginReset s.lib pin label
        (s.at s.lib s.raw t r.1, r.2.map fun rv => (.slot 1 (.initToken (some pin) (some label)), { rv := rv }))
    else (s, none)
  | .go t =>
    if s.pc t = .idle then (s, none)
    else if s.lib.bad then (s.at s.lib s.raw t .idle, some ((s.pc t).call, { rv := .ub }))
    else
      let r := (s.pc t).part e s.lib s.raw
      (s.at r.1 r.2.1 t r.2.2.1, r.2.2.2.map fun rv => ((s.pc t).call, { rv := rv }))

/-- The state after a schedule. -/
def Tkc.run (e : Env) (s : Tkc) : List TkEv → Tkc
  | [] => s
  | v :: vs => Tkc.run e (s.step e v).1 vs

/-- The calls that returned in a schedule, in the order in which they did, with their answers. -/
def Tkc.returned (e : Env) (s : Tkc) : List TkEv → List (Call × Resp)
  | [] => []
  | v :: vs => (s.step e v).2.toList ++ Tkc.returned e (s.step e v).1 vs

end Verif
