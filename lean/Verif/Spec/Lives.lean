import Verif.Spec.Pin
import Verif.Spec.Crash

/-!
# Histories of several processes on one directory
-/

namespace Verif

/-- What happens on a directory: an API call, or the process ends between two calls and
another one starts. -/
inductive Event where
  | call (c : Call)
  | killed

/-- The library after an event. A new process has the directory and nothing else; after
undefined behaviour nothing is known any more. -/
def Event.next (e : Env) (l : Lib) : Event → Lib
  | .call c => (step e l c).1
  | .killed => { startOn l l.disk with bad := l.bad }

/-- The library after some events. -/
def live (e : Env) : Lib → List Event → Lib
  | l, [] => l
  | l, v :: vs => live e (v.next e l) vs

/-- What an event means for the PINs: the calls as before, the end of a process nothing. -/
def Pins.event (e : Env) (l : Lib) (p : Pins) : Event → Pins
  | .call c => p.next (stateOf e l c.session) c (answer e l c)
  | .killed => p

/-- The PINs after some events. -/
def pinsLive (e : Env) : Lib → Pins → List Event → Pins
  | _, p, [] => p
  | l, p, v :: vs => pinsLive e (v.next e l) (p.event e l v) vs

/-- There is no token in the directory, or its file and those of all its objects can be
read. -/
def Readable (e : Env) (l : Lib) : Prop :=
  l.disk (.token, 0) = none ∨ ∃ b r rest os, l.disk (.token, 0) = some b ∧ rdToken b = some (r, rest) ∧
    loadObjs e.store l.disk l.uid r.types = some os

instance (e : Env) (l : Lib) : Decidable (Readable e l) :=
  match h : l.disk (.token, 0) with
  | none => .isTrue (.inl h)
  | some b =>
    match h1 : rdToken b with
    | none => .isFalse (by
        rintro (h' | ⟨_, _, _, _, h', h2, _⟩)
        · rw [h] at h'; cases h'
        · rw [h] at h'; cases h'; rw [h1] at h2; cases h2)
    | some (r, rest) =>
      match h2 : loadObjs e.store l.disk l.uid r.types with
      | none => .isFalse (by
          rintro (h' | ⟨_, _, _, _, h', h3, h4⟩)
          · rw [h] at h'; cases h'
          · rw [h] at h'; cases h'; rw [h1] at h3; cases h3; rw [h2] at h4; cases h4)
      | some os => .isTrue (.inr ⟨b, r, rest, os, h, h1, h2⟩)

/-- Whenever `C_Initialize` is called, the files can be read. -/
def AlwaysReadable (e : Env) : Lib → List Event → Prop
  | _, [] => True
  | l, v :: vs => (v = .call .cInit → Readable e l) ∧ AlwaysReadable e (v.next e l) vs

end Verif
