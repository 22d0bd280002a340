import Verif.Model.ConcPin

/-!
# PIN changes of several threads, as a caller understands them
-/

namespace Verif

/-- The account whose PIN a thread is changing, if it is inside `C_SetPIN` or `C_InitPIN`. -/
def Sp.who : Sp → Option Who
  | .idle => none
  | .old w _ _ | .oldHash w _ _ | .oldCmp w _ _ | .start w _ | .seeded w _ | .hashed w _ _
  | .storing w _ => some w
  | .pinned _ | .keyHashed _ _ => some .user

/-- The PIN a thread is about to set. -/
def Sp.new : Sp → Bytes
  | .idle => []
  | .old _ _ n | .oldHash _ _ n | .oldCmp _ _ n | .start _ n | .seeded _ n | .hashed _ n _
  | .storing _ n | .pinned n | .keyHashed n _ => n

/-- No thread is changing the PIN of this account. -/
def Chg.Still (s : Chg) (w : Who) : Prop := ∀ t, (s.sp t).who ≠ some w

/-- A PIN is set. -/
def Pins.set (p : Pins) (w : Who) (pin : Bytes) : Pins :=
  match w with
  | .so => { p with so := some pin }
  | .user => { p with user := some pin }

/-- What the status returned at an event means for the PINs: a thread returns from
`C_SetPIN`, `C_InitPIN` and says that its PIN is set (as before, `CKR_FUNCTION_FAILED` means
that it is set and could not be written to the directory). -/
def Pins.event' (p : Pins) (s : Chg) (v : PEv) (rv : Option RV) : Pins :=
  match v with
  | .go t =>
    match (s.sp t).who with
    | some w => if rv = some .ok ∨ rv = some .functionFailed then p.set w (s.sp t).new else p
    | none => p
  | _ => p

/-- The PINs after a schedule. -/
def pinsAt (e : Env) : Chg → Pins → List PEv → Pins
  | _, p, [] => p
  | s, p, v :: vs => pinsAt e (s.step e v).1 (p.event' s v (s.step e v).2) vs

/-- Calls that do not load or reset the token and do not set a PIN (in these schedules PINs
are set by the calls made in parts). -/
def KeepsPins : Call → Prop
  | .cInit | .cFinal => False
  | .slot _ (.initToken _ _) => False
  | .sess _ (.initPin _) | .sess _ (.setPin _ _) => False
  | _ => True

/-- The whole calls of a schedule keep the PINs. -/
def OnlyParts (vs : List PEv) : Prop := ∀ c, PEv.base (.call c) ∈ vs → KeepsPins c

/-- At no moment two threads are inside a change of the PIN of the same account. -/
def ChangesApart (e : Env) : Chg → List PEv → Prop
  | s, [] => ∀ t u w, (s.sp t).who = some w → (s.sp u).who = some w → t = u
  | s, v :: vs => (∀ t u w, (s.sp t).who = some w → (s.sp u).who = some w → t = u) ∧
      ChangesApart e (s.step e v).1 vs

/-- All threads are outside `C_Login`, `C_SetPIN`, `C_InitPIN`. -/
def Chg.Calm (s : Chg) : Prop := ∀ t, s.base.pc t = .idle ∧ s.sp t = .idle

end Verif
