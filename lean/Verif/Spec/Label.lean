import Verif.Spec.Lives

/-!
# The label of a token, as a caller understands it
-/

namespace Verif

/-- What the answer of one call means for the label. -/
def labelNext (lab : Option Bytes) (r : Resp) : Call → Option Bytes
  | .slot _ (.initToken _ (some b)) => if r.rv = .ok then some b else lab
  | _ => lab

/-- The label after some events: that of the last `C_InitToken` that succeeded. -/
def labelLive (e : Env) : Lib → Option Bytes → List Event → Option Bytes
  | _, lab, [] => lab
  | l, lab, .call c :: vs => labelLive e (step e l c).1 (labelNext lab (answer e l c) c) vs
  | l, lab, .killed :: vs => labelLive e (Event.killed.next e l) lab vs

/-- The labels given are 32 bytes long, as the standard says. -/
def FullLabels (vs : List Event) : Prop :=
  ∀ i pin b, Event.call (.slot i (.initToken pin (some b))) ∈ vs → b.length = 32

/-- What `C_GetTokenInfo` reports as the label: blanks if there is none; a label that begins
with a zero byte counts as none. -/
def shownLabel : Option Bytes → Bytes
  | none => List.replicate 32 32
  | some b => if b.head? = some 0 then List.replicate 32 32 else b

end Verif
