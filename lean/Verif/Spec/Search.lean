import Verif.Spec.Objs

/-!
# Whether a session has a search in progress
-/

namespace Verif

/-- The answers of `C_FindObjectsInit` after which a search is in progress: success; and in the code, which is
what `asIs` says, also the refusal because of the template. -/
def searchBegun (asIs : Bool) (rv : RV) : Bool := rv == .ok || (asIs && rv == .attributeValueInvalid)

/-- Whether session `h` has a search in progress, while it stays open: `C_FindObjectsInit` in `h` begins one,
`C_FindObjectsFinal` that succeeds in `h` ends it. -/
def searchSeen (asIs : Bool) (e : Env) (h : Nat) (l : Lib) (acc : Bool) : Call → Bool
  | .sess j (.findInit t) => if j = h ∧ searchBegun asIs (answer e l (.sess j (.findInit t))).rv = true then true else acc
  | .sess j .findFinal => if j = h ∧ (answer e l (.sess j .findFinal)).rv = .ok then false else acc
  | _ => acc

/-- The same after one more call: none in progress while the session is closed. -/
def searchNoted (asIs : Bool) (e : Env) (h : Nat) (l : Lib) (acc : Bool) (c : Call) : Bool :=
  if (sessionInfo e (step e l c).1 h).rv = .ok then searchSeen asIs e h l acc c else false

/-- Whether a search is in progress in session `h` after a history. -/
def searchOn (asIs : Bool) (e : Env) (h : Nat) (l : Lib) : List Call → Bool → Bool
  | [], acc => acc
  | c :: cs, acc => searchOn asIs e h (step e l c).1 cs (searchNoted asIs e h l acc c)

/-- `C_FindObjectsInit` in session `h` that is refused because of its template. -/
def BadSearch (e : Env) (l : Lib) (h : Nat) : Call → Prop
  | .sess j (.findInit t) => j = h ∧ (answer e l (.sess j (.findInit t))).rv = .attributeValueInvalid
  | _ => False

instance (e : Env) (l : Lib) (h : Nat) (c : Call) : Decidable (BadSearch e l h c) := by
  unfold BadSearch
  split <;> infer_instance

end Verif
