import Verif.Spec.Lives
import Verif.Spec.Codec

/-!
# The counts and times of failed logins as numbers of C
-/

namespace Verif

/-- The clock of the machine shows, at every `C_Login`, a time after 1 January 1970 and at most `B`
seconds later. -/
def ClockWithin (B : Int) (vs : List Event) : Prop :=
  ∀ h u pin now, Event.call (.sess h (.login u pin now)) ∈ vs → 0 ≤ now ∧ now ≤ B

/-- Every number computed from the counter and the times of an account, in `C_Login` and in
`C_GetTokenInfo`, is one of its C type, and the counter is between 0 and the limit of 3. -/
structure Account.NoOverflow (a : Account) : Prop where
  fails : 0 ≤ a.fails ∧ a.fails ≤ 3
  more : IsInt (a.fails + 1)
  last : IsTime a.last
  timeout : IsTime a.timeout
  longer : IsTime (a.timeout + 600)
  until' : IsTime (a.last + a.timeout)

end Verif
