import Verif.Spec.OneSlip
import Verif.Props.Orderly
import Verif.Props.Reload

/-!
# The rules for orderly applications are needed
Each theorem gives a history in which a single call does not obey the rules of `Orderly`, every
call succeeds, the user is logged in at the end, and an object of the token has lost its value.
-/

namespace Verif

namespace Demo

/-- The value 7, 7, … of the key of `withKey`. -/
def sevens : Option (List (Nat × Option Bytes)) := some [(16, some (List.replicate 16 7))]

set_option maxRecDepth 100000 in
/-- The rule that the user logs out before the last `C_Finalize` is needed in C125: after a
change of the PIN the key is lost without it. -/
theorem c125_needed_logout :
    let before := withKey ++ [.sess 65538 (.setPin (some userPin) (some newPin))]
    let after := [.cInit, openCall true, loginCall 65538 .user newPin 0]
    OneSlip env fresh before .cFinal after ∧ rvs env fresh (before ++ [.cFinal] ++ after) = List.replicate 13 .ok ∧
    shownValue env (run env fresh before) tok1 = sevens ∧
    stateOf env (run env fresh (before ++ [.cFinal] ++ after)) 65538 = some .rwUser ∧
    shownValue env (run env fresh (before ++ [.cFinal] ++ after)) tok1 ≠ sevens := by
  refine ⟨⟨ordered_of (by decide +kernel), fun h => ?_, ordered_of (by decide +kernel)⟩, by decide +kernel, by decide +kernel,
    by decide +kernel, by decide +kernel⟩
  exact h (by decide +kernel) (by decide +kernel)

set_option maxRecDepth 100000 in
/-- The rule that the token is initialised only while it is empty is needed in C125. -/
theorem c125_needed_wipe :
    let before := withKey ++ [.sess 65538 .close]
    let slip := .slot 1 (.initToken (some soPin) (some label))
    let after := [openCall true, loginCall 65538 .so soPin 0, .sess 65538 (.initPin (some userPin)), .sess 65538 .logout,
      loginCall 65538 .user userPin 0]
    OneSlip env fresh before slip after ∧ rvs env fresh (before ++ [slip] ++ after) = List.replicate 15 .ok ∧
    shownValue env (run env fresh withKey) tok1 = sevens ∧
    stateOf env (run env fresh (before ++ [slip] ++ after)) 65538 = some .rwUser ∧
    shownValue env (run env fresh (before ++ [slip] ++ after)) tok1 ≠ sevens := by
  refine ⟨⟨ordered_of (by decide +kernel), fun h => ?_, ordered_of (by decide +kernel)⟩, by decide +kernel, by decide +kernel,
    by decide +kernel, by decide +kernel⟩
  exact absurd (List.isEmpty_iff.mpr (h : tokenObjs _ = [])) (by decide +kernel)

set_option maxRecDepth 100000 in
/-- The rule that the security officer sets the user's PIN only while the token is empty is
needed in C125. -/
theorem c125_needed_so :
    let before := withKey ++ [.sess 65538 .logout, loginCall 65538 .so soPin 0]
    let slip := .sess 65538 (.initPin (some newPin))
    let after := [.sess 65538 .logout, loginCall 65538 .user newPin 0]
    OneSlip env fresh before slip after ∧ rvs env fresh (before ++ [slip] ++ after) = List.replicate 13 .ok ∧
    shownValue env (run env fresh withKey) tok1 = sevens ∧
    stateOf env (run env fresh (before ++ [slip] ++ after)) 65538 = some .rwUser ∧
    shownValue env (run env fresh (before ++ [slip] ++ after)) tok1 ≠ sevens := by
  refine ⟨⟨ordered_of (by decide +kernel), fun h => ?_, ordered_of (by decide +kernel)⟩, by decide +kernel, by decide +kernel,
    by decide +kernel, by decide +kernel⟩
  exact absurd (List.isEmpty_iff.mpr (h (by decide +kernel) : tokenObjs _ = [])) (by decide +kernel)

set_option maxRecDepth 100000 in
/-- The rule that the PIN is changed in a public session only while the token is empty is needed
in C125. -/
theorem c125_needed_public :
    let before := withKey ++ [.sess 65538 .logout]
    let slip := .sess 65538 (.setPin (some userPin) (some newPin))
    let after := [loginCall 65538 .user newPin 0]
    OneSlip env fresh before slip after ∧ rvs env fresh (before ++ [slip] ++ after) = List.replicate 11 .ok ∧
    shownValue env (run env fresh withKey) tok1 = sevens ∧
    stateOf env (run env fresh (before ++ [slip] ++ after)) 65538 = some .rwUser ∧
    shownValue env (run env fresh (before ++ [slip] ++ after)) tok1 ≠ sevens := by
  refine ⟨⟨ordered_of (by decide +kernel), fun h => ?_, ordered_of (by decide +kernel)⟩, by decide +kernel, by decide +kernel,
    by decide +kernel, by decide +kernel⟩
  exact absurd (List.isEmpty_iff.mpr (h (by decide +kernel) : tokenObjs _ = [])) (by decide +kernel)

set_option maxRecDepth 100000 in
/-- The rule that token keys are made while the user is logged in is needed in C125. -/
theorem c125_needed_login :
    let before := setup ++ [.sess 65538 .logout, .cFinal, .cInit, openCall true]
    let slip := createCall 65538 (openTmpl true 7)
    let after := restart userPin
    OneSlip env fresh before slip after ∧ rvs env fresh (before ++ [slip] ++ after) = List.replicate 16 .ok ∧
    shownValue env (run env fresh (before ++ [slip])) tok1 = sevens ∧
    stateOf env (run env fresh (before ++ [slip] ++ after)) 65538 = some .rwUser ∧
    shownValue env (run env fresh (before ++ [slip] ++ after)) tok1 ≠ sevens := by
  refine ⟨⟨ordered_of (by decide +kernel), fun h => ?_, ordered_of (by decide +kernel)⟩, by decide +kernel, by decide +kernel,
    by decide +kernel, by decide +kernel⟩
  exact absurd (h (by decide +kernel)).1 (by decide +kernel)

set_option maxRecDepth 100000 in
/-- The rule that objects of the token are keys, not certificates, is needed in C125. -/
theorem c125_needed_kind :
    let before := setup
    let slip := createCall 65538 (certTmpl [1, 2, 3])
    let after := .sess 65538 .logout :: restart userPin
    OneSlip env fresh before slip after ∧ rvs env fresh (before ++ [slip] ++ after) = List.replicate 13 .ok ∧
    shownValue env (run env fresh (before ++ [slip])) tok1 = some [(3, some ([1, 2, 3] ++ List.replicate 13 0))] ∧
    stateOf env (run env fresh (before ++ [slip] ++ after)) 65538 = some .rwUser ∧
    shownValue env (run env fresh (before ++ [slip] ++ after)) tok1 ≠ some [(3, some ([1, 2, 3] ++ List.replicate 13 0))] := by
  refine ⟨⟨ordered_of (by decide +kernel), fun h => ?_, ordered_of (by decide +kernel)⟩, by decide +kernel, by decide +kernel,
    by decide +kernel, by decide +kernel⟩
  have hs : ¬ SaysCert (certTmpl [1, 2, 3]) := by
    rcases (h (by decide +kernel)).2 with h | h | h
    · exact h.1.cls
    · exact h.1.fits.cls
    · exact h.1.fits.cls
  exact hs ⟨_, List.mem_cons_self, rfl, by decide⟩

end Demo

end Verif
