import Verif.Props.Fault
import Verif.Props.Lasting

/-!
# C96, C98: key pairs generated while the storage fails
-/

namespace Verif

namespace Demo

set_option maxRecDepth 100000 in
/-- C96 fails for generated pairs: the storage refuses everything, `C_GenerateKeyPair` reports
success, and the next process has neither key. -/
theorem c96_violated_generate :
    let l := run keepEnv fresh withKey
    let f := List.replicate 20 Fault.refuse
    (answerF keepEnv f l keptGen).rv = .ok ∧ (answerF keepEnv f l keptGen).handle = some (tok1 + 1) ∧
    (answerF keepEnv f l keptGen).priv = some (tok1 + 2) ∧
    rvs keepEnv (afterDeath (stepF keepEnv f l keptGen).1) (next userPin) = [.ok, .ok, .ok] ∧
    (∀ k ∈ [tok1 + 1, tok1 + 2],
      (answer keepEnv (run keepEnv (afterDeath (stepF keepEnv f l keptGen).1) (next userPin)) (readValue k)).rv =
        .objectHandleInvalid) := by
  decide +kernel

set_option maxRecDepth 100000 in
/-- One file that cannot be opened, and all is lost: the storage refuses only the file of the new
private key, `C_GenerateKeyPair` reports success, and the next process finds no token at all.  The
user has no PIN and the key imported before is gone. -/
theorem c96_violated_all :
    let l := run keepEnv fresh withKey
    let f := List.replicate 6 Fault.none ++ [.refuse]
    shownValue keepEnv l tok1 = some [(16, some (List.replicate 16 7))] ∧
    (answerF keepEnv f l keptGen).rv = .ok ∧
    rvs keepEnv (afterDeath (stepF keepEnv f l keptGen).1) (next userPin) = [.ok, .ok, .userPinNotInitialized] ∧
    (∀ k ∈ [tok1, tok1 + 1, tok1 + 2],
      (answer keepEnv (run keepEnv (afterDeath (stepF keepEnv f l keptGen).1) (next userPin)) (readValue k)).rv =
        .objectHandleInvalid) := by
  decide +kernel

set_option maxRecDepth 100000 in
/-- A pair of `c98_inside` whose second key meets a failure that the first one has left: the answer
is the usual one, the file is not there. -/
example : MakesOrDestroys keptGen ∧
    (stepF keepEnv (List.replicate 6 Fault.none ++ [.refuse]) (run keepEnv fresh withKey) keptGen).1.disk (.rsaPriv, 2) = none ∧
    (step keepEnv (run keepEnv fresh withKey) keptGen).1.disk (.rsaPriv, 2) ≠ none :=
  ⟨trivial, by decide +kernel, by decide +kernel⟩

end Demo

end Verif
