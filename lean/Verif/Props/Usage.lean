import Verif.Spec.Usage
import Verif.Props.Objs
import Verif.Props.AttrData
/-!
# Use of keys

C27: exporting keys with `C_WrapKey`.  C56: use of keys according to their attributes.
-/
namespace Verif

variable {e : Env}

theorem findObj_addressed {l : Lib} {h k : Nat} {s : Session} {o : Obj} (hs : getSession l h = some s)
    (hf : findObj l s k = some o) : Addressed l h k o := by
  unfold findObj at hf
  refine ⟨?_, by simpa using List.find?_some hf⟩
  have hm := List.mem_of_find?_eq_some hf
  unfold sessObjs tokenObjs
  rw [hs]
  split at hm
  · exact List.mem_append_right _ hm
  · exact List.mem_append_left _ hm

theorem initCall_serves {x : Crypto} {k : Kind} {s : OpSt} {o : Obj} {m : Mech} {p : MechParam}
    (h : (initCall x k s o m p).2 = .ok) : serves k m = some o.typ := by
  have plain : ∀ t i, (plainInit s o t m p i).2 = .ok → o.typ = t := by
    intro t i h
    unfold plainInit at h
    split at h
    · cases h
    · rename_i ht; exact Decidable.not_not.mp ht
  have oaep : ∀ i, (oaepInit s o p i).2 = .ok → o.typ = CKK_RSA := by
    intro i h
    unfold oaepInit at h
    split at h
    · cases h
    · rename_i ht; exact Decidable.not_not.mp ht
  have pss : ∀ i, (pssInit s o p i).2 = .ok → o.typ = CKK_RSA := by
    intro i h
    unfold pssInit at h
    split at h
    · cases h
    · rename_i ht; exact Decidable.not_not.mp ht
  have cbc : ∀ i, (cbcInit s o m p i).2 = .ok → o.typ = CKK_AES := by
    intro i h
    unfold cbcInit at h
    split at h
    · cases h
    · rename_i ht; exact Decidable.not_not.mp ht
  have gcm : ∀ i, (gcmInit s o p i).2 = .ok → o.typ = CKK_AES := by
    intro i h
    unfold gcmInit at h
    split at h
    · cases h
    · rename_i ht; exact Decidable.not_not.mp ht
  have hmac : ∀ a i, (hmacInit x s o a p i).2 = .ok → o.typ = CKK_GENERIC_SECRET := by
    intro a i h
    unfold hmacInit at h
    split at h
    · cases h
    · rename_i ht; exact Decidable.not_not.mp ht
  cases k <;> simp only [initCall, encryptInit, decryptInit, signInit, verifyInit] at h <;>
    (cases m <;> first
      | (cases h; done)
      | (simp only [serves]; first
          | rw [plain _ _ h] | rw [oaep _ h] | rw [pss _ h] | rw [cbc _ h] | rw [gcm _ h] | rw [hmac _ _ h]))

/-- **C56, the part that holds**: the `…Init` functions accept only keys of the type the
mechanism is for, and only mechanisms of that kind of operation. That the usage
attributes are not looked at is `c56_violated`. -/
theorem c56_partial {l : Lib} {h key : Nat} {k : Kind} {m : Mech} {p : MechParam}
    (hok : (answer e l (.sess h (.cryptInit k (some (m, p)) key))).rv = .ok) :
    ∃ o, Addressed l h key o ∧ serves k m = some o.typ := by
  unfold answer at hok
  cases hb : l.bad with
  | true => rw [step_bad hb] at hok; cases hok
  | false =>
    rw [step_resp hb] at hok
    simp only [callBody] at hok
    split at hok; · cases hok
    split at hok; · cases hok
    rename_i s hs
    simp only [sessCall, cCryptInit] at hok
    split at hok; · cases hok
    rename_i o ho
    split at hok; · cases hok
    exact ⟨o, findObj_addressed hs ho, initCall_serves hok⟩

/-- **C27, the part that holds**: `C_WrapKey` gives something away only of RSA private
keys, encrypted with an AES key by the mechanism `CKM_AES_CBC_PAD`, in a read/write
session. That `CKA_EXTRACTABLE` and `CKA_SENSITIVE` are not looked at is `c27_violated`. -/
theorem c27_partial {l₀ : Lib} (h₀ : Start l₀) (cs : List Call) {h wk key : Nat} {m : Mech} {p : MechParam} {ob : OutBuf}
    (hout : (answer e (run e l₀ cs) (.sess h (.wrap (some (m, p)) wk key ob))).out ≠ none) :
    OpenAs e (run e l₀ cs) h true ∧ m = .aesCbcPad ∧
    (∃ o, Addressed (run e l₀ cs) h key o ∧ o.cls = CKO_PRIVATE_KEY ∧ o.typ = CKK_RSA) ∧
    (∃ w, Addressed (run e l₀ cs) h wk w ∧ w.typ = CKK_AES) := by
  have hi : SInv (run e l₀ cs) := h₀.sinv.run e cs
  generalize run e l₀ cs = l at *
  unfold answer at hout
  cases hb : l.bad with
  | true => rw [step_bad hb] at hout; exact absurd rfl hout
  | false =>
    rw [step_resp hb] at hout
    simp only [callBody] at hout
    split at hout; · exact absurd rfl hout
    split at hout; · exact absurd rfl hout
    rename_i s hs
    simp only [sessCall, cWrap] at hout
    split at hout; · exact absurd rfl hout
    split at hout; · exact absurd rfl hout
    rename_i hrw
    split at hout; · exact absurd rfl hout
    rename_i o ho
    split at hout; · exact absurd rfl hout
    rename_i w hw
    split at hout; · exact absurd rfl hout
    rename_i hwr
    split at hout; · exact absurd rfl hout
    split at hout; · exact absurd rfl hout
    rename_i hm
    split at hout; · exact absurd rfl hout
    rename_i hwt
    have hrw' : s.use = .rw := Decidable.not_not.mp hrw
    simp only [wrappable, Bool.not_eq_true', Bool.not_eq_false, Bool.and_eq_true, beq_iff_eq] at hwr
    exact ⟨(openAs_iff hi).mpr ⟨hb, s, hs, by rw [hrw']; rfl⟩, Decidable.not_not.mp hm,
      ⟨o, findObj_addressed hs ho, hwr.1, hwr.2⟩, w, findObj_addressed hs hw, Decidable.not_not.mp hwt⟩

namespace Demo

/-- Reading one attribute of `n` bytes. -/
def readOne (h k : Nat) (a : CKA) (n : Nat) : Call := readCall h k [{ typ := a, mem := some (List.replicate n 9), len := n }]

/-- An RSA private key that must not leave the token, and an AES key. -/
def wrapHist : List Call := setup ++
  [createCall 65538 ([.of .cls (ulong CKO_PRIVATE_KEY), .of .keyType (ulong CKK_RSA), .of .modulus [0, 143],
    .of .publicExponent [3], .of .privateExponent [7], .of .sensitive (cbool true), .of .extractable (cbool false)]),
   createCall 65538 (aesTmpl false 1)]

/-- The call that exports it. -/
def wrapIt : Call := .sess 65538 (.wrap (some (.aesCbcPad, .raw (List.replicate 16 0))) 2 1 (.buf 16))

/-- **C27 fails**: a key created with `CKA_EXTRACTABLE` false and `CKA_SENSITIVE` true is
exported.  (In the toy environment the PKCS #8 form of the key is `[1, 2, 3]` and the
block cipher the identity.) -/
theorem c27_violated :
    ((sessObjs (run env fresh wrapHist) 65538).filter (·.handle == 1)).map
      (fun o => (decide o.Extractable, decide o.Sensitive)) = [(false, true)] ∧
    (answer env (run env fresh wrapHist) wrapIt).rv = .ok ∧
    (answer env (run env fresh wrapHist) wrapIt).out.map (·.wr) = some ([1, 2, 3] ++ List.replicate 13 13) := by decide

/-- An AES key and an RSA private key not to be used for anything. -/
def noUse : List Call := setup ++
  [createCall 65538 (aesTmpl false 1 ++ [.of .encrypt (cbool false)]),
   createCall 65538 ([.of .cls (ulong CKO_PRIVATE_KEY), .of .keyType (ulong CKK_RSA), .of .modulus [0, 143],
    .of .publicExponent [3], .of .privateExponent [7], .of .sign (cbool false)])]

/-- **C56 fails**: keys that read `CKA_ENCRYPT` and `CKA_SIGN` false are accepted for
encrypting and signing. -/
theorem c56_violated :
    (answers env (run env fresh noUse) [readOne 65538 1 .encrypt 1, readOne 65538 2 .sign 1]).map
      (fun r => (r.rv, r.tmpl.map fun t => t.map (·.val))) = [(.ok, some [[0]]), (.ok, some [[0]])] ∧
    (answer env (run env fresh noUse)
      (.sess 65538 (.cryptInit .encrypt (some (.aesCbc, .raw (List.replicate 16 0))) 1))).rv = .ok ∧
    (answer env (run env fresh noUse) (.sess 65538 (.cryptInit .sign (some (.rsaPkcs, .null 0)) 2))).rv = .ok := by
  decide

/-- Non-vacuity of `c56_partial` and of `c27_partial`. -/
example : (answer env (run env fresh noUse) (.sess 65538 (.cryptInit .sign (some (.rsaPkcs, .null 0)) 2))).rv = .ok ∧
    (answer env (run env fresh wrapHist) wrapIt).out ≠ none := by decide

end Demo

end Verif
