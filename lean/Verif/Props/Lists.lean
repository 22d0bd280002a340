import Verif.Model.Lists
import Verif.Model.Op

/-!
# Slot and mechanism lists (C61, C73)
-/

namespace Verif

/-- The two-call protocol for a list of `items`: without an array the number of
elements is reported; an array with too few elements is refused and left alone; an
array with enough elements receives all of them, and their number is reported. -/
structure TwoCall (f : Bool → Nat → ListOut) (items : List Nat) (admitted : Nat → Prop) : Prop where
  query : ∀ c, f false c = { rv := .ok, wr := [], count := some items.length }
  small : ∀ c, c < items.length → f true c = { rv := .bufferTooSmall, wr := [], count := none }
  large : ∀ c, admitted c → items.length ≤ c →
    f true c = { rv := .ok, wr := items, count := some items.length }

/-- C61 for `C_GetMechanismList`, for every size of the array. -/
theorem c61_mechanism_list :
    TwoCall getMechanismList
      [0x0, 0x3, 0x1, 0x9, 0xD, 0x1040, 0x1041, 0x1050, 0x20, 0x21, 0x1082, 0x1085, 0x1087,
       0x211, 0x221, 0x256, 0x251, 0x261, 0x271] (fun _ => True) where
  query := fun _ => rfl
  small := by
    intro c h
    have h' : c < mechanismList.length := h
    simp [getMechanismList, h']
  large := by
    intro c _ h
    have h' : ¬ c < mechanismList.length := Nat.not_lt.mpr h
    simp only [getMechanismList, if_neg h']
    rfl

/-- C61 for `C_GetSlotList`: for arrays of fewer than 2^31 elements.  Missing: larger
counts, see `c61_violated_slot_list`. -/
theorem c61_slot_list_partial : TwoCall getSlotList [1] (fun c => c < 2 ^ 31) where
  query := fun _ => rfl
  small := by
    intro c h
    have : c = 0 := by simpa using h
    subst this; rfl
  large := by
    intro c h1 h2
    have h2 : 1 ≤ c := h2
    have hm : c % 2 ^ 32 = c := Nat.mod_eq_of_lt (by omega)
    have : ¬ toCInt c < (slotCnt : Int) := by
      simp only [toCInt, hm, if_pos h1, slotCnt]; omega
    simp only [getSlotList, if_neg this]
    rfl

example : getSlotList true 5 = { rv := .ok, wr := [1], count := some 1 } := by decide

/-- C61 fails for `C_GetSlotList`: a caller announcing room for 2^31 slots is told
that the array is too small for one. -/
theorem c61_violated_slot_list :
    ∃ c, c < 2 ^ 64 ∧ 1 ≤ c ∧ (getSlotList true c).rv = .bufferTooSmall :=
  ⟨2 ^ 31, by decide, by decide, by decide⟩

/-- Mechanism types with a name of their own are numbers different from `other`. -/
def Mech.Canon (m : Mech) : Prop :=
  match m with
  | .other n => n ∉ [0x0, 0x1, 0x3, 0x9, 0xD, 0x20, 0x21, 0x211, 0x221, 0x256, 0x251, 0x261, 0x271,
      0x350, 0x1040, 0x1041, 0x1050, 0x1051, 0x1080, 0x1082, 0x1085, 0x1087]
  | _ => True

/-- C73, first half: `C_GetMechanismInfo` knows exactly the mechanisms
`C_GetMechanismList` returns, each is returned once. -/
theorem c73_list_and_info_agree :
    (getMechanismList true 19).wr.Nodup ∧
    ∀ m : Mech, m.Canon → ((getMechanismInfo m).isSome ↔ m.num ∈ (getMechanismList true 19).wr) := by
  constructor
  · decide
  · intro m hm
    have e : (getMechanismList true 19).wr =
        [0x0, 0x3, 0x1, 0x9, 0xD, 0x1040, 0x1041, 0x1050, 0x20, 0x21, 0x1082, 0x1085, 0x1087,
         0x211, 0x221, 0x256, 0x251, 0x261, 0x271] := by decide
    rw [e]
    cases m with
    | other n =>
      simp only [getMechanismInfo, Mech.num]
      simp only [Mech.Canon] at hm
      constructor
      · intro h; cases h
      · intro h
        exfalso
        apply hm
        simp only [List.mem_cons, List.not_mem_nil, or_false] at h ⊢
        omega
    | hmac a => cases a <;> simp [getMechanismInfo, Mech.num]
    | _ => simp [getMechanismInfo, Mech.num]

/-- The information on mechanism `m` carries flag `f`. -/
def Advertises (m : Mech) (f : MFlag) : Prop := ∃ i, getMechanismInfo m = some i ∧ f ∈ i.flags

/-- C73, second half, never-direction: an `…Init` call for a mechanism that is not
advertised for the operation is refused with `CKR_MECHANISM_INVALID` and changes
nothing, whatever the session, key and parameter. -/
theorem c73_not_advertised (x : Crypto) (m : Mech) (s : OpSt) (o : Obj) (p : MechParam) :
    (¬ Advertises m .encrypt → encryptInit s o m p = (s, .mechanismInvalid)) ∧
    (¬ Advertises m .decrypt → decryptInit s o m p = (s, .mechanismInvalid)) ∧
    (¬ Advertises m .sign → signInit x s o m p = (s, .mechanismInvalid)) ∧
    (¬ Advertises m .verify → verifyInit x s o m p = (s, .mechanismInvalid)) := by
  refine ⟨fun h => ?_, fun h => ?_, fun h => ?_, fun h => ?_⟩ <;>
  · cases m with
    | hmac a =>
      first
      | rfl
      | (exfalso; apply h; cases a <;> exact ⟨_, rfl, by decide⟩)
    | _ =>
      first
      | rfl
      | (exfalso; apply h; exact ⟨_, rfl, by decide⟩)

/-- C73, second half, always-direction: every mechanism advertised for an operation is
accepted by the `…Init` call in every session, with a suitable key and parameter
(and, for HMAC, a key wolfCrypt accepts). -/
theorem c73_advertised (x : Crypto) (hx : ∀ a, ∃ k, x.mac.keyOk a k = true) (m : Mech) (s : OpSt) :
    (Advertises m .encrypt → ∃ o p, (encryptInit s o m p).2 = .ok) ∧
    (Advertises m .decrypt → ∃ o p, (decryptInit s o m p).2 = .ok) ∧
    (Advertises m .sign → ∃ o p, (signInit x s o m p).2 = .ok) ∧
    (Advertises m .verify → ∃ o p, (verifyInit x s o m p).2 = .ok) := by
  refine ⟨?_, ?_, ?_, ?_⟩ <;> rintro ⟨i, h1, h2⟩ <;> cases m with
  | hmac a =>
    first
    | (exfalso; cases a <;> (simp only [getMechanismInfo, Option.some.injEq] at h1; subst h1; revert h2; decide))
    | (obtain ⟨k, hk⟩ := hx a
       refine ⟨{ typ := CKK_GENERIC_SECRET, data := .symm k }, .null 0, ?_⟩
       simp [signInit, verifyInit, hmacInit, MechParam.isNone, HmacSt.start, Obj.symm, hk, OpSt.started])
  | _ =>
    first
    | (exfalso; cases h1; done)
    | (exfalso; simp only [getMechanismInfo, Option.some.injEq] at h1; subst h1; revert h2; decide)
    | exact ⟨{ typ := CKK_AES, data := .symm (List.replicate 16 0) }, .raw (List.replicate 16 0), rfl⟩
    | exact ⟨{ typ := CKK_AES, data := .symm (List.replicate 16 0) }, .gcm (List.replicate 12 0) none 128, rfl⟩
    | exact ⟨{ typ := CKK_RSA, data := .rsa {} }, .null 0, rfl⟩
    | exact ⟨{ typ := CKK_EC, data := .ec {} }, .null 0, rfl⟩
    | exact ⟨{ typ := CKK_RSA, data := .rsa {} }, .oaep (some .sha256) (some .sha256) true none, rfl⟩
    | exact ⟨{ typ := CKK_RSA, data := .rsa {} }, .pss (some .sha256) (some .sha256) 20, rfl⟩

example : Advertises .aesGcm .encrypt ∧ ¬ Advertises .aesGcm .sign :=
  ⟨⟨_, rfl, by decide⟩, by rintro ⟨i, h1, h2⟩; simp only [getMechanismInfo, Option.some.injEq] at h1
                           subst h1; revert h2; decide⟩

end Verif
