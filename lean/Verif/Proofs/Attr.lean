import Verif.Spec.Attr

/-! Lemmas about attributes. -/

namespace Verif

/-- The shapes `getAttr` takes as a function of the buffer. -/
inductive GShape : (Bool → Nat → GRet) → Prop where
  | data (v : Bytes) : GShape (getData v)
  | none : GShape (fun _ _ => getNone)
  | notAvail : GShape (fun _ len => getNotAvail len)
  | empty : GShape (fun _ _ => { ret := .ok, len := 0 })
  | ub : GShape (fun _ len => { ret := .ub, len })

theorem rsa_shape (o : Obj) (a : CKA) : GShape (rsaGetAttr o a) := by
  unfold rsaGetAttr
  cases h : (o.noPriv || o.rsa.d == 0) <;> cases a <;>
    first | exact .data _ | exact .none | exact .notAvail | (simp only [h]; first | exact .data _ | exact .none)

theorem dh_shape (o : Obj) (a : CKA) : GShape (dhGetAttr o a) := by
  unfold dhGetAttr
  cases h : (o.cls != CKO_PRIVATE_KEY || !o.noPriv) <;> cases a <;>
    first | exact .data _ | exact .none | exact .notAvail | (simp only [h]; first | exact .data _ | exact .none)

theorem secret_shape (o : Obj) (a : CKA) (h : a = .value → o.symm.length ≤ 512) :
    GShape (secretGetAttr o a) := by
  unfold secretGetAttr
  cases h1 : o.noPriv <;> cases a <;>
    first
    | exact .notAvail | exact .data _
    | (simp only [Bool.false_eq_true, if_false, if_true]; first
        | exact .none
        | (have := h rfl
           have e : decide (o.symm.length > maxSymKey) = false := by simp [maxSymKey]; omega
           simp only [e, Bool.false_and, Bool.false_eq_true, if_false]
           exact .data _))

theorem ecParams_shape (k : EcKey) : GShape (getEcParams k) := by
  unfold getEcParams
  cases k.dp <;> first | exact .ub | exact .data _

theorem ec_shape (x : KeyExt) (o : Obj) (a : CKA) (h : a ≠ .ecPoint) : GShape (ecGetAttr x o a) := by
  unfold ecGetAttr
  cases h1 : (o.noPriv || o.ec.typ == .pub) <;> cases a <;>
    first
    | exact absurd rfl h
    | exact .notAvail
    | exact ecParams_shape _
    | (simp only [h1]; first | exact .data _ | exact .none)

theorem getAttr_shape (x : KeyExt) (o : Obj) (a : CKA)
    (hp : a = .ecPoint → o.typ ≠ CKK_EC)
    (hs : a = .value → o.symm.length ≤ 512) : GShape (getAttr x o a) := by
  have key : GShape (getKeyAttr x o a) := by
    unfold getKeyAttr
    by_cases h1 : o.cls = CKO_CERTIFICATE ∧ a = .value
    · simp only [if_pos h1]; exact .data _
    · simp only [if_neg h1]
      by_cases hm : misread o a = true
      · simp only [if_pos hm]; exact .ub
      simp only [if_neg hm]
      by_cases h2 : o.typ = CKK_RSA
      · simp only [if_pos h2]; exact rsa_shape o a
      · simp only [if_neg h2]
        by_cases h3 : o.typ = CKK_EC
        · simp only [if_pos h3]; exact ec_shape x o a (fun e => hp e h3)
        · simp only [if_neg h3]
          by_cases h4 : o.typ = CKK_DH
          · simp only [if_pos h4]; exact dh_shape o a
          · simp only [if_neg h4]
            by_cases h5 : o.typ = CKK_AES ∨ o.typ = CKK_GENERIC_SECRET
            · simp only [if_pos h5]; exact secret_shape o a hs
            · simp only [if_neg h5]; exact .notAvail
  cases a <;>
    first
    | exact key
    | exact .data _
    | exact .notAvail
    | (show GShape (fun buf len => if o.startDate.headD 0 = 0 then _ else _)
       by_cases h : o.startDate.headD 0 = 0
       · simp only [if_pos h]; exact .empty
       · simp only [if_neg h]; exact .data _)
    | (show GShape (fun buf len => if o.endDate.headD 0 = 0 then _ else _)
       by_cases h : o.endDate.headD 0 = 0
       · simp only [if_pos h]; exact .empty
       · simp only [if_neg h]; exact .data _)

theorem GShape.wr_le {f : Bool → Nat → GRet} (h : GShape f) (buf : Bool) (len : Nat) :
    (f buf len).wr.length ≤ len := by
  cases h <;> try simp [getNone, getNotAvail]
  rename_i v
  unfold getData
  cases buf
  · simp
  · simp only [Bool.not_true, Bool.false_eq_true, if_false]
    split
    · simp
    · simp; omega

theorem misread_ec {o : Obj} (h : o.typ = CKK_EC) (a : CKA) : misread o a = false := by
  have n1 : (CKK_EC == CKK_RSA) = false := by decide
  have n2 : (CKK_EC == CKK_DH) = false := by decide
  simp [misread, h, n1, n2]

theorem misread_key {o : Obj} (h : o.cls ≠ CKO_CERTIFICATE) (a : CKA) : misread o a = false := by
  simp [misread, h]

end Verif
