import Verif.Proofs.Codec

/-!
# C33: what is written to storage reads back
-/

namespace Verif

/-- C33 for the scalars and arrays: each value in range reads back, from the place where
it was written, whatever follows in the file; a file that ends inside it is refused. -/
theorem c33_scalars :
    (∀ v : Nat, v < 2 ^ 64 → ReadsBack Rd.ulong (wrUlong v) v) ∧
    (∀ v : BitVec 32, ReadsBack Rd.word32 (wrWord32 v) v) ∧
    (∀ v : Int, IsInt v → ReadsBack Rd.int (wrInt v) v) ∧
    (∀ v : Int, IsTime v → ReadsBack Rd.time (wrTime v) v) ∧
    (∀ v : Bytes, v.length < 2 ^ 31 → ReadsBack Rd.allocArray (wrArray v) v) ∧
    (∀ (v : Bytes) (max : Nat), v.length ≤ max → max < 2 ^ 32 → ReadsBack (Rd.array max) (wrArray v) v) :=
  ⟨fun _ => ReadsBack.ulong, ReadsBack.word32, fun _ => ReadsBack.int, fun _ => ReadsBack.time,
   fun _ => ReadsBack.allocArray, fun _ _ h h' => ReadsBack.array h (by omega)⟩

/-- C33 for objects: reading the file written for `o` into a new object `o₀` gives it
every stored field of `o`; fields that are kept elsewhere (key data, type) are those of
`o₀`. -/
theorem c33_object (o o₀ : Obj) (h : o.Fits) :
    ReadsBack (rdObject o₀) (wrObject o)
      { o₀ with iv := o.iv, handle := o.handle, cls := o.cls, keyGenMech := o.keyGenMech,
                onToken := o.onToken, local' := o.local', flag := o.flag, opFlag := o.opFlag,
                startDate := o.startDate, endDate := o.endDate, keyId := o.keyId, label := o.label } := by
  simp only [wrObject, List.append_assoc]
  refine ReadsBack.bind (ReadsBack.fixed h.iv) ?_
  refine ReadsBack.bind (ReadsBack.ulong h.handle) ?_
  refine ReadsBack.bind (ReadsBack.ulong h.cls) ?_
  refine ReadsBack.bind (ReadsBack.ulong h.mech) ?_
  refine ReadsBack.bind (ReadsBack.byte _) ?_
  refine ReadsBack.bind (ReadsBack.byte _) ?_
  refine ReadsBack.bind (ReadsBack.word32 _) ?_
  refine ReadsBack.bind (ReadsBack.word32 _) ?_
  refine ReadsBack.bind (ReadsBack.fixed h.start) ?_
  refine ReadsBack.bind (ReadsBack.fixed h.fin) ?_
  refine ReadsBack.bind (ReadsBack.allocArray h.keyId) ?_
  have := ReadsBack.bind (ReadsBack.allocArray h.label) (ReadsBack.pure (
      { o₀ with iv := o.iv, handle := o.handle, cls := o.cls, keyGenMech := o.keyGenMech,
                onToken := (if o.onToken then 1 else 0 : UInt8) != 0,
                local' := (if o.local' then 1 else 0 : UInt8) != 0, flag := o.flag, opFlag := o.opFlag,
                startDate := o.startDate, endDate := o.endDate, keyId := o.keyId, label := o.label } : Obj))
    (f := fun l => Rd.pure (
      { o₀ with iv := o.iv, handle := o.handle, cls := o.cls, keyGenMech := o.keyGenMech,
                onToken := (if o.onToken then 1 else 0 : UInt8) != 0,
                local' := (if o.local' then 1 else 0 : UInt8) != 0, flag := o.flag, opFlag := o.opFlag,
                startDate := o.startDate, endDate := o.endDate, keyId := o.keyId, label := l } : Obj))
  simp only [byte_ne_zero, List.append_nil] at this
  simp only [byte_ne_zero]
  exact this

theorem readsBack_account (a : Account) (h : a.Fits) : ReadsBack rdAccount (wrAccount a) a := by
  simp only [wrAccount, List.append_assoc]
  refine ReadsBack.bind (ReadsBack.array h.pin (by have := h.pin; omega)) ?_
  refine ReadsBack.bind (ReadsBack.fixed h.seed) ?_
  refine ReadsBack.bind (ReadsBack.int h.fails) ?_
  refine ReadsBack.bind (ReadsBack.time h.last) ?_
  exact ReadsBack.map (fun t => ({ a with timeout := t } : Account)) (ReadsBack.time h.timeout)

theorem readsBack_types (l : List Nat) (h : ∀ k ∈ l, k < 2 ^ 64) :
    ReadsBack (rdTypes l.length) (l.map wrUlong).flatten l := by
  induction l with
  | nil => exact ReadsBack.pure _
  | cons k l ih =>
    refine ReadsBack.bind (ReadsBack.ulong (h k (by simp))) ?_
    exact ReadsBack.map (fun ts => k :: ts) (ih fun j hj => h j (by simp [hj]))

/-- C33 for tokens. -/
theorem c33_token (t : TokenRec) (h : t.Fits) : ReadsBack rdToken (wrToken t) t := by
  simp only [wrToken, List.append_assoc]
  refine ReadsBack.bind (ReadsBack.fixed h.label) ?_
  refine ReadsBack.bind (readsBack_account _ h.so) ?_
  refine ReadsBack.bind (readsBack_account _ h.user) ?_
  refine ReadsBack.bind (ReadsBack.fixed h.seed) ?_
  refine ReadsBack.bind (ReadsBack.int (by have := h.cnt; constructor <;> omega)) ?_
  exact ReadsBack.map (fun ts => ({ t with types := ts } : TokenRec))
    (by simpa using readsBack_types t.types h.types)

/-- Non-vacuity: a record with an object, a negative time and both PINs set. -/
example : TokenRec.Fits
    { label := List.replicate 32 65, so := { pin := List.replicate 32 1, fails := 2, last := -5 },
      user := { pin := List.replicate 32 2, timeout := 60 }, seed := List.replicate 16 9,
      types := [CKK_AES, CKK_RSA] } := by
  refine ⟨by decide, ⟨by decide, by decide, by unfold IsInt; decide, by unfold IsTime; decide, by unfold IsTime; decide⟩,
    ⟨by decide, by decide, by unfold IsInt; decide, by unfold IsTime; decide, by unfold IsTime; decide⟩,
    by decide, by decide, by decide⟩

example : Obj.Fits { handle := 0x10000001, cls := CKO_SECRET_KEY, keyId := [1, 2], label := [65] } := by
  constructor <;> decide

end Verif
