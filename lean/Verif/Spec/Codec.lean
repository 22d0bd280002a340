import Verif.Model.Codec

/-!
# What it means that a record reads back
-/

namespace Verif

/-- Reading with `r` from a file that continues with `w` gives `v` and stops exactly
behind `w`, whatever follows; and a file that ends anywhere inside `w` is refused. -/
def ReadsBack {α : Type} (r : Rd α) (w : Bytes) (v : α) : Prop :=
  (∀ rest, r (w ++ rest) = some (v, rest)) ∧
  (∀ n, n < w.length → r (w.take n) = none)

/-- Objects whose fields fit their C types: `CK_ULONG` of 64 bits, arrays of fixed
length, `int` lengths. -/
structure Obj.Fits (o : Obj) : Prop where
  iv : o.iv.length = 12
  handle : o.handle < 2 ^ 64
  cls : o.cls < 2 ^ 64
  mech : o.keyGenMech < 2 ^ 64
  start : o.startDate.length = 8
  fin : o.endDate.length = 8
  keyId : o.keyId.length < 2 ^ 31
  label : o.label.length < 2 ^ 31

/-- Values of C's `int`. -/
def IsInt (v : Int) : Prop := -2 ^ 31 ≤ v ∧ v < 2 ^ 31

/-- Values of a 64-bit `time_t`. -/
def IsTime (v : Int) : Prop := -2 ^ 63 ≤ v ∧ v < 2 ^ 63

/-- Accounts whose fields fit their C types. -/
structure Account.Fits (a : Account) : Prop where
  pin : a.pin.length ≤ 32
  seed : a.seed.length = 16
  fails : IsInt a.fails
  last : IsTime a.last
  timeout : IsTime a.timeout

/-- Token records whose fields fit their C types. -/
structure TokenRec.Fits (t : TokenRec) : Prop where
  label : t.label.length = 32
  so : t.so.Fits
  user : t.user.Fits
  seed : t.seed.length = 16
  cnt : t.types.length < 2 ^ 31
  types : ∀ k ∈ t.types, k < 2 ^ 64

end Verif
