import Verif.Spec.Objs
import Verif.Spec.Attr

/-!
# Searching for objects, as a caller sees it
-/

namespace Verif

/-- `C_GetAttributeValue`, given a buffer of some size, answers that the attribute `a`
of the object has the value `v`. -/
def Reads (x : KeyExt) (o : Obj) (a : CKA) (v : Bytes) : Prop :=
  ∃ n rest, getAttributeValue x o [{ typ := a, mem := some (List.replicate n 0), len := n }] =
    (.ok, [{ typ := a, mem := some (v ++ rest), len := v.length }])

/-- A search template: attributes with the values asked for. -/
abbrev Wanted := List (CKA × Bytes)

/-- The caller's array of `CK_ATTRIBUTE`. -/
def Wanted.tmpl (w : Wanted) : List Entry := w.map fun p => Entry.of p.1 p.2

/-- The object has all the attributes asked for. -/
def Matching (x : KeyExt) (o : Obj) (w : Wanted) : Prop := ∀ p ∈ w, Reads x o p.1 p.2

/-- What the search shows at all: no object whose key is presently encrypted, and
without a login only objects with one of the usage attributes set (a bit of `opFlag`
other than the lowest).  That this is not the visibility PKCS #11 asks for is C23. -/
def Shown (login : Login) (o : Obj) : Prop :=
  o.encoded = false ∧ (login = .pub → o.opFlag ≠ 0 ∧ o.opFlag ≠ 1)

open Classical in
/-- The handles of the objects of a search in session `h`: of the session first, then of
the token. -/
noncomputable def hits (e : Env) (l : Lib) (h : Nat) (w : Wanted) : List Nat :=
  ((sessObjs l h ++ tokenObjs l).filter fun o => decide (Shown l.token.login o ∧ Matching e.key o w)).map (·.handle)

/-- How many handles one call of `C_FindObjects` in session `h` asks for: the argument
is converted to `int`. -/
def Call.asks (h : Nat) : Call → Nat
  | .sess k (.findNext true max) => if k = h then (toCInt max).toNat else 0
  | _ => 0

/-- How many handles a sequence of calls asks for in session `h`. -/
def asked (h : Nat) (cs : List Call) : Nat := (cs.map (Call.asks h)).sum

/-- A call that does not end the search of session `h`: it neither closes sessions nor
shuts the library down, and is not `C_FindObjectsFinal` in `h`. -/
def Call.KeepsSearch (h : Nat) : Call → Prop
  | .cFinal => False
  | .slot _ .closeAll => False
  | .sess k c => k = h → (c ≠ .close ∧ c ≠ .findFinal)
  | _ => True

end Verif
