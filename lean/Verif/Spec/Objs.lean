import Verif.Spec.Pin

/-!
# Objects, as a caller sees them
-/

namespace Verif

/-- The templates from which a call creates objects. -/
def SessCall.creates : SessCall → List (List Entry)
  | .create t _ => t.toList
  | .copy _ t _ => t.toList
  | .genKey _ t _ => t.toList
  | .genPair _ p q _ => p.toList ++ q.toList
  | .unwrap _ _ _ t _ => t.toList
  | .derive _ _ t _ => t.toList
  | _ => []

/-- The templates from which an API call creates objects. -/
def Call.creates : Call → List (List Entry)
  | .sess _ c => c.creates
  | _ => []

/-- The template with which a call changes an object. -/
def SessCall.sets : SessCall → List (List Entry)
  | .setAttr _ t => t.toList
  | _ => []

/-- The template with which an API call changes an object. -/
def Call.sets : Call → List (List Entry)
  | .sess _ c => c.sets
  | _ => []

/-- The templates of an API call that sets attributes. -/
def Call.templates (c : Call) : List (List Entry) := c.creates ++ c.sets

/-- `CKA_TOKEN` is used as what it is, a truth value: `CK_FALSE` or `CK_TRUE`. -/
def BoolToken (cs : List Call) : Prop :=
  ∀ c ∈ cs, ∀ t ∈ c.creates, ∀ en, findAttr t .token = some en → en.val = [0] ∨ en.val = [1]

/-- The random generator delivers as many bytes as asked for. -/
def RandLen (e : Env) : Prop := ∀ k n, (e.store.rand k n).length = n

/-- The objects of the token, from the one created last on. -/
def tokenObjs (l : Lib) : List Obj := l.token.objs

/-- The objects of the session with handle `h`. -/
def sessObjs (l : Lib) (h : Nat) : List Obj := ((getSession l h).map (·.objs)).getD []

/-- The handle `o` names an object in session `h`. -/
def Names (e : Env) (l : Lib) (h o : Nat) : Prop := (answer e l (.sess h (.size o true))).rv = .ok

/-- The template asks for a token object (`CKA_TOKEN` present and not false). -/
def ForToken (t : List Entry) : Prop := ∃ en, findAttr t .token = some en ∧ en.val.headD 0 ≠ 0

instance (t : List Entry) : Decidable (ForToken t) := by
  unfold ForToken
  cases h : findAttr t .token with
  | none => exact .isFalse (by simp)
  | some en =>
    by_cases hv : en.val.headD 0 ≠ 0
    · exact .isTrue ⟨en, rfl, hv⟩
    · exact .isFalse (by rintro ⟨en', h1, h2⟩; cases h1; exact hv h2)

/-- `C_CreateObject` with valid pointers. -/
def createCall (h : Nat) (t : List Entry) : Call := .sess h (.create (some t) true)

/-- `C_GetAttributeValue`. -/
def readCall (h o : Nat) (t : List Entry) : Call := .sess h (.getAttr o (some t))

/-- The library with other objects in session `h`. -/
def withObjs (l : Lib) (h : Nat) (os : List Obj) : Lib := l.upd h fun s => { s with objs := os }

/-- As long as session `h` is open no call of the sequence is made on it, except to
close it. Once it has been closed any call may follow, also on a new session with the
same handle. -/
def Outside (e : Env) (h : Nat) (l : Lib) : List Call → Prop
  | [] => True
  | c :: cs => IsOpen e l h →
      ((∀ sc, c = .sess h sc → sc = .close) ∧ Outside e h (step e l c).1 cs)

/-- The answers of a sequence of calls. -/
def replies (e : Env) (l : Lib) : List Call → List Resp
  | [] => []
  | c :: cs => answer e l c :: replies e (step e l c).1 cs

end Verif
