import Verif.Model.Alloc
import Verif.Spec.Find

/-!
# Memory that runs out
-/

namespace Verif

/-- The answer to a call with the outcomes `a` of its allocations. -/
def answerM (e : Env) (a : Mem) (l : Lib) (c : Call) : Resp := (stepM e a l c).2

/-- No allocation fails. -/
def Plenty (a : Mem) : Prop := ∀ b ∈ a, b = true

/-- The calls that make one object: `C_CreateObject`, `C_CopyObject`, `C_GenerateKey` and
`C_DeriveKey`. -/
def MakesOne : Call → Prop
  | .sess _ (.create _ _) | .sess _ (.copy _ _ _) | .sess _ (.genKey _ _ _) | .sess _ (.derive _ _ _ _) => True
  | _ => False

/-- `C_GenerateKeyPair`. -/
def MakesPair : Call → Prop
  | .sess _ (.genPair _ _ _ _) => True
  | _ => False

/-- The private key of the pair is not asked to be on the token. -/
def PrivInSession : Call → Prop
  | .sess _ (.genPair _ _ tq _) => ∀ t, tq = some t → ∀ en ∈ t, en.typ ≠ .token
  | _ => False

/-- `C_SetAttributeValue`. -/
def SetsAttrs : Call → Prop
  | .sess _ (.setAttr _ _) => True
  | _ => False

/-- `C_Login`. -/
def LogsIn : Call → Prop
  | .sess _ (.login _ _ _) => True
  | _ => False

/-- The calls of cryptographic operations, `C_WrapKey` and `C_UnwrapKey`. -/
def UsesKey : Call → Prop
  | .sess _ (.cryptInit _ _ _) | .sess _ (.crypt _) | .sess _ (.wrap _ _ _ _) | .sess _ (.unwrap _ _ _ _ _) => True
  | _ => False

/-- The library without the objects that the handle `o` can mean in session `h`. -/
def allBut (h o : Nat) (l : Lib) : Lib :=
  { l with
    token := { l.token with objs := l.token.objs.filter fun p => p.handle != o },
    sessions := l.sessions.map fun s =>
      if s.handle = h then { s with objs := s.objs.filter fun p => p.handle != o } else s }

end Verif
