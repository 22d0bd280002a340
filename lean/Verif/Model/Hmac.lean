import Verif.Model.Ext

/-!
# HMAC (src/internal.c:8320-8523)
-/

namespace Verif

/-- `WP11_Hmac` (src/internal.c:262-265).  The wolfCrypt `Hmac` object is modelled by
the hash function, the key and the message fed so far; `size` is `hmacSz`. -/
structure HmacSt where
  alg : HmacAlg := .md5
  key : Bytes := []
  msg : Bytes := []
  size : Nat := 0
  deriving DecidableEq, Repr

namespace HmacSt

/-- `WP11_Hmac_Init` (src/internal.c:8370-8393). A refused key leaves the size
assigned. -/
def start (m : Mac) (h : HmacSt) (a : HmacAlg) (key : Bytes) : Bool × HmacSt :=
  if m.keyOk a key then (true, { alg := a, key := key, msg := [], size := m.size a })
  else (false, { h with size := m.size a })

/-- `WP11_Hmac_Update` (src/internal.c:8463-8471). -/
def update (h : HmacSt) (d : Bytes) : HmacSt := { h with msg := h.msg ++ d }

/-- `WP11_Hmac_SignFinal` (src/internal.c:8483-8499), the caller's buffer being large
enough: the digest.  Resetting `session->init` is done by the caller of this
function in the model. -/
def signFinal (m : Mac) (h : HmacSt) : Bytes := m.mac h.alg h.key h.msg

/-- `WP11_Hmac_Sign` (src/internal.c:8407-8425). -/
def sign (m : Mac) (h : HmacSt) (d : Bytes) : Bytes := (h.update d).signFinal m

/-- `WP11_Hmac_VerifyFinal` (src/internal.c:8511-8523): equal lengths and equal bytes. -/
def verifyFinal (m : Mac) (h : HmacSt) (sig : Bytes) : Bool :=
  let gen := h.signFinal m
  decide (h.size = sig.length) && decide (gen.take sig.length = sig)

/-- `WP11_Hmac_Verify` (src/internal.c:8439-8452). -/
def verify (m : Mac) (h : HmacSt) (sig d : Bytes) : Bool := (h.update d).verifyFinal m sig

end HmacSt
end Verif
