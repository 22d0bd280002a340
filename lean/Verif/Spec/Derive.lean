import Verif.Spec.Usage
import Verif.Spec.Pair
import Verif.Spec.Isolated
import Verif.Spec.Objs
import Verif.Spec.KeyKept

/-!
# Key agreement

The secret two parties share, in terms of the agreement functions of the environment:
ECDH with the curve key of the base key and the other party's point, or DH with the base
key and the other party's public value. The only key derivation function is none.
-/

namespace Verif

/-- `sec` is the secret shared by the base key `o` and the other party named by the
mechanism and its parameters. -/
def SharedSecret (e : Env) (o : Obj) (m : DeriveMech) (sec : Bytes) : Prop :=
  match m with
  | .ecdh (some (noKdf, some point)) => noKdf = true ∧ point ≠ [] ∧ o.cls ≠ CKO_CERTIFICATE ∧ o.typ = CKK_EC ∧
      e.ecdh o.ec point (point.length / 2) = some sec
  | .dh (some pub) => pub ≠ [] ∧ o.cls ≠ CKO_CERTIFICATE ∧ o.typ = CKK_DH ∧ e.dhAgree o.dh pub = some sec
  | _ => False

/-- Deriving a key. -/
def deriveCall (h base : Nat) (m : DeriveMech) (t : List Entry) : Call :=
  .sess h (.derive (some m) base (some t) true)

/-- What is assumed of `wc_DhAgree`: the secret is made of the prime and the number
`other ^ own mod prime`. -/
def DhLawful (e : Env) : Prop :=
  ∃ enc : Nat → Nat → Bytes, ∀ k pub s, e.dhAgree k pub = some s → s = enc k.p (ofBytes pub ^ ofBytes k.key % k.p)

/-- Reading attribute `a` of the object with handle `k` into a buffer of the right size
gives `v`. -/
def Shows (e : Env) (l : Lib) (h k : Nat) (a : CKA) (v : Bytes) : Prop :=
  v.length < 2 ^ 32 ∧ answer e l (readCall h k [Entry.of a (List.replicate v.length 0)]) =
    { rv := .ok, tmpl := some [Entry.of a v] }

/-- What is assumed of `WP11_EC_Derive`, that is of `wc_ecc_shared_secret`: with two pairs on
the same curve, either private key and the other's public point give the same secret. -/
def EcdhLawful (e : Env) : Prop :=
  ∀ a b A B c c' P Q s s', EcPair e.crypto.ecdsa a A c → EcPair e.crypto.ecdsa b B c' → c.oid = c'.oid →
    e.key.exportX963 A = some P → e.key.exportX963 B = some Q →
    e.ecdh a Q (Q.length / 2) = some s → e.ecdh b P (P.length / 2) = some s' → s = s'

/-- What one party of a key agreement does, in a process of its own: some calls, the
generation of a pair in session `h`, more calls, the derivation of a key in session `h'`. -/
structure Party where
  /-- the process -/
  lib : Lib
  /-- the calls before the generation -/
  before : List Call
  /-- the calls between generation and derivation -/
  between : List Call
  h : Nat
  h' : Nat
  /-- the handle of the public key -/
  pub : Nat
  /-- the handle of the private key -/
  priv : Nat
  /-- the handle of the derived key -/
  key : Nat
  /-- the mechanism of the generation and its parameter -/
  mech : Mech
  param : MechParam
  /-- the templates of the public, the private and the derived key -/
  pubT : List Entry
  privT : List Entry
  keyT : List Entry

/-- The calls up to the generation. -/
def Party.generated (p : Party) : List Call := p.before ++ [pairCall p.h p.mech p.param p.pubT p.privT]

/-- The calls up to the derivation with the mechanism `m`. -/
def Party.derived (p : Party) (m : DeriveMech) : List Call :=
  p.generated ++ p.between ++ [deriveCall p.h' p.priv m p.keyT]

/-- The party generates a pair, and later derives a key with the mechanism `m`; both succeed. -/
structure Party.Does (e : Env) (p : Party) (m : DeriveMech) : Prop where
  start : Start p.lib
  noToken : NoToken p.lib
  tokens : BoolToken (p.derived m)
  few : 2 * (p.derived m).length < 2 ^ 28
  generates : answer e (run e p.lib p.before) (pairCall p.h p.mech p.param p.pubT p.privT) =
    { rv := .ok, handle := some p.pub, priv := some p.priv }
  derives : answer e (run e p.lib (p.generated ++ p.between)) (deriveCall p.h' p.priv m p.keyT) =
    { rv := .ok, handle := some p.key }

/-- The party does so and leaves the private key alone in between. -/
structure Party.Agrees (e : Env) (p : Party) (m : DeriveMech) : Prop extends p.Does e m where
  untouched : Untouched e (run e p.lib p.generated) p.between p.h p.h' p.priv

/-- The party generates a DH pair over the given prime and base and publishes the value
`mine` of its public key; it derives a key with the value `theirs`. -/
structure Party.DhAgrees (e : Env) (p : Party) (prime base mine theirs : Bytes) : Prop
    extends p.Agrees e (.dh (some theirs)) where
  mech : p.mech = .dhKeyPairGen
  prime : Shows e (run e p.lib p.generated) p.h p.pub .prime prime
  base : Shows e (run e p.lib p.generated) p.h p.pub .base base
  publishes : Shows e (run e p.lib p.generated) p.h p.pub .value mine

/-- The pair is an EC pair on the curve named by `params`, and its point is `mine` (published as DER
octet string). -/
structure Party.OnCurve (e : Env) (p : Party) (params mine : Bytes) : Prop where
  mech : p.mech = .ecKeyPairGen
  params : Shows e (run e p.lib p.generated) p.h p.pub .ecParams params
  publishes : Shows e (run e p.lib p.generated) p.h p.pub .ecPoint (0x04 :: (Spec.derLen mine.length ++ mine))

/-- The party generates an EC pair on the curve named by `params` and publishes its point
`mine`; it derives a key with the point `theirs`. -/
structure Party.EcAgrees (e : Env) (p : Party) (params mine theirs : Bytes) : Prop
    extends p.Agrees e (.ecdh (some (true, some theirs))), p.OnCurve e params mine

end Verif
