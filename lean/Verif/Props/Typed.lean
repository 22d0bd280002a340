import Verif.Proofs.Typed
import Verif.Props.Wrap

/-!
# C89: no object is used as one of another kind
-/

namespace Verif

variable {e : Env}

theorem typed_addressed {l₀ : Lib} (h₀ : Start l₀) (cs : List Call) {h k : Nat} {o : Obj}
    (ho : Addressed (run e l₀ cs) h k o) : o.Typed := by
  have ht := typed_run e h₀ cs
  rcases List.mem_append.mp ho.1 with hm | hm
  · unfold sessObjs at hm
    cases hs : getSession (run e l₀ cs) h with
    | none => rw [hs] at hm; simp at hm
    | some s =>
      rw [hs] at hm
      exact ht.sess s (getSession_handle hs).2.2 o hm
  · exact ht.objs o hm

theorem init_key {l : Lib} {h key : Nat} {k : Kind} {m : Mech} {p : MechParam}
    (hok : (answer e l (.sess h (.cryptInit k (some (m, p)) key))).rv = .ok) :
    ∃ o, Addressed l h key o ∧ serves k m = some o.typ ∧ o.cls ≠ CKO_CERTIFICATE := by
  unfold answer at hok
  cases hb : l.bad with
  | true => rw [step_bad hb] at hok; cases hok
  | false =>
    rw [step_resp hb] at hok
    simp only [callBody] at hok
    split at hok; · cases hok
    split at hok; · cases hok
    rename_i s hs
    simp only [sessCall, cCryptInit] at hok
    split at hok; · cases hok
    rename_i o ho
    split at hok; · cases hok
    rename_i hn
    exact ⟨o, findObj_addressed hs ho, initCall_serves hok, fun hc => hn ⟨hok, hc⟩⟩

theorem derive_key {l : Lib} {h base : Nat} {m : DeriveMech} {t : List Entry}
    (hok : (answer e l (.sess h (.derive (some m) base (some t) true))).rv = .ok) :
    ∃ o, Addressed l h base o ∧ o.cls ≠ CKO_CERTIFICATE ∧
      ((∃ q, m = .ecdh q) ∧ o.typ = CKK_EC ∨ (∃ q, m = .dh q) ∧ o.typ = CKK_DH) := by
  unfold answer at hok
  cases hb : l.bad with
  | true => rw [step_bad hb] at hok; cases hok
  | false =>
    rw [step_resp hb] at hok
    simp only [callBody] at hok
    split at hok; · cases hok
    split at hok; · cases hok
    rename_i s hs
    simp only [sessCall, cDerive] at hok
    split at hok; · cases hok
    split at hok; · cases hok
    rename_i o ho
    refine ⟨o, findObj_addressed hs ho, ?_⟩
    split at hok
    · rename_i rv hd
      dsimp only at hok
      subst hok
      unfold deriveSecret at hd
      repeat' split at hd
      all_goals cases hd
    · rename_i hd
      unfold deriveSecret at hd
      repeat' split at hd
      all_goals first
        | (cases hd; done)
        | (rename_i hn _ _ _
           rw [not_or, Classical.not_not] at hn
           refine ⟨hn.1, ?_⟩
           first
             | exact .inl ⟨⟨_, rfl⟩, hn.2⟩
             | exact .inr ⟨⟨_, rfl⟩, hn.2⟩)

/-- **C89, the part that holds**: in every state calls lead to, whatever the values in
the templates, the value of every object a session can address is of the kind that its
class and type say; an operation begins only with a key, of the type the mechanism is
for; and a key is derived only from a key of the type the mechanism is for. What the
calls do that are given an object of another kind is `c89_violated`. -/
theorem c89_partial {l₀ : Lib} (h₀ : Start l₀) (cs : List Call) (h : Nat) :
    (∀ k o, Addressed (run e l₀ cs) h k o → o.Typed) ∧
    (∀ kd m p k, (answer e (run e l₀ cs) (.sess h (.cryptInit kd (some (m, p)) k))).rv = .ok →
      ∃ o, Addressed (run e l₀ cs) h k o ∧ serves kd m = some o.typ ∧ o.cls ≠ CKO_CERTIFICATE) ∧
    (∀ m k t, (answer e (run e l₀ cs) (.sess h (.derive (some m) k (some t) true))).rv = .ok →
      ∃ o, Addressed (run e l₀ cs) h k o ∧ o.cls ≠ CKO_CERTIFICATE ∧
        ((∃ q, m = .ecdh q) ∧ o.typ = CKK_EC ∨ (∃ q, m = .dh q) ∧ o.typ = CKK_DH)) :=
  ⟨fun _ _ ho => typed_addressed h₀ cs ho, fun _ _ _ _ hok => init_key hok, fun _ _ _ hok => derive_key hok⟩

namespace Demo

/-- A certificate of type X.509. -/
def certOne : List Entry :=
  [.of .cls (ulong CKO_CERTIFICATE), .of .certificateType (ulong 0), .of .value [0x30, 0]]

/-- A certificate and an AES key. -/
def mixed : List Call := setup ++ [createCall 65538 certOne, createCall 65538 (aesTmpl false 1)]

/-- Changing the class of an object. -/
def classCall (k c : Nat) : Call := .sess 65538 (.setAttr k (some [.of .cls (ulong c)]))

/-- A derivation from an AES key. -/
def deriveAes : Call := .sess 65538 (.derive (some (.ecdh (some (true, some [4, 1, 2])))) 2 (some (aesTmpl false 1)) true)

end Demo

set_option maxRecDepth 20000 in
/-- The objects of the history, each of its kind. -/
example : (sessObjs (run Demo.env Demo.fresh Demo.mixed) 65538).map (fun o => (o.handle, o.cls, o.typ)) =
      [(2, CKO_SECRET_KEY, CKK_AES), (1, CKO_CERTIFICATE, 0)] ∧
    (answer Demo.env (run Demo.env Demo.fresh Demo.mixed)
      (.sess 65538 (.cryptInit .encrypt (some (.aesCbc, .raw (List.replicate 16 0))) 2))).rv = .ok := by decide

set_option maxRecDepth 20000 in
/-- **C89 fails**: the bytes of a certificate are taken for an RSA key when its class is
changed, when an RSA operation is begun with it and when its `CKA_MODULUS` is read; an
AES key is taken for a certificate when its class is changed, and for an EC key when
another key is derived from it. None of these is refused. -/
theorem c89_violated :
    (answer Demo.env (run Demo.env Demo.fresh Demo.mixed) (Demo.classCall 1 CKO_PUBLIC_KEY)).rv = .ub ∧
    (answer Demo.env (run Demo.env Demo.fresh Demo.mixed) 
      (.sess 65538 (.cryptInit .sign (some (.rsaPkcs, .null 0)) 1))).rv = .ub ∧
    (answer Demo.env (run Demo.env Demo.fresh Demo.mixed) (Demo.readOne 65538 1 .modulus 128)).rv = .ub ∧
    (answer Demo.env (run Demo.env Demo.fresh Demo.mixed) (Demo.classCall 2 CKO_CERTIFICATE)).rv = .ub ∧
    (answer Demo.env (run Demo.env Demo.fresh Demo.mixed) Demo.deriveAes).rv = .ub := by decide

end Verif
