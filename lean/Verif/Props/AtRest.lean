import Verif.Proofs.AtRest2
import Verif.Props.Crash

/-!
# Keys in the storage directory (C70)
-/

namespace Verif

variable {e : Env}

theorem NoCertificates.creates {cs : List Call} (h : NoCertificates cs) : ∀ c ∈ cs, ∀ t ∈ c.creates, ClassOk t :=
  fun c hc t ht => h c hc t (List.mem_append_left _ ht)

theorem NoCertificates.sets {cs : List Call} (h : NoCertificates cs) : ∀ c ∈ cs, ∀ t ∈ c.sets, ClassOk t :=
  fun c hc t ht => h c hc t (List.mem_append_right _ ht)

/-- An empty directory holds no clear keys. -/
theorem DiskOk.empty {d : Disk} (h : ∀ f, d f = none) : DiskOk e d :=
  ⟨(fun i b hb => by rw [h] at hb; cases hb), fun f _ i b hb => by rw [h] at hb; cases hb⟩

/-- C70: for every sequence of calls (restarts among them) that makes no certificates,
starting with an empty directory, all that any key file ever holds is the output of the
encryption under a storage key, or, for RSA and EC, the encoding of a *public* key.
Missing: DH keys, which are written in clear if their class is changed; certificates; and
the storage key may be the all-zero one (`Demo.c70_violated_zero`). -/
theorem c70_partial (hr : RandLen e) {l₀ : Lib} (hs : Start l₀) (hd : ∀ f, l₀.disk f = none) (cs : List Call)
    (hc : NoCertificates cs) : KeysEncrypted e (run e l₀ cs).disk :=
  (all_run (restOk_closed hr) (hs.allObj (.inl rfl) (.empty hd)) cs hc.creates hc.sets).disk.key

/-- C70 for a directory made by earlier processes: it stays so. -/
theorem c70_partial_later (hr : RandLen e) {l₀ l₁ : Lib} (hs : Start l₀) (hd : ∀ f, l₀.disk f = none) (hs₁ : Start l₁)
    {cs cs₁ : List Call} (hc : NoCertificates cs) (hc₁ : NoCertificates cs₁) (h : l₁.disk = (run e l₀ cs).disk) :
    KeysEncrypted e (run e l₁ cs₁).disk := by
  have hd₁ := (all_run (restOk_closed hr) (hs.allObj (.inl rfl) (.empty hd)) cs hc.creates hc.sets).disk
  exact (all_run (restOk_closed hr) (hs₁.allObj (.inl rfl) (by rw [h]; exact hd₁)) cs₁ hc₁.creates hc₁.sets).disk.key

/-- C70 for histories (restarts among them) that do not change the class of an object:
every file for a private or secret key, DH keys too, only ever holds the output of the encryption
under a storage key, and a file for a public RSA or EC key only a public encoding.
Missing: changes of the class (`Demo.c70_violated_dh`); and the storage key may be the
all-zero one (`Demo.c70_violated_zero`). -/
theorem c70_class_kept_partial {l₀ : Lib} (hs : Start l₀) (hd : ∀ f, l₀.disk f = none) (cs : List Call)
    (hc : KeepsClass cs) : SecretsEncrypted e (run e l₀ cs).disk :=
  (all_run (lieOk_closed e) (hs.allObj (.inl rfl) (fun f i b _ _ _ hb => by rw [hd] at hb; cases hb)) cs
    (fun _ _ _ _ => trivial) hc).disk.secrets

namespace Demo

/-- A history with keys in the directory meets the hypotheses of `c70_partial`. -/
example : NoCertificates withKey ∧
    (run env fresh withKey).disk (.symmKey, 0) =
      some (wrArray (List.replicate 16 7 ++ [4, 3, 5, 6, 7, 8, 0, 0, 0, 0, 0, 0, 0, 0, 0, 0])) := by
  refine ⟨?_, by decide⟩
  unfold NoCertificates
  simp only [withKey, setup, Call.templates, Call.creates, Call.sets, SessCall.creates, SessCall.sets, createCall, openCall, openTmpl, aesTmpl]
  decide

set_option maxRecDepth 20000 in
/-- C70 is violated: a key the security officer makes is written out encrypted under the
storage key of 32 zero bytes, which anyone can compute. -/
theorem c70_violated_zero :
    rvs env fresh early = List.replicate 7 .ok ∧
    (run env fresh early).disk (.symmKey, 0) =
      some (wrArray (env.store.aeadEnc (List.replicate 32 0) (List.replicate 12 0) (List.replicate 16 7))) ∧
    (run env fresh (early ++ [.cFinal])).disk (.symmKey, 0) = (run env fresh early).disk (.symmKey, 0) := by decide

/-- A DH private key; its private value is 8. -/
def dhTmpl : List Entry :=
  [.of .cls (ulong CKO_PRIVATE_KEY), .of .keyType (ulong CKK_DH), .of .token [1], .of .prime [23], .of .base [5],
   .of .value [8]]

set_option maxRecDepth 20000 in
/-- C70 is violated for DH: after its class has been changed, the private value is written out in
clear when the library is finalised: the file holds it as an array, with no encryption. -/
theorem c70_violated_dh :
    let cs := setup ++ [createCall 65538 dhTmpl, .sess 65538 (.setAttr tok1 (some [.of .cls (ulong CKO_PUBLIC_KEY)])),
      .sess 65538 .logout, .cFinal]
    rvs env fresh cs = List.replicate 11 .ok ∧
    (run env fresh cs).disk (.dhPub, 0) = some (wrArray [8] ++ wrArray [0x30, 4, 2, 0, 2, 0]) := by decide

set_option maxRecDepth 20000 in
/-- A history with a DH private key in the directory meets the hypotheses of
`c70_class_kept_partial`. -/
example : KeepsClass (setup ++ [createCall 65538 dhTmpl]) ∧
    (run env fresh (setup ++ [createCall 65538 dhTmpl])).disk (.dhPriv, 0) =
      some (wrArray (List.replicate 1 8 ++ [4, 3, 5, 6, 7, 8, 0, 0, 0, 0, 0, 0, 0, 0, 0, 0]) ++
        wrArray [0x30, 6, 2, 1, 23, 2, 1, 5]) := by
  refine ⟨?_, by decide⟩
  unfold KeepsClass
  simp only [setup, Call.sets, SessCall.sets, createCall, openCall]
  decide

end Demo

end Verif
