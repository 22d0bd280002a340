import Verif.Props.Enduring

/-!
# C140: the two keys of a pair on the token fit together at any later time
-/

namespace Verif

variable {e : Env}

/-- What `C_GenerateKeyPair` put on the token, and what the handles name later. -/
theorem ordered_pair (hx : StoreLaws e.store) (hse : SealLen e) (hh : HashLen e) (hr : RandLen e) (hg : GenLawful e) {l₀ : Lib} (h₀ : Start l₀)
    (hd : NoToken l₀) (cs : List Call) {h k₁ k₂ : Nat} {g : Mech} {pg : MechParam} {tp tq : List Entry}
    (hgen : answer e (run e l₀ cs) (pairCall h g pg tp tq) = { rv := .ok, handle := some k₁, priv := some k₂ })
    (hb : BoolToken (cs ++ [pairCall h g pg tp tq])) (hlen : 2 * (cs.length + 1) < 2 ^ 28)
    (hu : UserIn e (run e l₀ (cs ++ [pairCall h g pg tp tq])) h) :
    ∃ pub priv, Addressed (run e l₀ (cs ++ [pairCall h g pg tp tq])) h k₁ pub ∧
      Addressed (run e l₀ (cs ++ [pairCall h g pg tp tq])) h k₂ priv ∧ BelongTogether e g pub priv ∧
      ∀ (mid : List Call) (h' k : Nat) (a b : Obj), (k = k₁ ∧ a = pub ∨ k = k₂ ∧ a = priv) → handleOnToken k = true →
        BoolToken (cs ++ [pairCall h g pg tp tq] ++ mid) → 2 * (cs ++ [pairCall h g pg tp tq] ++ mid).length < 2 ^ 28 →
        ClockWithin (2 ^ 62) ((cs ++ [pairCall h g pg tp tq] ++ mid).map .call) →
        Ordered e l₀ (cs ++ [pairCall h g pg tp tq] ++ mid) → NotDestroyed k mid →
        UserIn e (run e l₀ (cs ++ [pairCall h g pg tp tq] ++ mid)) h' →
        (run e l₀ (cs ++ [pairCall h g pg tp tq] ++ mid)).bad = false →
        Addressed (run e l₀ (cs ++ [pairCall h g pg tp tq] ++ mid)) h' k b → b.data = a.data := by
  obtain ⟨j₁, j₂, pub, priv, e1, e2, a1, a2, hbt, _⟩ := c79_partial hh hr hg h₀ hd cs h g pg tp tq hb hlen (by rw [hgen])
  rw [hgen] at e1 e2
  cases e1; cases e2
  refine ⟨pub, priv, a1, a2, hbt, fun mid h' k a b hka hk hb' hn hclock ho hs hu' hgood hB => ?_⟩
  rcases hka with ⟨rfl, rfl⟩ | ⟨rfl, rfl⟩
  · exact ordered_key hx hse hh hr h₀ hd _ mid _ rfl hb' hn hk hs ho hclock hu hu' hgood a1 hB
  · exact ordered_key hx hse hh hr h₀ hd _ mid _ rfl hb' hn hk hs ho hclock hu hu' hgood a2 hB

/-- **C140** for signatures: an application that obeys the rules of C125 makes an RSA or EC pair
on the token; a signature it makes later with the private key verifies still later with the public
key, in whatever sessions of the user and after any number of logouts, PIN changes and restarts.
Missing: RSA keys whose exponent is not the same read backwards (`c59_violated`), and plain RSA
with data shorter than the key (C51). -/
theorem c140_signs_partial (hx : StoreLaws e.store) (hse : SealLen e) (hh : HashLen e) (hr : RandLen e) (hl : e.crypto.rsa.Lawful)
    (hg : GenLawful e) {l₀ : Lib} (h₀ : Start l₀) (hd : NoToken l₀) (cs cs₀ cs₁ cs₂ cs₃ : List Call)
    (h h₁ h₂ k₁ k₂ : Nat) (g m : Mech) (pg p : MechParam) (tp tq : List Entry) (d : Bytes) (n rnd : Nat) (w : Out)
    (hm : SignsWith g m)
    -- a pair is generated in session `h`
    (made : List Call) (hmade : made = cs ++ [pairCall h g pg tp tq])
    (hgen : answer e (run e l₀ cs) (pairCall h g pg tp tq) = { rv := .ok, handle := some k₁, priv := some k₂ })
    (ht₁ : handleOnToken k₁ = true) (ht₂ : handleOnToken k₂ = true) (hu : UserIn e (run e l₀ made) h)
    (hexp : ∀ o, Addressed (run e l₀ made) h k₁ o → g = .rsaKeyPairGen → PlainExponent o.rsa.e)
    (hraw : ∀ o, Addressed (run e l₀ made) h k₂ o → m = .rsaX509 → d.length = o.rsa.keyLen ∧ d.length < 2 ^ 31)
    -- a signature is made in session `h₂`
    (hu₂ : UserIn e (run e l₀ (made ++ cs₀)) h₂)
    (h1 : (answer e (run e l₀ (made ++ cs₀)) (initOf h₂ .sign m p k₂)).rv = .ok)
    (hcs₁ : ∀ c ∈ cs₁, Bystander h₂ k₂ c)
    (h2 : answer e (run e l₀ (made ++ cs₀ ++ initOf h₂ .sign m p k₂ :: cs₁)) (dataOf h₂ (.sign (some d) (.buf n) rnd)) =
      { rv := .ok, out := some w })
    -- it is checked in session `h₁`
    (later : List Call) (hlater : later = made ++ cs₀ ++ initOf h₂ .sign m p k₂ :: cs₁ ++ cs₂)
    (hu₁ : UserIn e (run e l₀ later) h₁)
    (h3 : (answer e (run e l₀ later) (initOf h₁ .verify m p k₁)).rv = .ok)
    (hcs₃ : ∀ c ∈ cs₃, Bystander h₁ k₁ c)
    (hs : ∀ k, k = k₁ ∨ k = k₂ → NotDestroyed k (cs₀ ++ initOf h₂ .sign m p k₂ :: cs₁ ++ cs₂))
    (ho : Ordered e l₀ later) (hclock : ClockWithin (2 ^ 62) (later.map .call)) (hb : BoolToken later) (hn : 2 * later.length < 2 ^ 28)
    (hgood : (run e l₀ (later ++ initOf h₁ .verify m p k₁ :: cs₃)).bad = false) :
    (answer e (run e l₀ (later ++ initOf h₁ .verify m p k₁ :: cs₃)) (dataOf h₁ (.verify (some d) (some w.wr)))).rv = .ok := by
  subst hmade
  have hgl : (run e l₀ later).bad = false := by rw [run_append] at hgood; exact run_good hgood
  have hsplit : later = cs ++ [pairCall h g pg tp tq] ++ cs₀ ++ (initOf h₂ .sign m p k₂ :: cs₁ ++ cs₂) := by
    rw [hlater, List.append_assoc (_ ++ cs₀)]
  have hg2 : (run e l₀ (cs ++ [pairCall h g pg tp tq] ++ cs₀)).bad = false := by
    rw [hsplit, run_append] at hgl; exact run_good hgl
  have hb0 : BoolToken (cs ++ [pairCall h g pg tp tq] ++ cs₀) := fun c hc => hb c (by rw [hsplit]; exact List.mem_append_left _ hc)
  have hlen : 2 * (cs ++ [pairCall h g pg tp tq] ++ cs₀).length < 2 ^ 28 := by
    rw [hsplit, List.length_append] at hn; omega
  have hclock0 : ClockWithin (2 ^ 62) ((cs ++ [pairCall h g pg tp tq] ++ cs₀).map .call) := fun h u pin now hc => hclock h u pin now (by
    rw [hsplit, List.map_append]; exact List.mem_append_left _ hc)
  have ho0 : Ordered e l₀ (cs ++ [pairCall h g pg tp tq] ++ cs₀) := by
    rw [hsplit, ordered_append] at ho; exact ho.1
  obtain ⟨pub, priv, a1, a2, hbt, hkeep⟩ := ordered_pair hx hse hh hr hg h₀ hd cs hgen
    (fun c hc => hb0 c (List.mem_append_left _ hc))
    (by simp only [List.length_append, List.length_cons, List.length_nil] at hlen; omega) hu
  subst hlater
  refine c77_history_partial hh hr hl h₀ hd _ cs₁ cs₂ cs₃ h₂ k₂ h₁ k₁ m p d n rnd w ?_ h1 hcs₁ h2 h3 hcs₃ hgood
  intro o o' ho1 ho'
  have d2 : o.data = priv.data := hkeep cs₀ h₂ k₂ priv o (.inr ⟨rfl, rfl⟩) ht₂ hb0 hlen hclock0 ho0
    (fun j hj => hs k₂ (.inr rfl) j (by rw [List.append_assoc]; exact List.mem_append_left _ hj)) hu₂ hg2 ho1
  have d1 : o'.data = pub.data := by
    rw [List.append_assoc _ cs₀, List.append_assoc _ (cs₀ ++ _)] at hb hn hgl ho hclock hu₁ ho'
    exact hkeep _ h₁ k₁ pub o' (.inl ⟨rfl, rfl⟩) ht₁ hb hn hclock ho (hs k₁ (.inl rfl)) hu₁ hgl ho'
  have r1 : o'.rsa = pub.rsa := by unfold Obj.rsa; rw [d1]
  have r2 : o.rsa = priv.rsa := by unfold Obj.rsa; rw [d2]
  have c1 : o'.ec = pub.ec := by unfold Obj.ec; rw [d1]
  have c2 : o.ec = priv.ec := by unfold Obj.ec; rw [d2]
  refine ⟨?_, fun hm => by rw [r2]; exact hraw priv a2 hm⟩
  rcases hm with ⟨rfl, hm⟩ | ⟨rfl, rfl⟩
  · have := hbt (hexp pub a1 rfl)
    rw [← r1, ← r2] at this
    rcases hm with rfl | rfl | rfl <;> exact this
  · have : ∃ c, EcPair e.crypto.ecdsa priv.ec pub.ec c := hbt
    rw [← c1, ← c2] at this
    exact this

/-- **C140** for encryption: what the application encrypts with the public key of an RSA pair on
the token is decrypted at any later time with the private key.
Missing: keys whose exponent is not the same read backwards (`c59_violated`). -/
theorem c140_decrypts_partial (hx : StoreLaws e.store) (hse : SealLen e) (hh : HashLen e) (hr : RandLen e)
    (hg : GenLawful e) {l₀ : Lib} (h₀ : Start l₀) (hd : NoToken l₀) (cs cs₀ cs₁ cs₂ cs₃ : List Call)
    (h h₁ h₂ k₁ k₂ : Nat) (m : Mech) (pg p : MechParam) (tp tq : List Entry) (d : Bytes) (n n' rnd rnd' : Nat) (w : Out)
    -- an RSA pair is generated in session `h`
    (made : List Call) (hmade : made = cs ++ [pairCall h .rsaKeyPairGen pg tp tq])
    (hgen : answer e (run e l₀ cs) (pairCall h .rsaKeyPairGen pg tp tq) = { rv := .ok, handle := some k₁, priv := some k₂ })
    (ht₁ : handleOnToken k₁ = true) (ht₂ : handleOnToken k₂ = true) (hu : UserIn e (run e l₀ made) h)
    (hexp : ∀ o, Addressed (run e l₀ made) h k₁ o → PlainExponent o.rsa.e)
    (hm : ∀ o, Addressed (run e l₀ made) h k₂ o → o.rsa.keyLen ≤ n' ∧
      (m = .rsaX509 ∧ d.length = o.rsa.keyLen ∨ m = .rsaPkcs ∨ m = .rsaOaep))
    -- a message is encrypted in session `h₁`
    (hu₁ : UserIn e (run e l₀ (made ++ cs₀)) h₁)
    (h1 : (answer e (run e l₀ (made ++ cs₀)) (initOf h₁ .encrypt m p k₁)).rv = .ok)
    (hcs₁ : ∀ c ∈ cs₁, Bystander h₁ k₁ c)
    (h2 : answer e (run e l₀ (made ++ cs₀ ++ initOf h₁ .encrypt m p k₁ :: cs₁)) (dataOf h₁ (.encrypt (some d) (.buf n) rnd)) =
      { rv := .ok, out := some w })
    -- it is decrypted in session `h₂`
    (later : List Call) (hlater : later = made ++ cs₀ ++ initOf h₁ .encrypt m p k₁ :: cs₁ ++ cs₂)
    (hu₂ : UserIn e (run e l₀ later) h₂)
    (h3 : (answer e (run e l₀ later) (initOf h₂ .decrypt m p k₂)).rv = .ok)
    (hcs₃ : ∀ c ∈ cs₃, Bystander h₂ k₂ c)
    (hs : ∀ k, k = k₁ ∨ k = k₂ → NotDestroyed k (cs₀ ++ initOf h₁ .encrypt m p k₁ :: cs₁ ++ cs₂))
    (ho : Ordered e l₀ later) (hclock : ClockWithin (2 ^ 62) (later.map .call)) (hb : BoolToken later) (hn : 2 * later.length < 2 ^ 28)
    (hgood : (run e l₀ (later ++ initOf h₂ .decrypt m p k₂ :: cs₃)).bad = false) :
    answer e (run e l₀ (later ++ initOf h₂ .decrypt m p k₂ :: cs₃)) (dataOf h₂ (.decrypt (some w.wr) (.buf n') rnd')) =
      { rv := .ok, out := some { rv := .ok, wr := d, len := some d.length } } := by
  subst hmade
  have hgl : (run e l₀ later).bad = false := by rw [run_append] at hgood; exact run_good hgood
  have hsplit : later = cs ++ [pairCall h .rsaKeyPairGen pg tp tq] ++ cs₀ ++ (initOf h₁ .encrypt m p k₁ :: cs₁ ++ cs₂) := by
    rw [hlater, List.append_assoc (_ ++ cs₀)]
  have hg2 : (run e l₀ (cs ++ [pairCall h .rsaKeyPairGen pg tp tq] ++ cs₀)).bad = false := by
    rw [hsplit, run_append] at hgl; exact run_good hgl
  have hb0 : BoolToken (cs ++ [pairCall h .rsaKeyPairGen pg tp tq] ++ cs₀) := fun c hc => hb c (by rw [hsplit]; exact List.mem_append_left _ hc)
  have hlen : 2 * (cs ++ [pairCall h .rsaKeyPairGen pg tp tq] ++ cs₀).length < 2 ^ 28 := by
    rw [hsplit, List.length_append] at hn; omega
  have hclock0 : ClockWithin (2 ^ 62) ((cs ++ [pairCall h .rsaKeyPairGen pg tp tq] ++ cs₀).map .call) := fun h u pin now hc => hclock h u pin now (by
    rw [hsplit, List.map_append]; exact List.mem_append_left _ hc)
  have ho0 : Ordered e l₀ (cs ++ [pairCall h .rsaKeyPairGen pg tp tq] ++ cs₀) := by
    rw [hsplit, ordered_append] at ho; exact ho.1
  obtain ⟨pub, priv, a1, a2, hbt, hkeep⟩ := ordered_pair hx hse hh hr hg h₀ hd cs hgen
    (fun c hc => hb0 c (List.mem_append_left _ hc))
    (by simp only [List.length_append, List.length_cons, List.length_nil] at hlen; omega) hu
  subst hlater
  refine c78_history hh hr h₀ hd _ cs₁ cs₂ cs₃ h₁ k₁ h₂ k₂ m p d n n' rnd rnd' w ?_ h1 hcs₁ h2 h3 hcs₃ hgood
  intro o o' ho1 ho'
  have d1 : o.data = pub.data := hkeep cs₀ h₁ k₁ pub o (.inl ⟨rfl, rfl⟩) ht₁ hb0 hlen hclock0 ho0
    (fun j hj => hs k₁ (.inl rfl) j (by rw [List.append_assoc]; exact List.mem_append_left _ hj)) hu₁ hg2 ho1
  have d2 : o'.data = priv.data := by
    rw [List.append_assoc _ cs₀, List.append_assoc _ (cs₀ ++ _)] at hb hn hgl ho hclock hu₂ ho'
    exact hkeep _ h₂ k₂ priv o' (.inr ⟨rfl, rfl⟩) ht₂ hb hn hclock ho (hs k₂ (.inr rfl)) hu₂ hgl ho'
  have r1 : o.rsa = pub.rsa := by unfold Obj.rsa; rw [d1]
  have r2 : o'.rsa = priv.rsa := by unfold Obj.rsa; rw [d2]
  have hpair : RsaPair e.crypto.rsa priv.rsa pub.rsa := hbt (hexp pub a1)
  rw [r1, r2]
  exact ⟨hpair, hm priv a2⟩

/-! ## A case -/

namespace Demo

theorem keepEnv_seal : SealLen keepEnv where
  enc := sealLen.enc
  dec := sealLen.dec
  rsa k d h := by
    simp only [keepEnv] at h
    split at h
    · cases h; decide
    · cases h
  rsaPub k d h := by
    simp only [keepEnv] at h
    split at h
    · cases h; decide
    · cases h
  ec := nofun
  ecPub := nofun

def keepOrdered? (l : Lib) : List Call → Bool
  | [] => true
  | c :: cs => orderly? l c && keepOrdered? (Verif.step keepEnv l c).1 cs

theorem keepOrdered_of {l : Lib} {cs : List Call} (h : keepOrdered? l cs = true) : Ordered keepEnv l cs := by
  induction cs generalizing l with
  | nil => trivial
  | cons c cs ih =>
    rw [keepOrdered?, Bool.and_eq_true] at h
    exact ⟨orderly_of h.1, ih h.2⟩

/-- Signing with the private key of the pair; then the PIN is changed, and the library restarted. -/
def pairLater : List Call := keptMade ++ again 65538 ++ keptSign ++ (dataOf 65538 (.sign (some [1, 2]) (.buf 2) 0) :: longWay)

set_option maxRecDepth 100000 in
/-- The hypotheses of `c140_signs_partial` are met; the exponent is 65537. -/
example : GenLawful keepEnv ∧ keepEnv.crypto.rsa.Lawful ∧ StoreLaws keepEnv.store ∧ SealLen keepEnv ∧ SignsWith .rsaKeyPairGen .rsaPkcs ∧
    answer keepEnv (run keepEnv fresh setup) keptGen = { rv := .ok, handle := some tok1, priv := some (tok1 + 1) } ∧
    handleOnToken tok1 = true ∧ handleOnToken (tok1 + 1) = true ∧ UserIn keepEnv (run keepEnv fresh keptMade) 65538 ∧
    UserIn keepEnv (run keepEnv fresh (keptMade ++ again 65538)) 65538 ∧
    (answer keepEnv (run keepEnv fresh (keptMade ++ again 65538)) (initOf 65538 .sign .rsaPkcs (.null 0) (tok1 + 1))).rv = .ok ∧
    answer keepEnv (run keepEnv fresh (keptMade ++ again 65538 ++ keptSign))
      (dataOf 65538 (.sign (some [1, 2]) (.buf 2) 0)) = { rv := .ok, out := some { rv := .ok, wr := [1, 2], len := some 2 } } ∧
    UserIn keepEnv (run keepEnv fresh pairLater) 65538 ∧
    (answer keepEnv (run keepEnv fresh pairLater) (initOf 65538 .verify .rsaPkcs (.null 0) tok1)).rv = .ok ∧
    (∀ k, k = tok1 ∨ k = tok1 + 1 → NotDestroyed k (pairLater.drop keptMade.length)) ∧
    Ordered keepEnv fresh pairLater ∧ ClockWithin (2 ^ 62) (pairLater.map .call) ∧ BoolToken pairLater ∧ PlainExponent 65537 ∧
    (run keepEnv fresh (pairLater ++ [initOf 65538 .verify .rsaPkcs (.null 0) tok1])).bad = false := by
  refine ⟨keepEnv_gen, blockRsa_lawful, keepEnv_laws, keepEnv_seal, .inl ⟨rfl, .inr (.inl rfl)⟩, by decide +kernel, by decide, by decide,
    by unfold UserIn; decide +kernel, by unfold UserIn; decide +kernel, by decide +kernel, by decide +kernel, by unfold UserIn; decide +kernel,
    by decide +kernel, ?_, keepOrdered_of (by decide +kernel), clockWithin_of (by decide), by unfold BoolToken; decide +kernel,
    by unfold PlainExponent; decide, by decide +kernel⟩
  intro k _ h hm
  simp [pairLater, keptMade, keptGen, Verif.pairCall, setup, again, keptSign, initOf, dataOf, longWay, openCall, loginCall] at hm

/-- Encryption with the public key; then the PIN is changed, and the library restarted. -/
def pairSecret : List Call := keptMade ++ initOf 65538 .encrypt .rsaPkcs (.null 0) tok1 :: dataOf 65538 (.encrypt (some [1, 2]) (.buf 2) 0) :: longWay

set_option maxRecDepth 100000 in
/-- The hypotheses of `c140_decrypts_partial` are met. -/
example : answer keepEnv (run keepEnv fresh (keptMade ++ [initOf 65538 .encrypt .rsaPkcs (.null 0) tok1]))
      (dataOf 65538 (.encrypt (some [1, 2]) (.buf 2) 0)) = { rv := .ok, out := some { rv := .ok, wr := [1, 2], len := some 2 } } ∧
    UserIn keepEnv (run keepEnv fresh pairSecret) 65538 ∧ Ordered keepEnv fresh pairSecret ∧
    (answer keepEnv (run keepEnv fresh pairSecret) (initOf 65538 .decrypt .rsaPkcs (.null 0) (tok1 + 1))).rv = .ok ∧
    (run keepEnv fresh (pairSecret ++ [initOf 65538 .decrypt .rsaPkcs (.null 0) (tok1 + 1)])).bad = false :=
  ⟨by decide +kernel, by unfold UserIn; decide +kernel, keepOrdered_of (by decide +kernel), by decide +kernel, by decide +kernel⟩

end Demo

end Verif
