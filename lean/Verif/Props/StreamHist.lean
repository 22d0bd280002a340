import Verif.Spec.StreamHist
import Verif.Proofs.Emptied
import Verif.Props.Isolated
import Verif.Props.Cbc
import Verif.Props.Gcm
import Verif.Props.Hmac

/-!
# C43, C44, C47, C49 in whole histories
-/

namespace Verif

open Spec

variable {e : Env}

/-- The answers of an operation with the key `o` to its data calls. -/
def echoes (x : Crypto) (o : Obj) : OpSt → List DataCall → List (DataCall × Resp)
  | _, [] => []
  | st, d :: ds =>
    (d, { rv := (d.run x st (some o)).2.rv, out := some (d.run x st (some o)).2 }) ::
      echoes x o (d.run x st (some o)).1 ds

theorem echoes_view (x : Crypto) (o : Obj) (st : OpSt) (ds : List DataCall) :
    echoes x o.view st ds = echoes x o st ds := by
  induction ds generalizing st with
  | nil => rfl
  | cons d ds ih => simp only [echoes, run_view]; rw [ih]

theorem Works.talk (hh : HashLen e) (hr : RandLen e) {h : Nat} {ov : Obj} (cs : List Call)
    (hcs : ∀ c ∈ cs, Bystander h ov.handle c ∨ ∃ d, c = .sess h (.crypt d)) :
    ∀ {l : Lib} {st : OpSt}, CapInv l → SInv l → 0 < l.count → (Verif.run e l cs).bad = false → Works l h st ov →
      talk e h l cs = echoes e.crypto ov st (dataCalls h cs) := by
  induction cs with
  | nil => intro l st _ _ _ _ _; rfl
  | cons c cs ih =>
    intro l st hcap hi hcnt hgood hw
    have hg1 : (step e l c).1.bad = false := by
      cases hb : (step e l c).1.bad with
      | false => rfl
      | true =>
        have : Verif.run e l (c :: cs) = (step e l c).1 := run_bad hb cs
        rw [this, hb] at hgood; cases hgood
    have hbad := (step_good hg1).1
    have ih' := @ih (fun d hd => hcs d (List.mem_cons_of_mem _ hd)) (step e l c).1
    have hcap' : CapInv (step e l c).1 := hcap.run hh hr hi [c]
    rcases hcs c (List.mem_cons_self ..) with hb | ⟨d, rfl⟩
    · obtain ⟨h1, h2⟩ := hw.bystander (e := e) hcap.pop hi hbad hcnt hb
      have ih' := ih' hcap' (hi.step e c) h2 hgood h1
      cases c with
      | sess j c =>
        cases c with
        | crypt d =>
          have hne : j ≠ h := hb.2
          simp only [Verif.talk, dataCalls, if_neg hne, List.nil_append]; exact ih'
        | _ => exact ih'
      | _ => exact ih'
    · obtain ⟨ha, h1, h2⟩ := hw.data (e := e) hcap.pop hbad hcnt d
      have ih' := ih' hcap' (hi.step e _) h2 hgood h1
      simp only [Verif.talk, dataCalls, if_true, echoes, List.singleton_append]
      rw [ha, ih']

/-- A running operation in a history: its state, its answers, and its next answer. -/
theorem op_history (hh : HashLen e) (hr : RandLen e) {l₀ : Lib} (h₀ : Start l₀) (hd : NoToken l₀) (cs cs' : List Call)
    (h k : Nat) (kd : Kind) (m : Mech) (p : MechParam)
    (hok : (answer e (run e l₀ cs) (.sess h (.cryptInit kd (some (m, p)) k))).rv = .ok)
    (hcs : ∀ c ∈ cs', Bystander h k c ∨ ∃ d, c = .sess h (.crypt d))
    (hgood : (run e l₀ (cs ++ .sess h (.cryptInit kd (some (m, p)) k) :: cs')).bad = false) :
    ∃ s o st, getSession (run e l₀ cs) h = some s ∧ Addressed (run e l₀ cs) h k o ∧
      initCall e.crypto kd s.op o m p = (st, .ok) ∧
      talk e h (run e l₀ (cs ++ [.sess h (.cryptInit kd (some (m, p)) k)])) cs' =
        echoes e.crypto o st (dataCalls h cs') ∧
      Works (run e l₀ (cs ++ .sess h (.cryptInit kd (some (m, p)) k) :: cs')) h
        (afterData e.crypto o st (dataCalls h cs')) o.view ∧
      ∀ d, answer e (run e l₀ (cs ++ .sess h (.cryptInit kd (some (m, p)) k) :: cs')) (.sess h (.crypt d)) =
        { rv := (d.run e.crypto (afterData e.crypto o st (dataCalls h cs')) (some o)).2.rv,
          out := some (d.run e.crypto (afterData e.crypto o st (dataCalls h cs')) (some o)).2 } := by
  have hcap := (Start.capInv h₀ hd).run hh hr h₀.sinv cs
  have hi := h₀.sinv.run e cs
  rw [run_append] at hgood ⊢
  rw [run_append]
  generalize run e l₀ cs = l at *
  obtain ⟨s, o, st, h1, h2, h3, _, hw, hc⟩ := init_works hcap.pop hok
  have hcs' : ∀ c ∈ cs', Bystander h o.view.handle c ∨ ∃ d, c = .sess h (.crypt d) := by
    rw [show o.view.handle = k from h2.2]; exact hcs
  obtain ⟨hw', hc'⟩ := hw.run hh hr cs' hcs' (hcap.run hh hr hi [_]) (hi.step e _) hc hgood
  have ht := hw.talk hh hr cs' hcs' (hcap.run hh hr hi [_]) (hi.step e _) hc hgood
  rw [afterData_view] at hw'
  rw [echoes_view] at ht
  refine ⟨s, o, st, h1, h2, h3, ht, hw', fun d => ?_⟩
  have hcap' := (hcap.run hh hr hi [.sess h (.cryptInit kd (some (m, p)) k)]).run hh hr (hi.step e _) cs'
  have := (hw'.data (e := e) hcap'.pop hgood hc' d).1
  rw [run_view] at this
  exact this

/-- The data calls of a history with only `C_EncryptUpdate` calls in the session. -/
theorem dataCalls_of {h k : Nat} {f : UpdCall → DataCall} {cs : List Call}
    (hcs : ∀ c ∈ cs, Bystander h k c ∨ ∃ u, c = .sess h (.crypt (f u))) :
    ∃ us : List UpdCall, dataCalls h cs = us.map f := by
  induction cs with
  | nil => exact ⟨[], rfl⟩
  | cons c cs ih =>
    obtain ⟨us, hu⟩ := ih fun c hc => hcs c (List.mem_cons_of_mem _ hc)
    rcases hcs c (List.mem_cons_self ..) with hb | ⟨u, rfl⟩
    · refine ⟨us, ?_⟩
      cases c with
      | sess j c =>
        cases c with
        | crypt d => have hne : j ≠ h := hb.2; simp only [dataCalls, if_neg hne]; exact hu
        | _ => exact hu
      | _ => exact hu
    · exact ⟨u :: us, by simp only [dataCalls, if_true, hu, List.map_cons]⟩

/-- Update calls in the two ways of writing them down. -/
theorem echoes_upd (x : Crypto) (o : Obj) (f : UpdCall → DataCall) (g : OpSt → UpdCall → OpSt × Out)
    (hfg : ∀ st u, (f u).run x st (some o) = g st u)
    (hf : ∀ u r, handed (f u, r) = match u.2, r.rv with | .buf _, .ok => u.1 | _, _ => [])
    (us : List UpdCall) : ∀ st,
      handedBy (echoes x o st (us.map f)) = accepted us (runCalls g st us).2 ∧
      writtenBy (echoes x o st (us.map f)) = produced (runCalls g st us).2 ∧
      afterData x o st (us.map f) = (runCalls g st us).1 := by
  induction us with
  | nil => intro st; exact ⟨rfl, rfl, rfl⟩
  | cons u us ih =>
    intro st
    obtain ⟨h1, h2, h3⟩ := ih (g st u).1
    simp only [List.map_cons, echoes, afterData, runCalls, hfg, handedBy, writtenBy, produced, accepted, List.flatMap_cons] at *
    refine ⟨?_, ?_, h3⟩
    · rw [h1, hf]; rfl
    · rw [h2]; rfl

theorem handed_enc (u : UpdCall) (r : Resp) :
    handed (.encryptUpdate (some u.1) u.2, r) = match u.2, r.rv with | .buf _, .ok => u.1 | _, _ => [] := by
  obtain ⟨d, ob⟩ := u
  cases ob <;> simp only [handed]
  split <;> rename_i hr <;> simp [hr]

theorem handed_dec (u : UpdCall) (r : Resp) :
    handed (.decryptUpdate (some u.1) u.2, r) = match u.2, r.rv with | .buf _, .ok => u.1 | _, _ => [] := by
  obtain ⟨d, ob⟩ := u
  cases ob <;> simp only [handed]
  split <;> rename_i hr <;> simp [hr]

/-- An encryption in a history is a sequence of Update calls. -/
theorem enc_history (hh : HashLen e) (hr : RandLen e) {l₀ : Lib} (h₀ : Start l₀) (hd : NoToken l₀) (cs cs' : List Call)
    (h k : Nat) (m : Mech) (p : MechParam)
    (hok : (answer e (run e l₀ cs) (.sess h (.cryptInit .encrypt (some (m, p)) k))).rv = .ok)
    (hcs : ∀ c ∈ cs', EncryptsOr h k c)
    (hgood : (run e l₀ (cs ++ .sess h (.cryptInit .encrypt (some (m, p)) k) :: cs')).bad = false) :
    ∃ s o st us, getSession (run e l₀ cs) h = some s ∧ Addressed (run e l₀ cs) h k o ∧
      encryptInit s.op o m p = (st, .ok) ∧
      handedBy (talk e h (run e l₀ (cs ++ [.sess h (.cryptInit .encrypt (some (m, p)) k)])) cs') =
        accepted us (runCalls (encCalls e.crypto o) st us).2 ∧
      writtenBy (talk e h (run e l₀ (cs ++ [.sess h (.cryptInit .encrypt (some (m, p)) k)])) cs') =
        produced (runCalls (encCalls e.crypto o) st us).2 ∧
      Works (run e l₀ (cs ++ .sess h (.cryptInit .encrypt (some (m, p)) k) :: cs')) h
        (runCalls (encCalls e.crypto o) st us).1 o.view ∧
      ∀ d, answer e (run e l₀ (cs ++ .sess h (.cryptInit .encrypt (some (m, p)) k) :: cs')) (.sess h (.crypt d)) =
        { rv := (d.run e.crypto (runCalls (encCalls e.crypto o) st us).1 (some o)).2.rv,
          out := some (d.run e.crypto (runCalls (encCalls e.crypto o) st us).1 (some o)).2 } := by
  obtain ⟨s, o, st, h1, h2, h3, ht, hw, ha⟩ := op_history hh hr h₀ hd cs cs' h k .encrypt m p hok
    (fun c hc => (hcs c hc).imp id fun ⟨d, ob, h⟩ => ⟨_, h⟩) hgood
  obtain ⟨us, hu⟩ := dataCalls_of (f := fun u => .encryptUpdate (some u.1) u.2) (h := h) (k := k) (cs := cs')
    (fun c hc => (hcs c hc).imp id fun ⟨d, ob, h⟩ => ⟨(d, ob), h⟩)
  obtain ⟨g1, g2, g3⟩ := echoes_upd e.crypto o (fun u => .encryptUpdate (some u.1) u.2) (encCalls e.crypto o)
    (fun _ _ => rfl) handed_enc us st
  rw [hu, g3] at hw ha
  rw [hu] at ht
  exact ⟨s, o, st, us, h1, h2, h3, by rw [ht, g1], by rw [ht, g2], hw, ha⟩

/-- A decryption in a history is a sequence of Update calls. -/
theorem dec_history (hh : HashLen e) (hr : RandLen e) {l₀ : Lib} (h₀ : Start l₀) (hd : NoToken l₀) (cs cs' : List Call)
    (h k : Nat) (m : Mech) (p : MechParam)
    (hok : (answer e (run e l₀ cs) (.sess h (.cryptInit .decrypt (some (m, p)) k))).rv = .ok)
    (hcs : ∀ c ∈ cs', DecryptsOr h k c)
    (hgood : (run e l₀ (cs ++ .sess h (.cryptInit .decrypt (some (m, p)) k) :: cs')).bad = false) :
    ∃ s o st us, getSession (run e l₀ cs) h = some s ∧ Addressed (run e l₀ cs) h k o ∧
      decryptInit s.op o m p = (st, .ok) ∧
      handedBy (talk e h (run e l₀ (cs ++ [.sess h (.cryptInit .decrypt (some (m, p)) k)])) cs') =
        accepted us (runCalls (decCalls e.crypto o) st us).2 ∧
      writtenBy (talk e h (run e l₀ (cs ++ [.sess h (.cryptInit .decrypt (some (m, p)) k)])) cs') =
        produced (runCalls (decCalls e.crypto o) st us).2 ∧
      Works (run e l₀ (cs ++ .sess h (.cryptInit .decrypt (some (m, p)) k) :: cs')) h
        (runCalls (decCalls e.crypto o) st us).1 o.view ∧
      ∀ d, answer e (run e l₀ (cs ++ .sess h (.cryptInit .decrypt (some (m, p)) k) :: cs')) (.sess h (.crypt d)) =
        { rv := (d.run e.crypto (runCalls (decCalls e.crypto o) st us).1 (some o)).2.rv,
          out := some (d.run e.crypto (runCalls (decCalls e.crypto o) st us).1 (some o)).2 } := by
  obtain ⟨s, o, st, h1, h2, h3, ht, hw, ha⟩ := op_history hh hr h₀ hd cs cs' h k .decrypt m p hok
    (fun c hc => (hcs c hc).imp id fun ⟨d, ob, h⟩ => ⟨_, h⟩) hgood
  obtain ⟨us, hu⟩ := dataCalls_of (f := fun u => .decryptUpdate (some u.1) u.2) (h := h) (k := k) (cs := cs')
    (fun c hc => (hcs c hc).imp id fun ⟨d, ob, h⟩ => ⟨(d, ob), h⟩)
  obtain ⟨g1, g2, g3⟩ := echoes_upd e.crypto o (fun u => .decryptUpdate (some u.1) u.2) (decCalls e.crypto o)
    (fun _ _ => rfl) handed_dec us st
  rw [hu, g3] at hw ha
  rw [hu] at ht
  exact ⟨s, o, st, us, h1, h2, h3, by rw [ht, g1], by rw [ht, g2], hw, ha⟩

theorem Emptied.get {l : Lib} {h : Nat} (hf : Emptied l h) {s : Session} (hs : getSession l h = some s) :
    NothingBuffered s.op :=
  (hf s (getSession_handle hs).2.2 (getSession_handle hs).1).1

/-- **C43**, encryption in a history: whatever is done before, and whatever is done in between
in other sessions and with other objects, the bytes written by the `C_EncryptUpdate` calls are
the CBC encryption of the whole blocks of the data handed over, and `C_EncryptFinal` succeeds
exactly when the data is a whole number of blocks. -/
theorem c43_encrypt_history (hh : HashLen e) (hr : RandLen e) {l₀ : Lib} (h₀ : Start l₀) (hd : NoToken l₀)
    (cs cs' : List Call) (h k : Nat) (iv : Bytes) (hf : Emptied (run e l₀ cs) h)
    (hok : (answer e (run e l₀ cs) (.sess h (.cryptInit .encrypt (some (.aesCbc, .raw iv)) k))).rv = .ok)
    (hcs : ∀ c ∈ cs', EncryptsOr h k c)
    (hgood : (run e l₀ (cs ++ .sess h (.cryptInit .encrypt (some (.aesCbc, .raw iv)) k) :: cs')).bad = false) :
    ∃ o, Addressed (run e l₀ cs) h k o ∧
      let t := talk e h (run e l₀ (cs ++ [.sess h (.cryptInit .encrypt (some (.aesCbc, .raw iv)) k)])) cs'
      writtenBy t = (cbcEnc (e.crypto.aes.enc o.symm) iv (handedBy t)).1 ∧
      ∀ n, (answer e (run e l₀ (cs ++ .sess h (.cryptInit .encrypt (some (.aesCbc, .raw iv)) k) :: cs'))
          (.sess h (.crypt (.encryptFinal (.buf n))))).rv =
        if (handedBy t).length % 16 = 0 then .ok else .dataLenRange := by
  obtain ⟨s, o, st, us, h1, h2, h3, h4, h5, _, h6⟩ := enc_history hh hr h₀ hd cs cs' h k .aesCbc (.raw iv) hok hcs hgood
  obtain ⟨g1, g2⟩ := c43_encrypt_split e.crypto s.op st o iv us h3 (hf.get h1)
  refine ⟨o, h2, ?_⟩
  dsimp only
  rw [h4, h5]
  exact ⟨g1, fun n => by rw [h6]; exact g2 n⟩

/-- **C43**, decryption in a history. -/
theorem c43_decrypt_history (hh : HashLen e) (hr : RandLen e) {l₀ : Lib} (h₀ : Start l₀) (hd : NoToken l₀)
    (cs cs' : List Call) (h k : Nat) (iv : Bytes) (hf : Emptied (run e l₀ cs) h)
    (hok : (answer e (run e l₀ cs) (.sess h (.cryptInit .decrypt (some (.aesCbc, .raw iv)) k))).rv = .ok)
    (hcs : ∀ c ∈ cs', DecryptsOr h k c)
    (hgood : (run e l₀ (cs ++ .sess h (.cryptInit .decrypt (some (.aesCbc, .raw iv)) k) :: cs')).bad = false) :
    ∃ o, Addressed (run e l₀ cs) h k o ∧
      let t := talk e h (run e l₀ (cs ++ [.sess h (.cryptInit .decrypt (some (.aesCbc, .raw iv)) k)])) cs'
      writtenBy t = (cbcDec (e.crypto.aes.dec o.symm) iv (handedBy t)).1 ∧
      ∀ n, (answer e (run e l₀ (cs ++ .sess h (.cryptInit .decrypt (some (.aesCbc, .raw iv)) k) :: cs'))
          (.sess h (.crypt (.decryptFinal (.buf n))))).rv =
        if (handedBy t).length % 16 = 0 then .ok else .dataLenRange := by
  obtain ⟨s, o, st, us, h1, h2, h3, h4, h5, _, h6⟩ := dec_history hh hr h₀ hd cs cs' h k .aesCbc (.raw iv) hok hcs hgood
  obtain ⟨g1, g2⟩ := c43_decrypt_split e.crypto s.op st o iv us h3 (hf.get h1)
  refine ⟨o, h2, ?_⟩
  dsimp only
  rw [h4, h5]
  exact ⟨g1, fun n => by rw [h6]; exact g2 n⟩

/-- The bytes an answer wrote. -/
def Resp.wr (r : Resp) : Bytes := (r.out.map (·.wr)).getD []

/-- **C44**, encryption in a history: the bytes written by the `C_EncryptUpdate` calls and by
`C_EncryptFinal` with room for a block are the CBC encryption of the padded data. -/
theorem c44_encrypt_history (hh : HashLen e) (hr : RandLen e) {l₀ : Lib} (h₀ : Start l₀) (hd : NoToken l₀)
    (cs cs' : List Call) (h k : Nat) (iv : Bytes) (hf : Emptied (run e l₀ cs) h)
    (hok : (answer e (run e l₀ cs) (.sess h (.cryptInit .encrypt (some (.aesCbcPad, .raw iv)) k))).rv = .ok)
    (hcs : ∀ c ∈ cs', EncryptsOr h k c) (n : Nat) (hn : 16 ≤ n)
    (hgood : (run e l₀ (cs ++ .sess h (.cryptInit .encrypt (some (.aesCbcPad, .raw iv)) k) :: cs')).bad = false) :
    ∃ o, Addressed (run e l₀ cs) h k o ∧
      let t := talk e h (run e l₀ (cs ++ [.sess h (.cryptInit .encrypt (some (.aesCbcPad, .raw iv)) k)])) cs'
      let fin := answer e (run e l₀ (cs ++ .sess h (.cryptInit .encrypt (some (.aesCbcPad, .raw iv)) k) :: cs'))
        (.sess h (.crypt (.encryptFinal (.buf n))))
      fin.rv = .ok ∧ writtenBy t ++ fin.wr = (cbcEnc (e.crypto.aes.enc o.symm) iv (pkcs7Pad (handedBy t))).1 := by
  obtain ⟨s, o, st, us, h1, h2, h3, h4, h5, _, h6⟩ := enc_history hh hr h₀ hd cs cs' h k .aesCbcPad (.raw iv) hok hcs hgood
  obtain ⟨g1, g2⟩ := c44_encrypt_split e.crypto s.op st o iv us n hn h3 (hf.get h1)
  refine ⟨o, h2, ?_⟩
  dsimp only
  rw [h4, h5, h6]
  exact ⟨g1, g2⟩

/-- **C44**, decryption in a history: if the data handed over by the `C_DecryptUpdate` calls is
the encryption of the padded message `msg`, then the bytes written by them and by
`C_DecryptFinal` are `msg`. -/
theorem c44_decrypt_history (hx : e.crypto.aes.Lawful) (hh : HashLen e) (hr : RandLen e) {l₀ : Lib} (h₀ : Start l₀)
    (hd : NoToken l₀) (cs cs' : List Call) (h k : Nat) (iv msg : Bytes) (hf : Emptied (run e l₀ cs) h)
    (hok : (answer e (run e l₀ cs) (.sess h (.cryptInit .decrypt (some (.aesCbcPad, .raw iv)) k))).rv = .ok)
    (hcs : ∀ c ∈ cs', DecryptsOr h k c) (n : Nat)
    (hgood : (run e l₀ (cs ++ .sess h (.cryptInit .decrypt (some (.aesCbcPad, .raw iv)) k) :: cs')).bad = false) :
    ∃ o, Addressed (run e l₀ cs) h k o ∧
      let t := talk e h (run e l₀ (cs ++ [.sess h (.cryptInit .decrypt (some (.aesCbcPad, .raw iv)) k)])) cs'
      let fin := answer e (run e l₀ (cs ++ .sess h (.cryptInit .decrypt (some (.aesCbcPad, .raw iv)) k) :: cs'))
        (.sess h (.crypt (.decryptFinal (.buf n))))
      handedBy t = (cbcEnc (e.crypto.aes.enc o.symm) iv (pkcs7Pad msg)).1 →
        fin.rv = .ok ∧ writtenBy t ++ fin.wr = msg := by
  obtain ⟨s, o, st, us, h1, h2, h3, h4, h5, _, h6⟩ := dec_history hh hr h₀ hd cs cs' h k .aesCbcPad (.raw iv) hok hcs hgood
  refine ⟨o, h2, ?_⟩
  dsimp only
  rw [h4, h5, h6]
  intro hdata
  obtain ⟨g1, g2, _⟩ := c44_decrypt_split e.crypto hx s.op st o iv msg us n h3 (hf.get h1) hdata
  exact ⟨g1, g2⟩

/-- **C47**, decryption in a history: the `C_DecryptUpdate` calls write nothing, and
`C_DecryptFinal` writes only what AES-GCM accepts as the decryption of exactly the data handed
over: its last `t / 8` bytes are the tag. -/
theorem c47_decrypt_history (hh : HashLen e) (hr : RandLen e) {l₀ : Lib} (h₀ : Start l₀) (hd : NoToken l₀)
    (cs cs' : List Call) (h k : Nat) (iv : Bytes) (aad : Option Bytes) (t n : Nat) (ht : t ≤ 128)
    (hok : (answer e (run e l₀ cs) (.sess h (.cryptInit .decrypt (some (.aesGcm, .gcm iv aad t)) k))).rv = .ok)
    (hcs : ∀ c ∈ cs', DecryptsOr h k c)
    (hgood : (run e l₀ (cs ++ .sess h (.cryptInit .decrypt (some (.aesGcm, .gcm iv aad t)) k) :: cs')).bad = false) :
    ∃ o, Addressed (run e l₀ cs) h k o ∧
      let u := talk e h (run e l₀ (cs ++ [.sess h (.cryptInit .decrypt (some (.aesGcm, .gcm iv aad t)) k)])) cs'
      let fin := answer e (run e l₀ (cs ++ .sess h (.cryptInit .decrypt (some (.aesGcm, .gcm iv aad t)) k) :: cs'))
        (.sess h (.crypt (.decryptFinal (.buf n))))
      writtenBy u = [] ∧
      (fin.rv = .ok → t / 8 ≤ (handedBy u).length ∧
        e.crypto.gcm.dec o.symm iv aad (aad.getD []).length ((handedBy u).take ((handedBy u).length - t / 8))
          ((handedBy u).drop ((handedBy u).length - t / 8)) = some fin.wr) := by
  obtain ⟨s, o, st, us, h1, h2, h3, h4, h5, _, h6⟩ :=
    dec_history hh hr h₀ hd cs cs' h k .aesGcm (.gcm iv aad t) hok hcs hgood
  obtain ⟨g1, g2⟩ := c47_decrypt_split e.crypto s.op st o iv aad t us (.buf n) 0 h3
  refine ⟨o, h2, ?_⟩
  dsimp only
  rw [h4, h5, h6]
  refine ⟨g1, ?_⟩
  have g3 := c47_only_authenticated e.crypto s.op st o iv (accepted us (runCalls (decCalls e.crypto o) st us).2) aad t n 0 h3 ht
  rw [← g2] at g3
  exact g3

/-- The parts of the message in a history with only `C_SignUpdate` (`C_VerifyUpdate`) calls in
the session. -/
theorem parts_of {h k : Nat} {f : Bytes → DataCall} {cs : List Call}
    (hcs : ∀ c ∈ cs, Bystander h k c ∨ ∃ u, c = .sess h (.crypt (f u))) :
    ∃ us : List Bytes, dataCalls h cs = us.map f := by
  induction cs with
  | nil => exact ⟨[], rfl⟩
  | cons c cs ih =>
    obtain ⟨us, hu⟩ := ih fun c hc => hcs c (List.mem_cons_of_mem _ hc)
    rcases hcs c (List.mem_cons_self ..) with hb | ⟨u, rfl⟩
    · refine ⟨us, ?_⟩
      cases c with
      | sess j c =>
        cases c with
        | crypt d => have hne : j ≠ h := hb.2; simp only [dataCalls, if_neg hne]; exact hu
        | _ => exact hu
      | _ => exact hu
    · exact ⟨u :: us, by simp only [dataCalls, if_true, hu, List.map_cons]⟩

theorem echoes_mac (x : Crypto) (o : Obj) (i : OpInit) (a : HmacAlg) (f : Bytes → DataCall)
    (hfg : ∀ st u, (f u).run x st (some o) = macUpdate st i (some o) (some u))
    (hf : ∀ u r, handed (f u, r) = if r.rv = .ok then u else [])
    (us : List Bytes) : ∀ st : OpSt, st.mech = .hmac a → st.init = i →
      handedBy (echoes x o st (us.map f)) = us.flatten ∧
      afterData x o st (us.map f) = macParts (fun s => macUpdate s i) o st us := by
  induction us with
  | nil => intro st _ _; exact ⟨rfl, rfl⟩
  | cons u us ih =>
    intro st h1 h2
    have hu : macUpdate st i (some o) (some u) = ({ st with hmac := st.hmac.update u }, { rv := .ok }) := by
      simp [macUpdate, withArgs, needInit, h1, h2]
    obtain ⟨g1, g2⟩ := ih (macUpdate st i (some o) (some u)).1 (by rw [hu]; exact h1) (by rw [hu]; exact h2)
    simp only [List.map_cons, echoes, afterData, hfg, handedBy, List.flatMap_cons, macParts, List.foldl_cons,
      List.flatten_cons] at *
    refine ⟨?_, g2⟩
    rw [g1, hf, hu]
    rfl

/-- **C49**, signing in a history: `C_SignFinal` writes the MAC of the data handed over by the
`C_SignUpdate` calls. -/
theorem c49_sign_history (hx : e.crypto.mac.Lawful) (hh : HashLen e) (hr : RandLen e) {l₀ : Lib} (h₀ : Start l₀)
    (hd : NoToken l₀) (cs cs' : List Call) (h k : Nat) (a : HmacAlg) (p : MechParam) (n : Nat)
    (hok : (answer e (run e l₀ cs) (.sess h (.cryptInit .sign (some (.hmac a, p)) k))).rv = .ok)
    (hcs : ∀ c ∈ cs', SignsOr h k c)
    (hgood : (run e l₀ (cs ++ .sess h (.cryptInit .sign (some (.hmac a, p)) k) :: cs')).bad = false) :
    ∃ o, Addressed (run e l₀ cs) h k o ∧
      let t := talk e h (run e l₀ (cs ++ [.sess h (.cryptInit .sign (some (.hmac a, p)) k)])) cs'
      let fin := answer e (run e l₀ (cs ++ .sess h (.cryptInit .sign (some (.hmac a, p)) k) :: cs'))
        (.sess h (.crypt (.signFinal (.buf n))))
      if e.crypto.mac.size a ≤ n then fin.rv = .ok ∧ fin.wr = e.crypto.mac.mac a o.symm (handedBy t)
      else fin.rv = .bufferTooSmall := by
  obtain ⟨s, o, st, h1, h2, h3, h4, _, h6⟩ := op_history hh hr h₀ hd cs cs' h k .sign (.hmac a) p hok
    (fun c hc => (hcs c hc).imp id fun ⟨d, h⟩ => ⟨_, h⟩) hgood
  obtain ⟨us, hu⟩ := parts_of (f := fun u => .signUpdate (some u)) (h := h) (k := k) (cs := cs') hcs
  obtain ⟨m1, m2, _⟩ := hmacInit_ok (i := .hmacSign) h3
  obtain ⟨g1, g2⟩ := echoes_mac e.crypto o .hmacSign a (fun u => .signUpdate (some u)) (fun _ _ => rfl)
    (fun _ _ => rfl) us st m1 m2
  refine ⟨o, h2, ?_⟩
  dsimp only
  rw [h4, h6, hu, g1, g2]
  have := (c49_sign_split e.crypto hx s.op st o a p us n 0 h3).1
  have e' : macParts signUpdate o st us = macParts (fun s => macUpdate s .hmacSign) o st us := rfl
  rw [e'] at this
  simp only [DataCall.run, this]
  split
  · exact ⟨rfl, rfl⟩
  · rfl

/-- **C49**, verification in a history: `C_VerifyFinal` accepts exactly the MAC of the data
handed over by the `C_VerifyUpdate` calls. -/
theorem c49_verify_history (hx : e.crypto.mac.Lawful) (hh : HashLen e) (hr : RandLen e) {l₀ : Lib} (h₀ : Start l₀)
    (hd : NoToken l₀) (cs cs' : List Call) (h k : Nat) (a : HmacAlg) (p : MechParam) (sig : Bytes)
    (hok : (answer e (run e l₀ cs) (.sess h (.cryptInit .verify (some (.hmac a, p)) k))).rv = .ok)
    (hcs : ∀ c ∈ cs', VerifiesOr h k c)
    (hgood : (run e l₀ (cs ++ .sess h (.cryptInit .verify (some (.hmac a, p)) k) :: cs')).bad = false) :
    ∃ o, Addressed (run e l₀ cs) h k o ∧
      let t := talk e h (run e l₀ (cs ++ [.sess h (.cryptInit .verify (some (.hmac a, p)) k)])) cs'
      (answer e (run e l₀ (cs ++ .sess h (.cryptInit .verify (some (.hmac a, p)) k) :: cs'))
        (.sess h (.crypt (.verifyFinal (some sig))))).rv =
      if sig = e.crypto.mac.mac a o.symm (handedBy t) then .ok else .signatureInvalid := by
  obtain ⟨s, o, st, h1, h2, h3, h4, _, h6⟩ := op_history hh hr h₀ hd cs cs' h k .verify (.hmac a) p hok
    (fun c hc => (hcs c hc).imp id fun ⟨d, h⟩ => ⟨_, h⟩) hgood
  obtain ⟨us, hu⟩ := parts_of (f := fun u => .verifyUpdate (some u)) (h := h) (k := k) (cs := cs') hcs
  obtain ⟨m1, m2, _⟩ := hmacInit_ok (i := .hmacVerify) h3
  obtain ⟨g1, g2⟩ := echoes_mac e.crypto o .hmacVerify a (fun u => .verifyUpdate (some u)) (fun _ _ => rfl)
    (fun _ _ => rfl) us st m1 m2
  refine ⟨o, h2, ?_⟩
  dsimp only
  rw [h4, h6, hu, g1, g2]
  exact (c49_verify_exact e.crypto hx s.op st o a p us sig h3).1

/-- The condition `Emptied` of C43 and C44 holds as long as nothing was begun in the session
that uses the buffer. -/
theorem c43_emptied_start {l₀ : Lib} (h₀ : Start l₀) (h : Nat) (cs : List Call) (hcs : ∀ c ∈ cs, ¬ Buffers h c) :
    Emptied (run e l₀ cs) h :=
  Emptied.run cs hcs (by intro s hs; rw [h₀.sessions] at hs; cases hs)

theorem Works.emptied {l : Lib} (hi : SInv l) {h : Nat} {st : OpSt} {ov : Obj} (hw : Works l h st ov) (he : st.Emptied) :
    Emptied l h := by
  obtain ⟨s, h1, rfl, _⟩ := hw
  intro t ht hh
  obtain ⟨g1, _, g3⟩ := getSession_handle h1
  have a := (find_iff hi.nodup).mpr ⟨ht, hh⟩
  have b := (find_iff hi.nodup).mpr ⟨g3, g1⟩
  rw [a] at b
  rw [Option.some.inj b]
  exact he

theorem SInv.reach {l₀ : Lib} (h₀ : Start l₀) (cs : List Call) : SInv (Verif.run e l₀ cs) :=
  h₀.sinv.run e cs

/-- The condition `Emptied` holds again once an encryption that began with it was finished by a
`C_EncryptFinal` with a buffer of a block, and remains while nothing else uses the buffer. -/
theorem c43_emptied_encrypted (hh : HashLen e) (hr : RandLen e) {l₀ : Lib} (h₀ : Start l₀) (hd : NoToken l₀)
    (cs cs' cs'' : List Call) (h k : Nat) (m : Mech) (hm : m = .aesCbc ∨ m = .aesCbcPad) (iv : Bytes)
    (hf : Emptied (run e l₀ cs) h)
    (hok : (answer e (run e l₀ cs) (.sess h (.cryptInit .encrypt (some (m, .raw iv)) k))).rv = .ok)
    (hcs : ∀ c ∈ cs', EncryptsOr h k c) (n : Nat) (hn : 16 ≤ n)
    (hgood : (run e l₀ (cs ++ .sess h (.cryptInit .encrypt (some (m, .raw iv)) k) :: cs')).bad = false)
    (hcs'' : ∀ c ∈ cs'', ¬ Buffers h c) :
    Emptied (run e l₀ (cs ++ .sess h (.cryptInit .encrypt (some (m, .raw iv)) k) :: cs' ++
      .sess h (.crypt (.encryptFinal (.buf n))) :: cs'')) h := by
  obtain ⟨s, o, st, us, h1, _, h3, _, _, hw, _⟩ := enc_history hh hr h₀ hd cs cs' h k m (.raw iv) hok hcs hgood
  have hcap := (Start.capInv h₀ hd).run hh hr h₀.sinv (cs ++ .sess h (.cryptInit .encrypt (some (m, .raw iv)) k) :: cs')
  have hi : SInv (run e l₀ (cs ++ .sess h (.cryptInit .encrypt (some (m, .raw iv)) k) :: cs')) := SInv.reach h₀ _
  have hcnt : 0 < (run e l₀ (cs ++ .sess h (.cryptInit .encrypt (some (m, .raw iv)) k) :: cs')).count := by
    rcases hi.shape with ⟨_, hz⟩ | ⟨hz, _⟩
    · obtain ⟨t, ht, _⟩ := hw
      have := (getSession_handle ht).2.2
      rw [hz] at this; cases this
    · exact hz
  rw [run_append]
  refine Emptied.run cs'' hcs'' ?_
  refine (hw.data (e := e) hcap.pop hgood hcnt _).2.1.emptied (hi.step e _) ?_
  rw [run_view]
  have hmid : ∃ i, EncMode m i ∧ MidEnc e.crypto m i o.symm iv (runCalls (encCalls e.crypto o) st us).1
      (accepted us (runCalls (encCalls e.crypto o) st us).2) (produced (runCalls (encCalls e.crypto o) st us).2) := by
    rcases hm with rfl | rfl
    · refine ⟨.aesCbcEnc, .inl ⟨rfl, rfl⟩, ?_⟩
      have g := runCalls_inv (encCalls e.crypto o) _ (fun s acc out c => encCalls_step (.inl ⟨rfl, rfl⟩) s acc out c)
        us _ [] [] (midEnc_init e.crypto h3 (hf.get h1))
      simpa only [List.nil_append] using g
    · refine ⟨.aesCbcPadEnc, .inr ⟨rfl, rfl⟩, ?_⟩
      have g := runCalls_inv (encCalls e.crypto o) _ (fun s acc out c => encCalls_step (.inr ⟨rfl, rfl⟩) s acc out c)
        us _ [] [] (midEnc_init e.crypto h3 (hf.get h1))
      simpa only [List.nil_append] using g
  obtain ⟨i, hmode, hmid⟩ := hmid
  generalize (runCalls (encCalls e.crypto o) st us).1 = u at *
  rcases hmode with ⟨rfl, rfl⟩ | ⟨rfl, rfl⟩
  · simp only [DataCall.run, encryptFinal, withArgs, hmid.mech, needInit, hmid.init, cbcFinal]
    by_cases hp : u.cbc.partSz = 0
    · simp [hp, OpSt.Emptied, NothingBuffered, Cbc.final, hmid.ok.part]
    · simp [hp, OpSt.Emptied, NothingBuffered, Cbc.final, hmid.ok.part]
  · have hk : ¬ 16 > n := by omega
    obtain ⟨_, g2, g3⟩ := padEncFinal_spec e.crypto.aes u.cbc hmid.ok
    simp only [DataCall.run, encryptFinal, withArgs, hmid.mech, needInit, hmid.init, sized, hk]
    simp [OpSt.Emptied, NothingBuffered, g2, g3]

/-- The same of a decryption finished by `C_DecryptFinal`. -/
theorem c43_emptied_decrypted (hx : e.crypto.aes.Lawful) (hh : HashLen e) (hr : RandLen e) {l₀ : Lib} (h₀ : Start l₀)
    (hd : NoToken l₀) (cs cs' cs'' : List Call) (h k : Nat) (m : Mech) (hm : m = .aesCbc ∨ m = .aesCbcPad) (iv : Bytes)
    (hf : Emptied (run e l₀ cs) h)
    (hok : (answer e (run e l₀ cs) (.sess h (.cryptInit .decrypt (some (m, .raw iv)) k))).rv = .ok)
    (hcs : ∀ c ∈ cs', DecryptsOr h k c) (n : Nat)
    (hgood : (run e l₀ (cs ++ .sess h (.cryptInit .decrypt (some (m, .raw iv)) k) :: cs')).bad = false)
    (hcs'' : ∀ c ∈ cs'', ¬ Buffers h c) :
    Emptied (run e l₀ (cs ++ .sess h (.cryptInit .decrypt (some (m, .raw iv)) k) :: cs' ++
      .sess h (.crypt (.decryptFinal (.buf n))) :: cs'')) h := by
  obtain ⟨s, o, st, us, h1, _, h3, _, _, hw, _⟩ := dec_history hh hr h₀ hd cs cs' h k m (.raw iv) hok hcs hgood
  have hcap := (Start.capInv h₀ hd).run hh hr h₀.sinv (cs ++ .sess h (.cryptInit .decrypt (some (m, .raw iv)) k) :: cs')
  have hi : SInv (run e l₀ (cs ++ .sess h (.cryptInit .decrypt (some (m, .raw iv)) k) :: cs')) := SInv.reach h₀ _
  have hcnt : 0 < (run e l₀ (cs ++ .sess h (.cryptInit .decrypt (some (m, .raw iv)) k) :: cs')).count := by
    rcases hi.shape with ⟨_, hz⟩ | ⟨hz, _⟩
    · obtain ⟨t, ht, _⟩ := hw
      have := (getSession_handle ht).2.2
      rw [hz] at this; cases this
    · exact hz
  rw [run_append]
  refine Emptied.run cs'' hcs'' ?_
  refine (hw.data (e := e) hcap.pop hgood hcnt _).2.1.emptied (hi.step e _) ?_
  rw [run_view]
  rcases hm with rfl | rfl
  · have g := runCalls_inv (decCalls e.crypto o) _ (fun s acc out c => decCalls_step (.inl ⟨rfl, rfl⟩) s acc out c)
      us _ [] [] (midDec_init e.crypto h3 (hf.get h1))
    simp only [List.nil_append] at g
    generalize (runCalls (decCalls e.crypto o) st us).1 = u at *
    simp only [DataCall.run, decryptFinal, withArgs, g.mech, needInit, g.init, cbcFinal]
    by_cases hp : u.cbc.partSz = 0
    · simp [hp, OpSt.Emptied, NothingBuffered, Cbc.final, g.ok.part]
    · simp [hp, OpSt.Emptied, NothingBuffered, Cbc.final, g.ok.part]
  · obtain ⟨_, hiv, hkey⟩ := cbcInit_ok h3
    have hc := hx _ hkey
    have g := runCalls_inv (decCalls e.crypto o) _ (fun s acc out c => decCalls_step (.inr ⟨rfl, rfl⟩) s acc out c)
      us _ [] [] (midDec_init e.crypto h3 (hf.get h1))
    simp only [List.nil_append] at g
    obtain ⟨w, hw', _, hout⟩ := g.split
    generalize (runCalls (decCalls e.crypto o) st us).1 = u at *
    simp only [DataCall.run, decryptFinal, withArgs, g.mech, needInit, g.init]
    by_cases hp : u.cbc.partSz = 16
    · have hreg : u.cbc.reg.length = 16 := by
        have h' := cbcDec_length hc iv w hiv
        rw [← hout] at h'; exact h'.2
      have hblk : (cbcDec (e.crypto.aes.dec u.cbc.key) u.cbc.reg u.cbc.part).1.length = 16 := by
        rw [g.hkey, (cbcDec_length hc _ _ hreg).1, g.ok.part]
      obtain ⟨q1, q2, q3⟩ := padDecFinal_full e.crypto.aes u.cbc g.ok.part hp hblk
      simp [hp, q1, OpSt.Emptied, NothingBuffered, q2, q3]
    · simp [hp, OpSt.Emptied, NothingBuffered, Cbc.final, g.ok.part]

/-- **C44**, the round trip in histories: a message encrypted in parts in one history and its
ciphertext decrypted in parts in another (or later in the same), with the same key and IV,
gives back the message, whatever other calls come in between. -/
theorem c44_round_trip_history (hx : e.crypto.aes.Lawful) (hh : HashLen e) (hr : RandLen e) {l₀ : Lib} (h₀ : Start l₀)
    (hd : NoToken l₀) (cs cs' ds ds' : List Call) (h k j i : Nat) (iv : Bytes)
    (hf : Emptied (run e l₀ cs) h) (hf' : Emptied (run e l₀ ds) j)
    (hok : (answer e (run e l₀ cs) (.sess h (.cryptInit .encrypt (some (.aesCbcPad, .raw iv)) k))).rv = .ok)
    (hok' : (answer e (run e l₀ ds) (.sess j (.cryptInit .decrypt (some (.aesCbcPad, .raw iv)) i))).rv = .ok)
    (hcs : ∀ c ∈ cs', EncryptsOr h k c) (hds : ∀ c ∈ ds', DecryptsOr j i c) (n n' : Nat) (hn : 16 ≤ n)
    (hkey : ∀ o o', Addressed (run e l₀ cs) h k o → Addressed (run e l₀ ds) j i o' → o.symm = o'.symm)
    (hgood : (run e l₀ (cs ++ .sess h (.cryptInit .encrypt (some (.aesCbcPad, .raw iv)) k) :: cs')).bad = false)
    (hgood' : (run e l₀ (ds ++ .sess j (.cryptInit .decrypt (some (.aesCbcPad, .raw iv)) i) :: ds')).bad = false) :
    let t := talk e h (run e l₀ (cs ++ [.sess h (.cryptInit .encrypt (some (.aesCbcPad, .raw iv)) k)])) cs'
    let fin := answer e (run e l₀ (cs ++ .sess h (.cryptInit .encrypt (some (.aesCbcPad, .raw iv)) k) :: cs'))
      (.sess h (.crypt (.encryptFinal (.buf n))))
    let t' := talk e j (run e l₀ (ds ++ [.sess j (.cryptInit .decrypt (some (.aesCbcPad, .raw iv)) i)])) ds'
    let fin' := answer e (run e l₀ (ds ++ .sess j (.cryptInit .decrypt (some (.aesCbcPad, .raw iv)) i) :: ds'))
      (.sess j (.crypt (.decryptFinal (.buf n'))))
    handedBy t' = writtenBy t ++ fin.wr → fin'.rv = .ok ∧ writtenBy t' ++ fin'.wr = handedBy t := by
  obtain ⟨o, ho, _, h2⟩ := c44_encrypt_history hh hr h₀ hd cs cs' h k iv hf hok hcs n hn hgood
  intro t fin t' fin' hdata
  obtain ⟨o', ho', h3⟩ := c44_decrypt_history hx hh hr h₀ hd ds ds' j i iv (handedBy t) hf' hok' hds n' hgood'
  refine h3 ?_
  rw [← hkey o o' ho ho', ← h2]
  exact hdata

namespace Demo

/-- An AES key, and an encryption in two parts with other calls in between. -/
def partsKey : List Call := setup ++ [createCall 65538 (aesTmpl false 3)]
def partsInit (kd : Kind) : Call := .sess 65538 (.cryptInit kd (some (.aesCbcPad, .raw iv)) 1)
def partsEnc : List Call :=
  [.sess 65538 (.crypt (.encryptUpdate (some (List.replicate 20 7)) (.buf 32))), openCall true,
   createCall 65538 (aesTmpl true 4), .sess 65538 (.crypt (.encryptUpdate (some [1, 2]) (.buf 0))),
   .sess 65537 (.crypt (.encryptUpdate (some [9]) (.buf 99)))]

set_option maxRecDepth 20000 in
/-- The hypotheses of `c44_encrypt_history` are met. -/
example : Emptied (run env fresh partsKey) 65538 ∧
    (answer env (run env fresh partsKey) (partsInit .encrypt)).rv = .ok ∧
    (∀ c ∈ partsEnc, EncryptsOr 65538 1 c) ∧
    (run env fresh (partsKey ++ partsInit .encrypt :: partsEnc)).bad = false ∧
    (handedBy (talk env 65538 (run env fresh (partsKey ++ [partsInit .encrypt])) partsEnc)).length = 22 ∧
    (writtenBy (talk env 65538 (run env fresh (partsKey ++ [partsInit .encrypt])) partsEnc)).length = 16 := by
  refine ⟨c43_emptied_start fresh_start _ _ ?_, by decide, ?_, by decide, by decide, by decide⟩
  · intro c hc
    simp only [partsKey, setup, List.cons_append, List.nil_append, List.mem_cons, List.not_mem_nil, or_false] at hc
    rcases hc with rfl | rfl | rfl | rfl | rfl | rfl | rfl | rfl | rfl | rfl <;> exact fun h => h
  intro c hc
  simp only [partsEnc, List.mem_cons, List.not_mem_nil, or_false] at hc
  rcases hc with rfl | rfl | rfl | rfl | rfl
  · exact .inr ⟨_, _, rfl⟩
  · exact .inl ⟨trivial, nofun⟩
  · exact .inl ⟨trivial, nofun⟩
  · exact .inr ⟨_, _, rfl⟩
  · exact .inl ⟨trivial, by simp [Crypts]⟩

/-- A decryption in two parts. -/
def partsDec : List Call :=
  [.sess 65538 (.crypt (.decryptUpdate (some (List.replicate 20 7)) (.buf 32))), openCall true,
   .sess 65538 (.crypt (.decryptUpdate (some (List.replicate 12 7)) (.buf 32)))]

set_option maxRecDepth 20000 in
/-- The hypotheses of the theorems on decryption are met (`c47_decrypt_history` has the same
with another mechanism). -/
example : (answer env (run env fresh partsKey) (partsInit .decrypt)).rv = .ok ∧
    (∀ c ∈ partsDec, DecryptsOr 65538 1 c) ∧
    (run env fresh (partsKey ++ partsInit .decrypt :: partsDec)).bad = false ∧
    (answer env (run env fresh partsKey) (.sess 65538 (.cryptInit .decrypt (some (.aesGcm, .gcm [1, 2] none 32)) 1))).rv = .ok ∧
    (run env fresh (partsKey ++ .sess 65538 (.cryptInit .decrypt (some (.aesGcm, .gcm [1, 2] none 32)) 1) :: partsDec)).bad = false ∧
    (handedBy (talk env 65538 (run env fresh (partsKey ++ [partsInit .decrypt])) partsDec)).length = 32 := by
  refine ⟨by decide, ?_, by decide, by decide, by decide, by decide⟩
  intro c hc
  simp only [partsDec, List.mem_cons, List.not_mem_nil, or_false] at hc
  rcases hc with rfl | rfl | rfl
  · exact .inr ⟨_, _, rfl⟩
  · exact .inl ⟨trivial, nofun⟩
  · exact .inr ⟨_, _, rfl⟩

end Demo

end Verif
