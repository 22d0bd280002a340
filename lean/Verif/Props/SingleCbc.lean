import Verif.Props.Single
import Verif.Props.Cbc
import Verif.Props.CbcBuf

/-!
# C145 for AES-CBC and AES-CBC-PAD
-/

namespace Verif

open Spec

variable {e : Env}

/-- **C145** for AES-CBC (partial: messages of whole blocks).  Whatever happened before -- what an abandoned operation left
in the session does not matter -- `C_Encrypt` and `C_Decrypt` write the CBC encryption and decryption of the data. -/
theorem c145_cbc_partial (hh : HashLen e) (hr : RandLen e) {l₀ : Lib} (h₀ : Start l₀) (hd : NoToken l₀) (cs cs' : List Call)
    (h k : Nat) (kd : Kind) (iv : Bytes)
    (hok : (answer e (run e l₀ cs) (.sess h (.cryptInit kd (some (.aesCbc, .raw iv)) k))).rv = .ok)
    (hcs : ∀ c ∈ cs', Bystander h k c)
    (hgood : (run e l₀ (cs ++ .sess h (.cryptInit kd (some (.aesCbc, .raw iv)) k) :: cs')).bad = false) :
    ∃ o, Addressed (run e l₀ cs) h k o ∧ ∀ d n rnd, d.length % 16 = 0 →
      let l := run e l₀ (cs ++ .sess h (.cryptInit kd (some (.aesCbc, .raw iv)) k) :: cs')
      (kd = .encrypt → answer e l (.sess h (.crypt (.encrypt (some d) (.buf n) rnd))) =
        if d.length ≤ n then
          { rv := .ok, out := some { rv := .ok, wr := (cbcEnc (e.crypto.aes.enc o.symm) iv d).1, len := some d.length } }
        else { rv := .bufferTooSmall, out := some { rv := .bufferTooSmall } }) ∧
      (kd = .decrypt → answer e l (.sess h (.crypt (.decrypt (some d) (.buf n) rnd))) =
        if d.length ≤ n then
          { rv := .ok, out := some { rv := .ok, wr := (cbcDec (e.crypto.aes.dec o.symm) iv d).1, len := some d.length } }
        else { rv := .bufferTooSmall, out := some { rv := .bufferTooSmall } }) := by
  obtain ⟨s, o, st, _, h2, h3, _, _, h6⟩ := op_history hh hr h₀ hd cs cs' h k kd .aesCbc (.raw iv) hok
    (fun c hc => .inl (hcs c hc)) hgood
  refine ⟨o, h2, fun d n rnd hlen => ⟨?_, ?_⟩⟩
  · rintro rfl
    rw [h6, no_dataCalls cs' hcs]
    by_cases hn : d.length ≤ n
    · have := (c43_single_part e.crypto s.op st o iv d n rnd hlen hn).1 h3
      rw [if_pos hn]
      simp only [afterData, DataCall.run, this]
    · obtain ⟨h4, _, _⟩ := cbcInit_ok (i := .aesCbcEnc) h3
      rw [if_neg hn]
      have : (encrypt e.crypto st (some o) (some d) (.buf n) rnd).2 = { rv := .bufferTooSmall } := by
        rw [h4]; simp only [encrypt, withArgs, needInit, if_true, reduceCtorEq, if_false, sized, if_pos (show d.length > n by omega)]
      simp only [afterData, DataCall.run, this]
  · rintro rfl
    rw [h6, no_dataCalls cs' hcs]
    by_cases hn : d.length ≤ n
    · have := (c43_single_part e.crypto s.op st o iv d n rnd hlen hn).2 h3
      rw [if_pos hn]
      simp only [afterData, DataCall.run, this]
    · obtain ⟨h4, _, _⟩ := cbcInit_ok (i := .aesCbcDec) h3
      rw [if_neg hn]
      have : (decrypt e.crypto st (some o) (some d) (.buf n) rnd).2 = { rv := .bufferTooSmall } := by
        rw [h4]; simp only [decrypt, withArgs, needInit, if_true, reduceCtorEq, if_false, sized, if_pos (show d.length > n by omega)]
      simp only [afterData, DataCall.run, this]

/-- With the padding, from a state in which nothing is buffered. -/
theorem pad_encrypted (x : Crypto) (hx : x.aes.Lawful) {s st : OpSt} {o : Obj} {iv : Bytes} (d : Bytes) (n rnd : Nat)
    (hn : d.length ≤ n) (hi : encryptInit s o .aesCbcPad (.raw iv) = (st, .ok)) (hs : NothingBuffered s) :
    (encrypt x st (some o) (some d) (.buf n) rnd).2.rv = .ok ∧
    (encrypt x st (some o) (some d) (.buf n) rnd).2.wr = (cbcEnc (x.aes.enc o.symm) iv (pkcs7Pad d)).1 := by
  obtain ⟨t, ht⟩ : ∃ t, decryptInit s o .aesCbcPad (.raw iv) = (t, .ok) := by
    obtain ⟨_, hiv, hk⟩ := cbcInit_ok (i := .aesCbcPadEnc) hi
    simp only [encryptInit, decryptInit, cbcInit, Cbc.setParams, if_pos hk, hiv, OpSt.started] at hi ⊢
    split at hi
    · cases hi
    · rename_i ho; rw [if_neg ho]; exact ⟨_, rfl⟩
  have := c44_single_part x hx s st s t o o rfl iv d n 0 rnd 0 hn hi hs ht hs
  exact ⟨this.1, this.2.1⟩

/-- **C145** for AES-CBC-PAD (partial: nothing left over from an operation before, and decryption of at least one byte).
`C_Encrypt` writes the CBC encryption of the padded data; `C_Decrypt` the CBC decryption of whole blocks without the number
of bytes that the last one gives, so the message itself if the data is its ciphertext. -/
theorem c145_cbc_pad_partial (ha : e.crypto.aes.Lawful) (hh : HashLen e) (hr : RandLen e) {l₀ : Lib} (h₀ : Start l₀)
    (hd : NoToken l₀) (cs cs' : List Call) (h k : Nat) (kd : Kind) (iv : Bytes) (hf : Emptied (run e l₀ cs) h)
    (hok : (answer e (run e l₀ cs) (.sess h (.cryptInit kd (some (.aesCbcPad, .raw iv)) k))).rv = .ok)
    (hcs : ∀ c ∈ cs', Bystander h k c)
    (hgood : (run e l₀ (cs ++ .sess h (.cryptInit kd (some (.aesCbcPad, .raw iv)) k) :: cs')).bad = false) :
    ∃ o, Addressed (run e l₀ cs) h k o ∧ ∀ d n rnd,
      let l := run e l₀ (cs ++ .sess h (.cryptInit kd (some (.aesCbcPad, .raw iv)) k) :: cs')
      (kd = .encrypt → d.length ≤ n →
        let r := answer e l (.sess h (.crypt (.encrypt (some d) (.buf n) rnd)))
        r.rv = .ok ∧ r.wr = (cbcEnc (e.crypto.aes.enc o.symm) iv (pkcs7Pad d)).1) ∧
      (kd = .decrypt → d ≠ [] →
        let r := answer e l (.sess h (.crypt (.decrypt (some d) (.buf n) rnd)))
        (if d.length % 16 = 0 then r.rv = .ok ∧ r.wr = stripped (cbcDec (e.crypto.aes.dec o.symm) iv d).1
         else r.rv = .functionFailed ∧ r.wr = []) ∧
        ∀ msg, d = (cbcEnc (e.crypto.aes.enc o.symm) iv (pkcs7Pad msg)).1 → r.rv = .ok ∧ r.wr = msg) := by
  obtain ⟨s, o, st, h1, h2, h3, _, _, h6⟩ := op_history hh hr h₀ hd cs cs' h k kd .aesCbcPad (.raw iv) hok
    (fun c hc => .inl (hcs c hc)) hgood
  have hnb : NothingBuffered s.op := hf.get h1
  refine ⟨o, h2, fun d n rnd => ⟨?_, ?_⟩⟩
  · rintro rfl hn
    dsimp only
    rw [h6, no_dataCalls cs' hcs]
    exact pad_encrypted e.crypto ha d n rnd hn h3 hnb
  · rintro rfl hne
    dsimp only
    rw [h6, no_dataCalls cs' hcs]
    refine ⟨c66_single_partial e.crypto ha s.op st o iv d n rnd h3 hnb hne, ?_⟩
    rintro msg rfl
    obtain ⟨t, ht⟩ : ∃ t, encryptInit s.op o .aesCbcPad (.raw iv) = (t, .ok) := by
      obtain ⟨_, hiv, hk⟩ := cbcInit_ok (i := .aesCbcPadDec) h3
      simp only [initCall, encryptInit, decryptInit, cbcInit, Cbc.setParams, if_pos hk, hiv, OpSt.started] at h3 ⊢
      split at h3
      · cases h3
      · rename_i ho; rw [if_neg ho]; exact ⟨_, rfl⟩
    have := c44_single_part e.crypto ha s.op t s.op st o o rfl iv msg msg.length n rnd rnd (Nat.le_refl _) ht hnb h3 hnb
    obtain ⟨_, g2, g3, g4⟩ := this
    rw [g2] at g3 g4
    exact ⟨g3, g4⟩

set_option maxRecDepth 20000 in
/-- Non-vacuity of `c145_cbc_partial`: an AES-CBC encryption with other calls in between, in a session in which an AES-CBC
operation was abandoned with three bytes in the buffer. -/
example :
    let i := Call.sess 65538 (.cryptInit .encrypt (some (.aesCbc, .raw Demo.iv)) 1)
    let cs := Demo.setup ++ [createCall 65538 (Demo.aesTmpl false 3), i, .sess 65538 (.crypt (.encryptUpdate (some [7, 7, 7]) (.buf 16)))]
    let l := run Demo.env Demo.fresh (cs ++ i :: Demo.meanwhile)
    HashLen Demo.env ∧ Start Demo.fresh ∧ NoToken Demo.fresh ∧
    (answer Demo.env (run Demo.env Demo.fresh cs) i).rv = .ok ∧ (∀ c ∈ Demo.meanwhile, Bystander 65538 1 c) ∧ l.bad = false ∧
    (answer Demo.env l (.sess 65538 (.crypt (.encrypt (some (List.replicate 16 5)) (.buf 16) 0)))).rv = .ok ∧
    (answer Demo.env l (.sess 65538 (.crypt (.encrypt (some (List.replicate 16 5)) (.buf 16) 0)))).wr.length = 16 := by
  refine ⟨Demo.hashLen, Demo.fresh_start, Demo.noToken, by decide, ?_, by decide, by decide, by decide⟩
  unfold Demo.meanwhile Bystander
  intro c hc
  simp only [List.mem_cons, List.not_mem_nil, or_false] at hc
  rcases hc with rfl | rfl | rfl | rfl | rfl | rfl <;> exact ⟨trivial, fun h => h⟩

set_option maxRecDepth 20000 in
/-- Non-vacuity of `c145_cbc_pad_partial`: the ciphertext of three bytes is decrypted to them. -/
example :
    let i := Call.sess 65538 (.cryptInit .decrypt (some (.aesCbcPad, .raw Demo.iv)) 1)
    let cs := Demo.setup ++ [createCall 65538 (Demo.aesTmpl false 3)]
    let l := run Demo.env Demo.fresh (cs ++ i :: Demo.meanwhile)
    let ct := (cbcEnc (Demo.env.crypto.aes.enc (List.replicate 16 3)) Demo.iv (pkcs7Pad [1, 2, 3])).1
    Demo.env.crypto.aes.Lawful ∧ HashLen Demo.env ∧ Start Demo.fresh ∧ NoToken Demo.fresh ∧ Emptied (run Demo.env Demo.fresh cs) 65538 ∧
    (answer Demo.env (run Demo.env Demo.fresh cs) i).rv = .ok ∧ (∀ c ∈ Demo.meanwhile, Bystander 65538 1 c) ∧ l.bad = false ∧
    (answer Demo.env l (.sess 65538 (.crypt (.decrypt (some ct) (.buf 16) 0)))).rv = .ok ∧
    (answer Demo.env l (.sess 65538 (.crypt (.decrypt (some ct) (.buf 16) 0)))).wr = [1, 2, 3] ∧
    (answer Demo.env l (.sess 65538 (.crypt (.decrypt (some (9 :: ct)) (.buf 16) 0)))).rv = .functionFailed := by
  refine ⟨Demo.aes_lawful, Demo.hashLen, Demo.fresh_start, Demo.noToken,
    by unfold Emptied OpSt.Emptied NothingBuffered; decide +kernel, by decide, ?_, by decide, by decide, by decide, by decide⟩
  unfold Demo.meanwhile Bystander
  intro c hc
  simp only [List.mem_cons, List.not_mem_nil, or_false] at hc
  rcases hc with rfl | rfl | rfl | rfl | rfl | rfl <;> exact ⟨trivial, fun h => h⟩

end Verif
